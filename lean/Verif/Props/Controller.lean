import Verif.Proof.Controller
import Verif.Proof.Fields
import Verif.Props.Server

/-! # Properties C15–C21: the controller channel -/

namespace Twink
open Spec Fmt

/-! ## C15 -/

theorem userPart_append (a b : List Wire) : userPart (a ++ b) = userPart a ++ userPart b := by simp [userPart]
theorem insertedPart_append (a b : List Wire) : insertedPart (a ++ b) = insertedPart a ++ insertedPart b := by simp [insertedPart]

theorem send_userPart (alive : Nat → Bool) (now : Clock) (wb wm : Bool) (st : Ctl) (m : Bytes) (cb : Option Nat) :
    userPart (ctlSend alive now wb wm st m cb).1.wire =
      userPart st.wire ++ (if (ctlSend alive now wb wm st m cb).2 = .ok () then [(m, cb)] else []) := by
  have hw : ∀ (st' : Ctl), userPart (ctlWrite wm st' (.user m cb)).1.wire =
      userPart st'.wire ++ (if (ctlWrite wm st' (.user m cb)).2 = .ok () then [(m, cb)] else []) := by
    intro st'; cases wm <;> simp [ctlWrite, userPart]
  have hc := ctlSend_cases alive now wb wm st m cb
  generalize ctlSend alive now wb wm st m cb = r at hc
  cases hc with
  | insert c b hm hb hl hlc hbm _ => rw [hw]; simp [userPart]
  | barrier hm hb => exact hw _
  | same c hm hb hl hlc => exact hw _
  | afterBarrier x k hm hb hl => exact hw _
  | idleNone hm hb hs hcn => exact hw _
  | idleSome c hm hb hs hcn => exact hw _
  | short e _ => simp
  | packFail e _ _ _ _ _ => simp
  | insertFail _ _ _ _ _ _ _ hw => simp

theorem handle_wire (a : Bool) (alive : Nat → Bool) (st : Ctl) (m : Bytes) :
    (ctlHandle a alive st m).1.wire = st.wire ∧ (ctlHandle a alive st m).1.dedup = st.dedup ∧
    (ctlHandle a alive st m).1.version = st.version := by
  by_cases hm : 8 ≤ m.length
  · rw [ctlHandle_def _ _ _ _ hm]
    split
    · simp
    · split
      · simp
      · split
        · simp
        · split <;> simp
  · simp [ctlHandle, parseHeader_short m (by omega)]

/-- **C15, order.** For every history of sends (with any callbacks, callbacks dying, failing writes) and received messages: the
written messages without the inserted ones are exactly the messages of the successful send calls, in call order. -/
theorem C15_messages_in_call_order (version dedup : Option Nat) (ops : List CtlOp) :
    userPart (ctlRun (freshCtl version dedup) ops).wire = sentMessages (freshCtl version dedup) ops := by
  have key : ∀ (st : Ctl), userPart (ctlRun st ops).wire = userPart st.wire ++ sentMessages st ops := by
    induction ops with
    | nil => intro st; simp [ctlRun, sentMessages]
    | cons op ops ih =>
      intro st
      simp only [ctlRun, ih]
      cases op with
      | send alive now wb wm m cb =>
        simp only [ctlStep, sentMessages, send_userPart, List.append_assoc]
      | handle a alive m => simp only [ctlStep, sentMessages, (handle_wire a alive st m).1]
      | otherXid now => simp only [ctlStep, sentMessages]
  rw [key]; simp [freshCtl, userPart]

/-- Invariant for the inserted messages. -/
theorem inserted_inv (v : Option Nat) (d0 : Option Nat) (ops : List CtlOp) :
    let st := ctlRun (freshCtl v d0) ops
    st.version = v ∧ (∀ d, d0 = some d → ∃ d', st.dedup = some d' ∧ d ≤ d') ∧
    (∀ b ∈ insertedPart st.wire, ∃ v', v = some v' ∧ b.length = 8 ∧ u8 b 0 = v' ∧ u16 b 2 = 8 ∧ IsBarrierReq b ∧
      (∀ d, d0 = some d → d < u32 b 4) ∧ ∃ d', st.dedup = some d' ∧ u32 b 4 ≤ d') ∧
    ((insertedPart st.wire).map (u32 · 4)).Pairwise (· < ·) := by
  have key : ∀ (st : Ctl),
      (st.version = v ∧ (∀ d, d0 = some d → ∃ d', st.dedup = some d' ∧ d ≤ d') ∧
      (∀ b ∈ insertedPart st.wire, ∃ v', v = some v' ∧ b.length = 8 ∧ u8 b 0 = v' ∧ u16 b 2 = 8 ∧ IsBarrierReq b ∧
        (∀ d, d0 = some d → d < u32 b 4) ∧ ∃ d', st.dedup = some d' ∧ u32 b 4 ≤ d') ∧
      ((insertedPart st.wire).map (u32 · 4)).Pairwise (· < ·)) →
      let st := ctlRun st ops
      (st.version = v ∧ (∀ d, d0 = some d → ∃ d', st.dedup = some d' ∧ d ≤ d') ∧
      (∀ b ∈ insertedPart st.wire, ∃ v', v = some v' ∧ b.length = 8 ∧ u8 b 0 = v' ∧ u16 b 2 = 8 ∧ IsBarrierReq b ∧
        (∀ d, d0 = some d → d < u32 b 4) ∧ ∃ d', st.dedup = some d' ∧ u32 b 4 ≤ d') ∧
      ((insertedPart st.wire).map (u32 · 4)).Pairwise (· < ·)) := by
    induction ops with
    | nil => intro st h; exact h
    | cons op ops ih =>
      intro st h
      simp only [ctlRun]
      refine ih _ ?_
      clear ih
      obtain ⟨h1, h2, h3, h4⟩ := h
      have hgrow : ∀ now d', st.dedup = some d' → d' < hmsXid st.dedup now := by
        intro now d' hd; rw [hd]; simp only [hmsXid]; split <;> omega
      cases op with
      | handle a alive m =>
        obtain ⟨w1, w2, w3⟩ := handle_wire a alive st m
        simp only [ctlStep, w1, w2, w3]; exact ⟨h1, h2, h3, h4⟩
      | otherXid now =>
        simp only [ctlStep]
        refine ⟨h1, ?_, ?_, h4⟩
        · intro d hd; obtain ⟨d', e1, e2⟩ := h2 d hd
          exact ⟨_, rfl, by have := hgrow now d' e1; omega⟩
        · intro b hb; obtain ⟨v', a1, a2, a3, a4, a5, a6, d', a7, a8⟩ := h3 b hb
          exact ⟨v', a1, a2, a3, a4, a5, a6, _, rfl, by have := hgrow now d' a7; omega⟩
      | send alive now wb wm m cb =>
        have hw : ∀ (st' : Ctl), st'.version = st.version → st'.wire = st.wire → st'.dedup = st.dedup →
            (ctlWrite wm st' (.user m cb)).1.version = st.version ∧ (ctlWrite wm st' (.user m cb)).1.dedup = st.dedup ∧
            insertedPart (ctlWrite wm st' (.user m cb)).1.wire = insertedPart st.wire := by
          intro st' e1 e2 e3; cases wm <;> simp [ctlWrite, insertedPart, e1, e2, e3]
        have fin : ∀ r : Ctl × Py Unit, r.1.version = st.version → r.1.dedup = st.dedup →
            insertedPart r.1.wire = insertedPart st.wire → _ := fun r (e1 : r.1.version = st.version)
            (e2 : r.1.dedup = st.dedup) (e3 : insertedPart r.1.wire = insertedPart st.wire) =>
          show (r.1.version = v ∧ (∀ d, d0 = some d → ∃ d', r.1.dedup = some d' ∧ d ≤ d') ∧
            (∀ b ∈ insertedPart r.1.wire, ∃ v', v = some v' ∧ b.length = 8 ∧ u8 b 0 = v' ∧ u16 b 2 = 8 ∧ IsBarrierReq b ∧
              (∀ d, d0 = some d → d < u32 b 4) ∧ ∃ d', r.1.dedup = some d' ∧ u32 b 4 ≤ d') ∧
            ((insertedPart r.1.wire).map (u32 · 4)).Pairwise (· < ·)) by rw [e1, e2, e3]; exact ⟨h1, h2, h3, h4⟩
        have bump : (∀ d, d0 = some d → ∃ d', some (hmsXid st.dedup now) = some d' ∧ d ≤ d') ∧
            (∀ b ∈ insertedPart st.wire, ∃ v', v = some v' ∧ b.length = 8 ∧ u8 b 0 = v' ∧ u16 b 2 = 8 ∧ IsBarrierReq b ∧
              (∀ d, d0 = some d → d < u32 b 4) ∧ ∃ d', some (hmsXid st.dedup now) = some d' ∧ u32 b 4 ≤ d') := by
          constructor
          · intro d hd; obtain ⟨d', e1, e2⟩ := h2 d hd
            exact ⟨_, rfl, by have := hgrow now d' e1; omega⟩
          · intro b hb; obtain ⟨v', a1, a2, a3, a4, a5, a6, d', a7, a8⟩ := h3 b hb
            exact ⟨v', a1, a2, a3, a4, a5, a6, _, rfl, by have := hgrow now d' a7; omega⟩
        simp only [ctlStep]
        have hc := ctlSend_cases alive now wb wm st m cb
        generalize ctlSend alive now wb wm st m cb = r at hc
        cases hc with
        | short e _ => exact ⟨h1, h2, h3, h4⟩
        | packFail e _ _ _ _ _ => exact ⟨h1, bump.1, bump.2, h4⟩
        | insertFail _ _ _ _ _ _ _ _ => exact ⟨h1, bump.1, bump.2, h4⟩
        | barrier hm hb => obtain ⟨a, b, c⟩ := hw { st with seq := st.seq ++ [.barrier (u32 m 4) cb] } rfl rfl rfl; exact fin _ a b c
        | same c hm hb hl hlc => obtain ⟨a, b, c⟩ := hw st rfl rfl rfl; exact fin _ a b c
        | afterBarrier x k hm hb hl => obtain ⟨a, b, c⟩ := hw { st with seq := st.seq ++ [.chunk cb] } rfl rfl rfl; exact fin _ a b c
        | idleNone hm hb hs hcn => obtain ⟨a, b, c⟩ := hw st rfl rfl rfl; exact fin _ a b c
        | idleSome c hm hb hs hcn => obtain ⟨a, b, c⟩ := hw { st with seq := [.chunk cb] } rfl rfl rfl; exact fin _ a b c
        | insert c b hm hb hl hlc hbm _ =>
          obtain ⟨v', k1, k2, k3, k4, k5, k6, k7⟩ := barrierMsg_ok hbm
          have hwire : ∀ x : Ctl, x.wire = st.wire ++ [.inserted b] → x.version = st.version →
              x.dedup = some (hmsXid st.dedup now) →
              insertedPart (ctlWrite wm x (.user m cb)).1.wire = insertedPart st.wire ++ [b] ∧
              (ctlWrite wm x (.user m cb)).1.version = st.version ∧
              (ctlWrite wm x (.user m cb)).1.dedup = some (hmsXid st.dedup now) := by
            intro x e1 e2 e3; cases wm <;> simp [ctlWrite, e1, e2, e3, insertedPart]
          obtain ⟨w1, w2, w3⟩ := hwire { st with
            dedup := some (hmsXid st.dedup now), seq := st.seq ++ [.barrier (hmsXid st.dedup now) none, .chunk cb],
            wire := st.wire ++ [.inserted b] } rfl rfl rfl
          simp only [w1, w2, w3]
          refine ⟨h1, bump.1, ?_, ?_⟩
          · intro b' hb'
            rw [List.mem_append] at hb'
            rcases hb' with hb' | hb'
            · exact bump.2 b' hb'
            · simp only [List.mem_singleton] at hb'; subst hb'
              refine ⟨v', h1 ▸ k1, k2, k3, k4, k6, ?_, _, rfl, by omega⟩
              intro d hd; obtain ⟨d', e1, e2⟩ := h2 d hd
              have := hgrow now d' e1; omega
          · rw [List.map_append, List.pairwise_append]
            refine ⟨h4, by simp, ?_⟩
            intro x hx y hy
            simp only [List.map_cons, List.map_nil, List.mem_singleton] at hy
            obtain ⟨b', hb', rfl⟩ := List.mem_map.1 hx
            obtain ⟨_, _, _, _, _, _, _, d', a7, a8⟩ := h3 b' hb'
            have := hgrow now d' a7
            omega
  refine key _ ⟨rfl, ?_, by simp [freshCtl, insertedPart], by simp [freshCtl, insertedPart]⟩
  intro d hd; exact ⟨d, hd, Nat.le_refl _⟩

/-- **C15, insertions.** Everything inserted is a header-only (8 bytes, length field 8) BARRIER_REQUEST of the negotiated version;
the ids of the inserted messages are strictly increasing, and larger than every id generated before. -/
theorem C15_insertions_are_fresh_barriers (version dedup : Option Nat) (ops : List CtlOp) :
    (∀ b ∈ insertedPart (ctlRun (freshCtl version dedup) ops).wire,
      some (u8 b 0) = version ∧ WellFormed b ∧ b.length = 8 ∧ IsBarrierReq b ∧ ∀ d, dedup = some d → d < u32 b 4) ∧
    ((insertedPart (ctlRun (freshCtl version dedup) ops).wire).map (u32 · 4)).Pairwise (· < ·) := by
  obtain ⟨_, _, h3, h4⟩ := inserted_inv version dedup ops
  refine ⟨fun b hb => ?_, h4⟩
  obtain ⟨v', a1, a2, a3, a4, a5, a6, _⟩ := h3 b hb
  exact ⟨by rw [a3, a1], ⟨by omega, by rw [announced_eq_u16 _ (by omega), a4, a2]⟩, a2, a5, a6⟩

/-- Non-vacuity of C15: two messages with different callbacks. -/
example :
    let ops := [CtlOp.send (fun _ => true) ⟨0, 0, 0, 0⟩ true true [4, 5, 0, 8, 0, 0, 0, 1] (some 1),
      CtlOp.send (fun _ => true) ⟨0, 0, 0, 0⟩ true true [4, 7, 0, 8, 0, 0, 0, 2] (some 2)]
    (ctlRun (freshCtl (some 4) (some 9)) ops).wire = [.user [4, 5, 0, 8, 0, 0, 0, 1] (some 1), .inserted [4, 20, 0, 8, 0, 0, 0, 10],
      .user [4, 7, 0, 8, 0, 0, 0, 2] (some 2)] := by decide

/-! ## C16 -/

/-- Between any two chunks there is a barrier (no two adjacent chunks). -/
def NoAdjacentChunks (s : List Elem) : Prop := ∀ pre a b post, s ≠ pre ++ .chunk a :: .chunk b :: post

theorem noAdj_suffix {a b : List Elem} (h : NoAdjacentChunks (a ++ b)) : NoAdjacentChunks b := by
  intro pre x y post e; exact h (a ++ pre) x y post (by rw [e]; simp)

theorem noAdj_snoc_barrier {s : List Elem} (h : NoAdjacentChunks s) (x : Nat) (k : Option Nat) :
    NoAdjacentChunks (s ++ [.barrier x k]) := by
  intro pre a b post e
  rcases List.eq_nil_or_concat post with rfl | ⟨post', z, rfl⟩
  · have := congrArg List.getLast? e; simp at this
  · have e' : s ++ [.barrier x k] = (pre ++ .chunk a :: .chunk b :: post') ++ [z] := by rw [e]; simp
    obtain ⟨e1, _⟩ := List.append_inj' e' rfl
    exact h _ _ _ _ e1

theorem noAdj_snoc_chunk {s : List Elem} (h : NoAdjacentChunks s) (c : Option Nat)
    (hl : ∀ d, s.getLast? ≠ some (.chunk d)) : NoAdjacentChunks (s ++ [.chunk c]) := by
  intro pre a b post e
  rcases List.eq_nil_or_concat post with rfl | ⟨post', z, rfl⟩
  · have e' : s ++ [.chunk c] = (pre ++ [.chunk a]) ++ [.chunk b] := by rw [e]; simp
    obtain ⟨e1, _⟩ := List.append_inj' e' rfl
    exact hl a (by rw [e1]; simp)
  · have e' : s ++ [.chunk c] = (pre ++ .chunk a :: .chunk b :: post') ++ [z] := by rw [e]; simp
    obtain ⟨e1, _⟩ := List.append_inj' e' rfl
    exact h _ _ _ _ e1

theorem scan_result (alive : Nat → Bool) (xid : Nat) (orig s : List Elem) (d : Bool) :
    (scan alive xid orig d s).1 = orig ∨ ∃ pre, s = pre ++ (scan alive xid orig d s).1 := by
  induction s generalizing d with
  | nil => left; cases d <;> rfl
  | cons e s ih =>
    cases e with
    | barrier x k =>
      by_cases hx : x = xid
      · right; exact ⟨[.barrier x k], by cases d <;> simp [scan, hx]⟩
      · left; cases d <;> simp [scan, hx]
    | chunk c =>
      cases d with
      | true => left; rfl
      | false =>
        rcases ih true with h | ⟨pre, h⟩
        · left; simpa [scan] using h
        · right; exact ⟨.chunk c :: pre, by simp only [scan, List.cons_append]; rw [← h]⟩

theorem handle_seq (a : Bool) (alive : Nat → Bool) (st : Ctl) (m : Bytes) :
    (ctlHandle a alive st m).1.seq = st.seq ∨ ∃ pre, st.seq = pre ++ (ctlHandle a alive st m).1.seq := by
  by_cases hm : 8 ≤ m.length
  · rw [ctlHandle_def _ _ _ _ hm]
    split
    · exact .inl rfl
    · cases hs : st.seq with
      | nil => left; exact hs
      | cons e rest =>
        simp only
        split
        · exact scan_result alive _ (e :: rest) (e :: rest) false
        · cases e <;> exact .inl hs
  · left; simp [ctlHandle, parseHeader_short m (by omega)]

theorem noAdj_run (v d : Option Nat) (ops : List CtlOp) : NoAdjacentChunks (ctlRun (freshCtl v d) ops).seq := by
  have key : ∀ st : Ctl, NoAdjacentChunks st.seq → NoAdjacentChunks (ctlRun st ops).seq := by
    induction ops with
    | nil => intro st h; exact h
    | cons op ops ih =>
      intro st h
      refine ih _ ?_
      cases op with
      | otherXid now => exact h
      | handle a alive m =>
        simp only [ctlStep]
        rcases handle_seq a alive st m with e | ⟨pre, e⟩
        · rw [e]; exact h
        · rw [e] at h; exact noAdj_suffix h
      | send alive now wb wm m cb =>
        simp only [ctlStep]
        have hw : ∀ st' : Ctl, (ctlWrite wm st' (.user m cb)).1.seq = st'.seq := by intro st'; cases wm <;> rfl
        have hc := ctlSend_cases alive now wb wm st m cb
        generalize ctlSend alive now wb wm st m cb = r at hc
        have two : ∀ x, NoAdjacentChunks (st.seq ++ [.barrier x none, .chunk cb]) := by
          intro x
          have := noAdj_snoc_chunk (noAdj_snoc_barrier h x none) cb (by simp)
          simpa using this
        cases hc with
        | short e _ => exact h
        | packFail e _ _ _ _ _ => exact h
        | insertFail _ _ _ _ _ _ _ _ => exact two _
        | barrier hm hb => rw [hw]; exact noAdj_snoc_barrier h _ _
        | same c hm hb hl hlc => rw [hw]; exact h
        | afterBarrier x k hm hb hl => rw [hw]; exact noAdj_snoc_chunk h _ (by simp [hl])
        | idleNone hm hb hs hcn => rw [hw]; exact h
        | idleSome c hm hb hs hcn => rw [hw]; rw [hs] at h; exact noAdj_snoc_chunk h _ (by simp)
        | insert c b hm hb hl hlc hbm _ => rw [hw]; exact two _
  exact key _ (by intro pre a b post e; simp [freshCtl] at e)

theorem scan_multiple (alive : Nat → Bool) (xid : Nat) (orig s : List Elem) (d : Bool) :
    (scan alive xid orig d s).2 = .multipleChunks →
      (∃ c post, d = true ∧ s = .chunk c :: post) ∨ (∃ a b post, d = false ∧ s = .chunk a :: .chunk b :: post) := by
  cases s with
  | nil => cases d <;> simp [scan]
  | cons e s =>
    cases e with
    | barrier x k => cases d <;> simp only [scan, cbOr] <;> split <;> (try split) <;> simp
    | chunk c =>
      cases d with
      | true => intro _; exact .inl ⟨c, s, rfl, rfl⟩
      | false =>
        cases s with
        | nil => simp [scan]
        | cons e s =>
          cases e with
          | barrier x k => simp only [scan, cbOr]; split <;> (try split) <;> simp
          | chunk c' => intro _; exact .inr ⟨c, c', s, rfl, rfl⟩

/-- **C16, no failure.** After every history — any sends, callbacks dying, failing writes, any received messages — the failure
"dropping multiple chunks at a time" cannot occur, whatever message arrives next. -/
theorem C16_multiple_chunks_impossible (version dedup : Option Nat) (ops : List CtlOp) (a : Bool) (alive : Nat → Bool) (m : Bytes) :
    (ctlHandle a alive (ctlRun (freshCtl version dedup) ops) m).2 ≠ .multipleChunks := by
  have hn := noAdj_run version dedup ops
  generalize ctlRun (freshCtl version dedup) ops = st at hn
  intro h
  by_cases hm : 8 ≤ m.length
  · rw [ctlHandle_def _ _ _ _ hm] at h
    split at h
    · simp at h
    · cases hs : st.seq with
      | nil => rw [hs] at h; simp at h
      | cons e rest =>
        rw [hs] at h hn
        simp only at h
        split at h
        · rcases scan_multiple _ _ _ _ _ h with ⟨c, post, hd, _⟩ | ⟨x, y, post, _, he⟩
          · simp at hd
          · exact hn [] x y post he
        · cases e with
          | barrier x k => simp at h
          | chunk c => simp only [cbOr] at h; split at h <;> simp at h
  · simp [ctlHandle, parseHeader_short m (by omega)] at h

theorem complete_of_split {m : Bytes} {A : List Req} {q : Req} {B : List Req} (hA : ∀ r ∈ A, ¬ IsBarrierReq r.bytes)
    (hq : IsBarrierReq q.bytes) :
    complete m (A ++ q :: B) =
      if 8 ≤ m.length ∧ IsBarrierRep m ∧ u32 m 4 = u32 q.bytes 4 then B else A ++ q :: B := by
  have : (A ++ q :: B).dropWhile (fun q => decide (¬ IsBarrierReq q.bytes)) = q :: B := by
    induction A with
    | nil => simp [hq]
    | cons r A ih =>
      rw [List.cons_append, List.dropWhile_cons_of_pos (by simpa using hA r (by simp))]
      exact ih (fun r hr => hA r (by simp [hr]))
  simp only [complete, this]

theorem complete_of_none {m : Bytes} {A : List Req} (hA : ∀ r ∈ A, ¬ IsBarrierReq r.bytes) : complete m A = A := by
  have : A.dropWhile (fun q => decide (¬ IsBarrierReq q.bytes)) = [] := by
    induction A with
    | nil => rfl
    | cons r A ih =>
      rw [List.dropWhile_cons_of_pos (by simpa using hA r (by simp))]
      exact ih (fun r hr => hA r (by simp [hr]))
  simp only [complete, this]

theorem split_first_bar (out : List Req) :
    (∀ r ∈ out, ¬ IsBarrierReq r.bytes) ∨
    ∃ A q B, out = A ++ q :: B ∧ (∀ r ∈ A, ¬ IsBarrierReq r.bytes) ∧ IsBarrierReq q.bytes := by
  induction out with
  | nil => left; simp
  | cons r out ih =>
    by_cases hr : IsBarrierReq r.bytes
    · right; exact ⟨[], r, out, rfl, by simp, hr⟩
    · rcases ih with h | ⟨A, q, B, h1, h2, h3⟩
      · left; intro x hx; rcases List.mem_cons.1 hx with rfl | hx
        · exact hr
        · exact h x hx
      · right; refine ⟨r :: A, q, B, by rw [h1]; rfl, ?_, h3⟩
        intro x hx; rcases List.mem_cons.1 hx with rfl | hx
        · exact hr
        · exact h2 x hx

theorem map_works {A : List Req} (h : ∀ r ∈ A, ¬ IsBarrierReq r.bytes) : ∀ i ∈ A.map itemOf, ∃ d t, i = Pend.work d t := by
  intro i hi
  obtain ⟨r, hr, rfl⟩ := List.mem_map.1 hi
  exact ⟨_, _, by rw [itemOf, if_neg (h r hr)]⟩

theorem first_bar_unique {A A' B B' : List Pend} {x x' : Nat} {k k' : Option Nat}
    (hA : ∀ i ∈ A, ∃ d t, i = Pend.work d t) (hA' : ∀ i ∈ A', ∃ d t, i = Pend.work d t)
    (h : A ++ .bar x k :: B = A' ++ .bar x' k' :: B') : A = A' ∧ x = x' ∧ k = k' ∧ B = B' := by
  induction A generalizing A' with
  | nil =>
    cases A' with
    | nil => simp at h; exact ⟨rfl, h.1.1, h.1.2, h.2⟩
    | cons a A' => obtain ⟨d, t, rfl⟩ := hA' a (by simp); simp at h
  | cons a A ih =>
    cases A' with
    | nil => obtain ⟨d, t, rfl⟩ := hA a (by simp); simp at h
    | cons a' A' =>
      simp only [List.cons_append, List.cons.injEq] at h
      obtain ⟨rfl, h⟩ := h
      obtain ⟨rfl, h'⟩ := ih (fun i hi => hA i (by simp [hi])) (fun i hi => hA' i (by simp [hi])) h
      exact ⟨rfl, h'⟩

theorem outReach_acc {c : Ctl} {alive : Nat → Bool} {out : List Req} (h : OutReach c alive out) :
    Acc alive c.seq (out.map itemOf) := by
  induction h with
  | init v d alive => exact .nil _ (by simp)
  | @send c alive out m cb now hcb _ ih =>
    rw [List.map_append]; exact acc_send ih now m cb hcb
  | @handle c alive out a m _ ih =>
    rcases split_first_bar out with hn | ⟨A, q, B, rfl, hA, hq⟩
    · rw [complete_of_none hn]
      rcases handle_any (hasAsync := a) m ih with ⟨e, _⟩ | ⟨A, k, B, _, _, e, _⟩
      · rw [e]; exact ih
      · obtain ⟨d, t, hw⟩ := map_works hn (.bar (u32 m 4) k) (by rw [e]; simp)
        simp at hw
    · rw [complete_of_split hA hq]
      rw [List.map_append, List.map_cons] at ih
      have hqi : itemOf q = .bar (u32 q.bytes 4) q.cb := by rw [itemOf, if_pos hq]
      split
      · rename_i hc
        rw [hqi, ← hc.2.2] at ih
        obtain ⟨s', h1, h2⟩ := handle_bar (hasAsync := a) (acc_drop_front (map_works hA) ih) hc.1 hc.2.1
        rw [h2]; exact h1
      · rename_i hc
        rcases handle_any (hasAsync := a) m ih with ⟨e, _⟩ | ⟨A', k, B', hm, hb, e, hA', _⟩
        · rw [e, List.map_append, List.map_cons]; exact ih
        · rw [hqi] at e
          obtain ⟨_, hx, _, _⟩ := first_bar_unique (map_works hA) hA' e
          exact absurd ⟨hm, hb, hx.symm⟩ hc
  | die alive' hle _ ih => exact acc_mono ih hle
  | otherXid now _ ih => exact ih

/-- Two work items of one segment are covered by the same chunk. -/
theorem acc_same_segment {alive : Nat → Bool} {s : List Elem} {X Y Z : List Pend} {d1 d2 : Option Nat} {t1 t2 : Bool}
    (h : Acc alive s (X ++ .work d1 t1 :: (Y ++ .work d2 t2 :: Z))) (hY : ∀ i ∈ Y, ∃ d t, i = .work d t)
    (htr : d1 ≠ none ∨ t1 = true ∨ d2 ≠ none ∨ t2 = true) :
    ∃ c, Covers alive c d1 t1 ∧ Covers alive c d2 t2 := by
  generalize hP : X ++ .work d1 t1 :: (Y ++ .work d2 t2 :: Z) = P at h
  induction h generalizing X with
  | nil P h =>
    subst hP
    have e1 := h (.work d1 t1) (by simp)
    have e2 := h (.work d2 t2) (by simp)
    simp at e1 e2
    simp [e1, e2] at htr
  | chunkNil c => simp at hP
  | @chunkWork c s d t P hc hacc ih =>
    cases X with
    | nil =>
      simp only [List.nil_append, List.cons.injEq, Pend.work.injEq] at hP
      obtain ⟨⟨rfl, rfl⟩, rfl⟩ := hP
      refine ⟨c, hc, ?_⟩
      have := acc_drop_front hY hacc
      cases this with
      | chunkWork h _ => exact h
    | cons a X =>
      simp only [List.cons_append, List.cons.injEq] at hP
      exact ih hP.2
  | @chunkBar c x k s P hacc ih =>
    cases X with
    | nil => simp at hP
    | cons a X => simp only [List.cons_append, List.cons.injEq] at hP; exact ih hP.2
  | @barWork x k s P hacc ih =>
    cases X with
    | nil =>
      simp only [List.nil_append, List.cons.injEq, Pend.work.injEq] at hP
      obtain ⟨⟨rfl, rfl⟩, rfl⟩ := hP
      have := acc_drop_front hY hacc
      cases this with
      | barWork h => simp at htr
    | cons a X => simp only [List.cons_append, List.cons.injEq] at hP; exact ih hP.2
  | @barBar x k s P hacc ih =>
    cases X with
    | nil => simp at hP
    | cons a X => simp only [List.cons_append, List.cons.injEq] at hP; exact ih hP.2

/-- **C16.** In every history, whatever messages arrive: between two outstanding non-barrier messages `q1`, `q2` that were sent
with different reply callbacks, there is an outstanding barrier request. -/
theorem C16_barrier_between_different_callbacks {c : Ctl} {alive : Nat → Bool} {X Y Z : List Req} {q1 q2 : Req} {a b : Nat}
    (h : OutReach c alive (X ++ q1 :: (Y ++ q2 :: Z))) (h1 : q1.cb = some a) (h2 : q2.cb = some b) (hab : a ≠ b)
    (hn1 : ¬ IsBarrierReq q1.bytes) (hn2 : ¬ IsBarrierReq q2.bytes) : ∃ q ∈ Y, IsBarrierReq q.bytes := by
  apply Classical.byContradiction
  intro hY
  have hacc := outReach_acc h
  simp only [List.map_append, List.map_cons, itemOf, hn1, hn2, if_false, h1, h2] at hacc
  obtain ⟨c', c1, c2⟩ := acc_same_segment hacc
    (map_works (A := Y) (fun r hr hb => hY ⟨r, hr, hb⟩)) (.inl (by simp))
  rcases c1 with ⟨h, _⟩ | ⟨k1, e1, e1'⟩
  · simp at h
  · rcases c2 with ⟨h, _⟩ | ⟨k2, e2, e2'⟩
    · simp at h
    · simp_all

/-- **C16**, with and without callback: also a message with a (living) callback and one without callback that was sent while work
was outstanding are separated by an outstanding barrier request. -/
theorem C16_barrier_between_callback_and_none {c : Ctl} {alive : Nat → Bool} {X Y Z : List Req} {q1 q2 : Req} {a : Nat}
    (h : OutReach c alive (X ++ q1 :: (Y ++ q2 :: Z)))
    (hcase : (q1.cb = some a ∧ q2.cb = none ∧ q2.busy = true) ∨ (q1.cb = none ∧ q1.busy = true ∧ q2.cb = some a))
    (ha : alive a = true)
    (hn1 : ¬ IsBarrierReq q1.bytes) (hn2 : ¬ IsBarrierReq q2.bytes) : ∃ q ∈ Y, IsBarrierReq q.bytes := by
  apply Classical.byContradiction
  intro hY
  have hacc := outReach_acc h
  simp only [List.map_append, List.map_cons, itemOf, hn1, hn2, if_false] at hacc
  have hw := map_works (A := Y) (fun r hr hb => hY ⟨r, hr, hb⟩)
  rcases hcase with ⟨e1, e2, e3⟩ | ⟨e1, e3, e2⟩
  · rw [e1, e2, e3] at hacc
    obtain ⟨c', c1, c2⟩ := acc_same_segment hacc hw (.inl (by simp))
    rcases c1 with ⟨h, _⟩ | ⟨k1, f1, f1'⟩
    · simp at h
    · rcases c2 with ⟨_, h⟩ | ⟨k2, f2, _⟩
      · have := h rfl
        simp at f1; subst f1; rw [f1'] at this; simp [live, ha] at this
      · simp at f2
  · rw [e1, e2, e3] at hacc
    obtain ⟨c', c1, c2⟩ := acc_same_segment hacc hw (.inr (.inl rfl))
    rcases c2 with ⟨h, _⟩ | ⟨k1, f1, f1'⟩
    · simp at h
    · rcases c1 with ⟨_, h⟩ | ⟨k2, f2, _⟩
      · have := h rfl
        simp at f1; subst f1; rw [f1'] at this; simp [live, ha] at this
      · simp at f2

/-- Non-vacuity of C16: two outstanding messages with callbacks 1 and 2. -/
example : ∃ c out q, OutReach c (fun _ => true)
    (⟨[4, 5, 0, 8, 0, 0, 0, 1], some 1, false⟩ :: ([q] ++ ⟨[4, 7, 0, 8, 0, 0, 0, 2], some 2, true⟩ :: out)) ∧ IsBarrierReq q.bytes := by
  refine ⟨_, [], ⟨[4, 20, 0, 8, 0, 0, 0, 10], none, true⟩,
    OutReach.send [4, 7, 0, 8, 0, 0, 0, 2] (some 2) ⟨0, 0, 0, 0⟩ (by simp)
      (OutReach.send [4, 5, 0, 8, 0, 0, 0, 1] (some 1) ⟨0, 0, 0, 0⟩ (by simp) (OutReach.init (some 4) (some 9) _)), by decide⟩

/-! ## C17, C18 -/

/-- What a message in transit to the controller stands for. -/
def repItem (p : Rep) : Pend := match p.origin with
  | some q => itemOf q
  | none => .work none false

/-- A message in transit is a proper answer. -/
def RepOk (hasAsync : Bool) (p : Rep) : Prop :=
  8 ≤ p.bytes.length ∧
  match p.origin with
  | some q => if IsBarrierReq q.bytes then IsBarrierRep p.bytes ∧ u32 p.bytes 4 = u32 q.bytes 4
              else ¬ IsBarrierRep p.bytes ∧ (hasAsync = true → ¬ IsAsyncMsg p.bytes)
  | none => ¬ IsBarrierRep p.bytes

theorem sysReach_inv {hasAsync : Bool} {s : Sys} (h : SysReach hasAsync s) :
    Acc s.alive s.ctl.seq (s.toCtl.map repItem ++ s.toSwitch.map itemOf) ∧ ∀ p ∈ s.toCtl, RepOk hasAsync p := by
  induction h with
  | init v d alive => exact ⟨.nil _ (by simp), by simp⟩
  | @step s s' _ hstep ih =>
    obtain ⟨ih1, ih2⟩ := ih
    cases hstep with
    | send m cb now hlen hcb =>
      refine ⟨?_, ih2⟩
      have := acc_send ih1 now m cb hcb
      simpa [sysSend, List.append_assoc] using this
    | work q rest reps hq hnb hreps =>
      rw [hq, List.map_cons] at ih1
      have hqi : itemOf q = .work q.cb q.busy := by rw [itemOf, if_neg hnb]
      refine ⟨?_, ?_⟩
      · have := acc_replicate (by rw [hqi] at ih1; exact ih1) reps.length
        have hm : (reps.map (fun x => (⟨x, some q⟩ : Rep))).map repItem = List.replicate reps.length (.work q.cb q.busy) := by
          rw [List.map_map]
          clear hreps this
          induction reps with
          | nil => rfl
          | cons b reps ih => simp [repItem, hqi, List.replicate_succ] at ih ⊢; exact ih
        simp only [List.map_append, hm, List.append_assoc]
        exact this
      · intro p hp
        rcases List.mem_append.1 hp with hp | hp
        · exact ih2 p hp
        · obtain ⟨b, hb, rfl⟩ := List.mem_map.1 hp
          obtain ⟨r1, r2, r3⟩ := hreps b hb
          exact ⟨r1, by simp only [hnb, if_false]; exact ⟨r2, r3⟩⟩
    | barrier q rest b hq hnb hb =>
      rw [hq, List.map_cons] at ih1
      refine ⟨?_, ?_⟩
      · simpa [repItem, List.append_assoc] using ih1
      · intro p hp
        rcases List.mem_append.1 hp with hp | hp
        · exact ih2 p hp
        · simp only [List.mem_singleton] at hp; subst hp
          exact ⟨hb.1, by simp only [hnb, if_true]; exact ⟨hb.2.2.1, hb.2.2.2⟩⟩
    | unsolicited b hlen hnb =>
      refine ⟨?_, ?_⟩
      · have := acc_insert ih1
        simpa [repItem, List.append_assoc] using this
      · intro p hp
        rcases List.mem_append.1 hp with hp | hp
        · exact ih2 p hp
        · simp only [List.mem_singleton] at hp; subst hp
          exact ⟨hlen, hnb⟩
    | deliver p rest hp =>
      have hpok := ih2 p (by rw [hp]; simp)
      refine ⟨?_, fun x hx => ih2 x (by rw [hp]; simp [hx])⟩
      rw [hp, List.map_cons, List.cons_append] at ih1
      obtain ⟨hlen, hcase⟩ := hpok
      simp only
      cases ho : p.origin with
      | none =>
        rw [ho] at hcase
        rw [repItem, ho] at ih1
        obtain ⟨a1, a2, _⟩ := handle_work (hasAsync := hasAsync) ih1 hlen hcase
        rw [a2]; exact a1
      | some q =>
        rw [ho] at hcase
        simp only at hcase
        by_cases hq : IsBarrierReq q.bytes
        · rw [if_pos hq] at hcase
          have hi : repItem p = .bar (u32 p.bytes 4) q.cb := by simp only [repItem, ho, itemOf, if_pos hq, hcase.2]
          rw [hi] at ih1
          obtain ⟨s', a1, a2⟩ := handle_bar (hasAsync := hasAsync) ih1 hlen hcase.1
          rw [a2]; exact a1
        · rw [if_neg hq] at hcase
          have hi : repItem p = .work q.cb q.busy := by simp only [repItem, ho, itemOf, if_neg hq]
          rw [hi] at ih1
          obtain ⟨a1, a2, _⟩ := handle_work (hasAsync := hasAsync) ih1 hlen hcase.1
          rw [a2]; exact a1
    | die alive' hle => exact ⟨acc_mono ih1 hle, ih2⟩
    | otherXid now => exact ⟨ih1, ih2⟩

/-- **C17.** With a switch that processes messages in order and answers barrier requests, in every reachable state: if the next
message to be handled was caused by a request `q` sent with a callback (or is the reply to a barrier request), then it is
given to that callback if it is still referenced, and never to another one. -/
theorem C17_replies_reach_their_callback {hasAsync : Bool} {s : Sys} (h : SysReach hasAsync s) {p : Rep} {rest : List Rep} {q : Req}
    (hp : s.toCtl = p :: rest) (ho : p.origin = some q) (hq : q.cb ≠ none ∨ IsBarrierReq q.bytes) :
    (ctlHandle hasAsync s.alive s.ctl p.bytes).2 = belongsTo s.alive q := by
  obtain ⟨i1, i2⟩ := sysReach_inv h
  obtain ⟨hlen, hcase⟩ := i2 p (by rw [hp]; simp)
  rw [hp, List.map_cons, List.cons_append] at i1
  rw [ho] at hcase
  simp only at hcase
  by_cases hb : IsBarrierReq q.bytes
  · rw [if_pos hb] at hcase
    have hi : repItem p = .bar (u32 p.bytes 4) q.cb := by simp only [repItem, ho, itemOf, if_pos hb, hcase.2]
    rw [hi] at i1
    obtain ⟨s', a1, a2⟩ := handle_bar (hasAsync := hasAsync) i1 hlen hcase.1
    rw [a2]
    simp only [belongsTo, hb, if_true, cbOr]
    cases q.cb with
    | none => rfl
    | some c => simp only [live]; by_cases ha : s.alive c = true <;> simp [ha]
  · rw [if_neg hb] at hcase
    have hi : repItem p = .work q.cb q.busy := by simp only [repItem, ho, itemOf, if_neg hb]
    rw [hi] at i1
    obtain ⟨a1, a2, a3⟩ := handle_work (hasAsync := hasAsync) i1 hlen hcase.1
    rcases hq with hq | hq
    · cases hcb : q.cb with
      | none => exact absurd hcb hq
      | some c =>
        rw [(a3 (fun hh => hcase.2 hh.1 hh.2)).1 c hcb]
        simp [belongsTo, hcb, hb]
    · exact absurd hq hb

/-- **C17**, no assertion: with such a switch no message handling ever fails, solicited or not. -/
theorem C17_no_assertion {hasAsync : Bool} {s : Sys} (h : SysReach hasAsync s) {p : Rep} {rest : List Rep}
    (hp : s.toCtl = p :: rest) :
    (ctlHandle hasAsync s.alive s.ctl p.bytes).2 ∉ [.missingBarrier, .multipleChunks, .unknownBarrier, .badHeader] := by
  obtain ⟨i1, i2⟩ := sysReach_inv h
  have hok := i2 p (by rw [hp]; simp)
  by_cases hb : IsBarrierRep p.bytes
  · cases ho : p.origin with
    | none => have := hok.2; rw [ho] at this; exact absurd hb this
    | some q =>
      have h2 := hok.2; rw [ho] at h2; simp only at h2
      by_cases hq : IsBarrierReq q.bytes
      · rw [C17_replies_reach_their_callback h hp ho (.inr hq)]
        simp only [belongsTo, hq, if_true]
        split
        · split <;> simp
        · simp
      · rw [if_neg hq] at h2; exact absurd hb h2.1
  · obtain ⟨_, h1 | h1 | ⟨c, h1⟩⟩ := handle_nonbarrier hasAsync s.alive s.ctl p.bytes hok.1 hb <;> rw [h1] <;> simp

/-- A run of the system used as witness: one message without callback, then one with callback 1; the switch answers the first. -/
theorem witness_reach (hasAsync : Bool) : ∃ s : Sys, SysReach hasAsync s ∧
    s.toCtl = [⟨[4, 6, 0, 8, 0, 0, 0, 1], some ⟨[4, 5, 0, 8, 0, 0, 0, 1], none, false⟩⟩] ∧ s.alive = (fun _ => true) ∧
    s.ctl.seq = [.chunk (some 1)] := by
  let s0 : Sys := ⟨freshCtl (some 4) none, fun _ => true, [], []⟩
  let s1 := sysSend s0 [4, 5, 0, 8, 0, 0, 0, 1] none ⟨0, 0, 0, 0⟩
  let s2 := sysSend s1 [4, 7, 0, 8, 0, 0, 0, 2] (some 1) ⟨0, 0, 0, 0⟩
  have h2 : SysReach hasAsync s2 :=
    .step (.step (.init (some 4) none (fun _ => true)) (.send s0 _ none ⟨0, 0, 0, 0⟩ (by decide) (by simp)))
      (.send s1 _ (some 1) ⟨0, 0, 0, 0⟩ (by decide) (by intro c _; rfl))
  have hw := SysStep.work (hasAsync := hasAsync) s2 ⟨[4, 5, 0, 8, 0, 0, 0, 1], none, false⟩ [⟨[4, 7, 0, 8, 0, 0, 0, 2], some 1, false⟩]
    [[4, 6, 0, 8, 0, 0, 0, 1]] rfl (by decide)
    (by intro b hb; simp only [List.mem_singleton] at hb; subst hb; exact ⟨by decide, by decide, fun _ => by decide⟩)
  exact ⟨_, .step h2 hw, rfl, rfl, rfl⟩

/-- Non-vacuity of C17: a reachable state where a reply to a request with a callback is due. -/
example : ∃ (s : Sys) (p : Rep) (q : Req), SysReach false s ∧ s.toCtl = [p] ∧ p.origin = some q ∧ q.cb = some 1 := by
  let s0 : Sys := ⟨freshCtl (some 4) none, fun _ => true, [], []⟩
  let s1 := sysSend s0 [4, 7, 0, 8, 0, 0, 0, 2] (some 1) ⟨0, 0, 0, 0⟩
  have h1 : SysReach false s1 := .step (.init (some 4) none (fun _ => true)) (.send s0 _ (some 1) ⟨0, 0, 0, 0⟩ (by decide) (by intro c _; rfl))
  have hw := SysStep.work (hasAsync := false) s1 ⟨[4, 7, 0, 8, 0, 0, 0, 2], some 1, false⟩ []
    [[4, 8, 0, 8, 0, 0, 0, 2]] rfl (by decide)
    (by intro b hb; simp only [List.mem_singleton] at hb; subst hb; exact ⟨by decide, by decide, fun _ => by decide⟩)
  exact ⟨_, _, _, .step h1 hw, rfl, rfl, rfl⟩

/-- **C18 is false of the code**: a message sent without callback while nothing is outstanding is not recorded; if a message with a
callback follows before the answer arrives, the answer is given to that foreign callback. -/
theorem C18_refuted (hasAsync : Bool) : ∃ (s : Sys) (p : Rep) (rest : List Rep) (q : Req), SysReach hasAsync s ∧
    s.toCtl = p :: rest ∧ p.origin = some q ∧ q.cb = none ∧ ¬ IsBarrierReq q.bytes ∧ ¬ IsAsyncMsg p.bytes ∧
    (ctlHandle hasAsync s.alive s.ctl p.bytes).2 = .callback 1 := by
  obtain ⟨s, h1, h2, h3, h4⟩ := witness_reach hasAsync
  refine ⟨s, _, [], _, h1, h2, rfl, rfl, by decide, by decide, ?_⟩
  rw [h3, ctlHandle_def _ _ _ _ (by decide), if_neg (by rintro ⟨_, h⟩; revert h; decide), h4]
  rfl

/-- **C18, provable part.** Replies to callback-less messages that were sent while some tracked work was outstanding
go to the default handler. Missing for the full claim: messages sent while nothing was outstanding (`C18_refuted`). -/
theorem C18_busy_partial {hasAsync : Bool} {s : Sys} (h : SysReach hasAsync s) {p : Rep} {rest : List Rep} {q : Req}
    (hp : s.toCtl = p :: rest) (ho : p.origin = some q) (hcb : q.cb = none) (hb : ¬ IsBarrierReq q.bytes) (hbusy : q.busy = true) :
    (ctlHandle hasAsync s.alive s.ctl p.bytes).2 = .default := by
  obtain ⟨i1, i2⟩ := sysReach_inv h
  obtain ⟨hlen, hcase⟩ := i2 p (by rw [hp]; simp)
  rw [hp, List.map_cons, List.cons_append] at i1
  rw [ho] at hcase
  simp only [if_neg hb] at hcase
  have hi : repItem p = .work q.cb q.busy := by simp only [repItem, ho, itemOf, if_neg hb]
  rw [hi] at i1
  obtain ⟨a1, a2, a3⟩ := handle_work (hasAsync := hasAsync) i1 hlen hcase.1
  exact (a3 (fun hh => hcase.2 hh.1 hh.2)).2 hcb hbusy

/-- Non-vacuity of `C18_busy_partial`: a callback-less message sent while another one is outstanding, whose answer is due. -/
example : ∃ (s : Sys) (p : Rep) (q : Req), SysReach false s ∧ s.toCtl = [p] ∧ p.origin = some q ∧ q.cb = none ∧
    ¬ IsBarrierReq q.bytes ∧ q.busy = true := by
  let s0 : Sys := ⟨freshCtl (some 4) (some 9), fun _ => true, [], []⟩
  let s1 := sysSend s0 [4, 7, 0, 8, 0, 0, 0, 2] (some 1) ⟨0, 0, 0, 0⟩
  let s2 := sysSend s1 [4, 5, 0, 8, 0, 0, 0, 3] none ⟨0, 0, 0, 0⟩
  have h2 : SysReach false s2 :=
    .step (.step (.init (some 4) (some 9) (fun _ => true)) (.send s0 _ (some 1) ⟨0, 0, 0, 0⟩ (by decide) (by intro c _; rfl)))
      (.send s1 _ none ⟨0, 0, 0, 0⟩ (by decide) (by simp))
  let q1 : Req := ⟨[4, 7, 0, 8, 0, 0, 0, 2], some 1, false⟩
  let qb : Req := ⟨[4, 20, 0, 8, 0, 0, 0, 10], none, true⟩
  let q2 : Req := ⟨[4, 5, 0, 8, 0, 0, 0, 3], none, true⟩
  have w1 := SysStep.work (hasAsync := false) s2 q1 [qb, q2] [] (by decide) (by decide) (by simp)
  have h3 := SysReach.step h2 w1
  have h4 := SysReach.step h3 (SysStep.barrier (hasAsync := false) _ qb [q2] [4, 21, 0, 8, 0, 0, 0, 10] rfl (by decide)
    ⟨by decide, by decide, by decide, by decide⟩)
  have h5 := SysReach.step h4 (SysStep.deliver (hasAsync := false) _ ⟨[4, 21, 0, 8, 0, 0, 0, 10], some qb⟩ [] rfl)
  have h6 := SysReach.step h5 (SysStep.work (hasAsync := false) _ q2 [] [[4, 6, 0, 8, 0, 0, 0, 3]] rfl (by decide)
    (by intro b hb; simp only [List.mem_singleton] at hb; subst hb; exact ⟨by decide, by decide, fun _ => by decide⟩))
  exact ⟨_, _, q2, h6, rfl, rfl, rfl, by decide, rfl⟩

theorem run_no_callbacks (v d : Option Nat) (ops : List CtlOp)
    (hops : ∀ alive now wb wm m cb, CtlOp.send alive now wb wm m cb ∈ ops → cb = none) :
    ∀ e ∈ (ctlRun (freshCtl v d) ops).seq, (∃ x, e = .barrier x none) ∨ e = .chunk none := by
  have key : ∀ st : Ctl, (∀ e ∈ st.seq, (∃ x, e = .barrier x none) ∨ e = .chunk none) →
      ∀ e ∈ (ctlRun st ops).seq, (∃ x, e = .barrier x none) ∨ e = .chunk none := by
    induction ops with
    | nil => intro st h; exact h
    | cons op ops ih =>
      intro st h
      refine ih (fun a n wb wm m cb hm => hops a n wb wm m cb (by simp [hm])) _ ?_
      cases op with
      | otherXid now => exact h
      | handle a alive m =>
        simp only [ctlStep]
        rcases handle_seq a alive st m with e | ⟨pre, e⟩
        · rw [e]; exact h
        · intro x hx; exact h x (by rw [e]; simp [hx])
      | send alive now wb wm m cb =>
        have hcb := hops alive now wb wm m cb (by simp)
        subst hcb
        simp only [ctlStep]
        have hw : ∀ st' : Ctl, (ctlWrite wm st' (.user m none)).1.seq = st'.seq := by intro st'; cases wm <;> rfl
        have hc := ctlSend_cases alive now wb wm st m none
        generalize ctlSend alive now wb wm st m none = r at hc
        cases hc with
        | short e _ => exact h
        | packFail e _ _ _ _ _ => exact h
        | insertFail _ _ _ _ _ _ _ _ => intro x hx; simp at hx; rcases hx with hx | rfl | rfl; exacts [h x hx, .inl ⟨_, rfl⟩, .inr rfl]
        | barrier hm hb => rw [hw]; intro x hx; simp at hx; rcases hx with hx | rfl; exacts [h x hx, .inl ⟨_, rfl⟩]
        | same c hm hb hl hlc => rw [hw]; exact h
        | afterBarrier x k hm hb hl => rw [hw]; intro x hx; simp at hx; rcases hx with hx | rfl; exacts [h x hx, .inr rfl]
        | idleNone hm hb hs hcn => rw [hw]; exact h
        | idleSome c hm hb hs hcn => simp at hcn
        | insert c b hm hb hl hlc hbm _ => rw [hw]; intro x hx; simp at hx; rcases hx with hx | rfl | rfl; exacts [h x hx, .inl ⟨_, rfl⟩, .inr rfl]
  exact key _ (by simp [freshCtl])

/-- **C18, another provable part**: on a channel where nobody ever passes a callback, no message goes to a reply callback, in any
history and with any switch. -/
theorem C18_no_callbacks_partial (version dedup : Option Nat) (ops : List CtlOp)
    (hops : ∀ alive now wb wm m cb, CtlOp.send alive now wb wm m cb ∈ ops → cb = none) (a : Bool) (alive : Nat → Bool) (m : Bytes) (c : Nat) :
    (ctlHandle a alive (ctlRun (freshCtl version dedup) ops) m).2 ≠ .callback c := by
  have h := run_no_callbacks version dedup ops hops
  generalize ctlRun (freshCtl version dedup) ops = st at h
  have hscan : ∀ (s orig : List Elem) d x, (∀ e ∈ s, (∃ x, e = .barrier x none) ∨ e = .chunk none) →
      (scan alive x orig d s).2 ≠ .callback c := by
    intro s
    induction s with
    | nil => intro orig d x _; cases d <;> simp [scan]
    | cons e s ih =>
      intro orig d x hs
      rcases hs e (by simp) with ⟨y, rfl⟩ | rfl
      · cases d <;> simp only [scan, cbOr, live] <;> split <;> simp
      · cases d with
        | true => simp [scan]
        | false => simp only [scan]; exact ih _ _ _ (fun e he => hs e (by simp [he]))
  by_cases hm : 8 ≤ m.length
  · rw [ctlHandle_def _ _ _ _ hm]
    split
    · simp
    · cases hs : st.seq with
      | nil => simp
      | cons e rest =>
        simp only
        rw [hs] at h
        split
        · exact hscan _ _ _ _ h
        · rcases h e (by simp) with ⟨y, rfl⟩ | rfl <;> simp [cbOr, live]
  · simp [ctlHandle, parseHeader_short m (by omega)]

/-! ## C19, C20 -/

theorem barrierRep_not_async {m : Bytes} (hb : IsBarrierRep m) : ¬ IsAsyncMsg m := by
  unfold IsBarrierRep at hb; unfold IsAsyncMsg; split at hb <;> omega

/-- **C19.** For every channel state reached by any history and every barrier reply: with nothing outstanding it goes to the
default handler; otherwise the queue is `front ++ barrier x cb :: later` with at most one non-barrier entry in front and the reply
with id `x` removes precisely `front` and that barrier, any other id fails and leaves the queue unchanged; or the queue has
no barrier and the reply fails leaving it unchanged. -/
theorem C19_barrier_reply (version dedup : Option Nat) (ops : List CtlOp) (a : Bool) (alive : Nat → Bool) (m : Bytes)
    (hm : 8 ≤ m.length) (hb : IsBarrierRep m) :
    let st := ctlRun (freshCtl version dedup) ops
    (st.seq = [] ∧ ctlHandle a alive st m = (st, .default)) ∨
    (∃ c, st.seq = [.chunk c] ∧ ctlHandle a alive st m = (st, .unknownBarrier)) ∨
    (∃ front x cb later, st.seq = front ++ .barrier x cb :: later ∧ (front = [] ∨ ∃ c, front = [.chunk c]) ∧
      (u32 m 4 ≠ x → ctlHandle a alive st m = (st, .missingBarrier)) ∧
      (u32 m 4 = x → (ctlHandle a alive st m).1 = { st with seq := later } ∧
        (ctlHandle a alive st m).2 = (match cb with
          | some c => if alive c then .callback c else .swallowed
          | none => .swallowed))) := by
  intro st
  have hn := noAdj_run version dedup ops
  change NoAdjacentChunks st.seq at hn
  have hna : ¬ (a = true ∧ IsAsyncMsg m) := fun h => barrierRep_not_async hb h.2
  have hcb : ∀ cb : Option Nat, cbOr alive cb .swallowed = (match cb with
      | some c => if alive c then .callback c else .swallowed
      | none => .swallowed) := by
    intro cb
    cases cb with
    | none => rfl
    | some c => simp only [cbOr, live]; by_cases h : alive c = true <;> simp [h]
  rw [ctlHandle_def _ _ _ _ hm, if_neg hna]
  obtain ⟨ver, sq, wr, dd⟩ := st
  simp only at hn ⊢
  match sq, hn with
  | [], _ => left; exact ⟨rfl, rfl⟩
  | [.chunk c], _ => right; left; exact ⟨c, rfl, by simp [hb, scan]⟩
  | .chunk c :: .chunk d :: rest, hn => exact absurd rfl (hn [] c d rest)
  | .barrier x cb :: rest, _ =>
    right; right
    refine ⟨[], x, cb, rest, rfl, .inl rfl, fun h => ?_, fun h => ?_⟩
    · have h' : ¬ x = u32 m 4 := fun e => h e.symm
      simp [hb, scan, h']
    · simp [hb, scan, h, hcb]
  | .chunk c :: .barrier x cb :: rest, _ =>
    right; right
    refine ⟨[.chunk c], x, cb, rest, rfl, .inr ⟨c, rfl⟩, fun h => ?_, fun h => ?_⟩
    · have h' : ¬ x = u32 m 4 := fun e => h e.symm
      simp [hb, scan, h']
    · simp [hb, scan, h, hcb]

/-- Non-vacuity of C19. -/
example : 8 ≤ ([4, 21, 0, 8, 0, 0, 0, 5] : Bytes).length ∧ IsBarrierRep [4, 21, 0, 8, 0, 0, 0, 5] ∧
    (ctlRun (freshCtl (some 4) none) [.send (fun _ => true) ⟨0, 0, 0, 0⟩ true true [4, 20, 0, 8, 0, 0, 0, 5] none]).seq =
      [.barrier 5 none] := by decide

/-- **C20.** With an asynchronous handler present, PACKET_IN, FLOW_REMOVED and PORT_STATUS go to it only, and nothing
changes; for every channel state. -/
theorem C20_async_bypass (alive : Nat → Bool) (st : Ctl) (m : Bytes) (hm : 8 ≤ m.length) (ha : IsAsyncMsg m) :
    ctlHandle true alive st m = (st, .async) := by
  rw [ctlHandle_def _ _ _ _ hm, if_pos ⟨rfl, ha⟩]

/-- **C20**, converse: only those messages go to the asynchronous handler, and only if there is one. -/
theorem C20_async_only (hasAsync : Bool) (alive : Nat → Bool) (st : Ctl) (m : Bytes) (hm : 8 ≤ m.length)
    (h : (ctlHandle hasAsync alive st m).2 = .async) : hasAsync = true ∧ IsAsyncMsg m := by
  apply Classical.byContradiction
  intro hc
  rw [ctlHandle_def _ _ _ _ hm, if_neg hc] at h
  have hscan : ∀ (s orig : List Elem) d x, (scan alive x orig d s).2 ≠ .async := by
    intro s
    induction s with
    | nil => intro orig d x; cases d <;> simp [scan]
    | cons e s ih =>
      intro orig d x
      cases e with
      | barrier y cb => cases d <;> simp only [scan, cbOr] <;> split <;> (try split) <;> simp
      | chunk c => cases d with
        | true => simp [scan]
        | false => simp only [scan]; exact ih _ _ _
  cases hs : st.seq with
  | nil => rw [hs] at h; simp at h
  | cons e rest =>
    rw [hs] at h
    simp only at h
    split at h
    · exact hscan _ _ _ _ h
    · cases e with
      | barrier x k => simp at h
      | chunk c => simp only [cbOr] at h; split at h <;> simp at h

example : IsAsyncMsg [4, 10, 0, 8, 0, 0, 0, 1] := by decide

/-! ## C21 -/

/-- **C21.** A FEATURES_REPLY sets the channel's datapath id to the 64-bit number at offset 8, and from OpenFlow 1.3 on also the
auxiliary id to the byte at offset 21; the message is passed on. (In older versions the auxiliary id is not touched.) -/
theorem C21_features_reply (version : Option Nat) (st : Features) (m : Bytes) (ht : u8 m 1 = 6)
    (hlen : (∃ v, version = some v ∧ 4 ≤ v) → 22 ≤ m.length) (hlen' : 16 ≤ m.length) :
    (featuresRecv version st m).2 = .ok m ∧
    (featuresRecv version st m).1.datapath = some (u64 m 8) ∧
    ((∃ v, version = some v ∧ 4 ≤ v) → (featuresRecv version st m).1.auxiliary = some (u8 m 21)) ∧
    (¬ (∃ v, version = some v ∧ 4 ≤ v) → (featuresRecv version st m).1.auxiliary = st.auxiliary) := by
  have hne : m ≠ [] := by intro h; simp [h] at hlen'
  unfold featuresRecv
  rw [if_neg hne, parseHeader_fields m (by omega)]
  simp only [ht, if_true]
  have hQ : unpackFrom [Fmt.Q] m 8 = .ok [.int (u64 m 8)] := by
    rw [unpackFrom, if_pos (by simp [calcsize, Item.width]; omega)]
    simp only [dec, decBE_u64 m 8 (by omega)]
  cases hver : version with
  | none => simp [hQ]
  | some v =>
    by_cases hv : v < 4
    · simp [hv, hQ]
    · have h22 := hlen ⟨v, hver, by omega⟩
      have hF : unpackFrom [Fmt.Q, Fmt.I, Fmt.B, Fmt.B] m 8 =
          .ok [.int (u64 m 8), .int (u32 m 16), .int (u8 m 20), .int (u8 m 21)] := by
        rw [unpackFrom, if_pos (by simp [calcsize, Item.width]; omega)]
        simp only [dec, List.drop_drop, Nat.reduceAdd, decBE_u64 m 8 (by omega), decBE_u32 m 16 (by omega),
          decBE_u8 m 20 (by omega), decBE_u8 m 21 (by omega)]
      simp [hv, hF]

/-- **C21.** Every other message leaves both attributes unchanged. -/
theorem C21_other_messages (version : Option Nat) (st : Features) (m : Bytes) (ht : u8 m 1 ≠ 6) :
    (featuresRecv version st m).1 = st := by
  unfold featuresRecv
  split
  · rfl
  · by_cases h8 : 8 ≤ m.length
    · rw [parseHeader_fields m h8]; simp [ht]
    · rw [parseHeader_short m (by omega)]

/-- A FEATURES_REPLY too short to carry the fields raises and leaves both attributes unchanged. -/
theorem C21_short_features_reply (version : Option Nat) (st : Features) (m : Bytes) (hm : m ≠ [])
    (hlen : m.length < 16) (ht : u8 m 1 = 6) :
    featuresRecv version st m = (st, .error .structError) := by
  unfold featuresRecv
  rw [if_neg hm]
  by_cases h8 : 8 ≤ m.length
  · rw [parseHeader_fields m h8]
    simp only [ht, if_true]
    have h1 : unpackFrom [Fmt.Q] m 8 = .error .structError := by
      rw [unpackFrom, if_neg (by simp [calcsize, Item.width]; omega)]
    have h2 : unpackFrom [Fmt.Q, Fmt.I, Fmt.B, Fmt.B] m 8 = .error .structError := by
      rw [unpackFrom, if_neg (by simp [calcsize, Item.width]; omega)]
    simp only [h1, h2]
    simp
  · rw [parseHeader_short m (by omega)]

/-- Non-vacuity of C21. -/
example :
    let m : Bytes := [4, 6, 0, 32, 0, 0, 0, 1,  0, 0, 0, 0, 0, 0, 1, 2,  0, 0, 1, 0,  8, 3, 0, 0,  0, 0, 0, 0, 0, 0, 0, 0]
    featuresRecv (some 4) ⟨none, none⟩ m = (⟨some 258, some 3⟩, .ok m) := by decide

end Twink
