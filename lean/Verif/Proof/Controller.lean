import Verif.Spec.Controller
import Verif.Proof.HelloSpec

/-! Lemmas about the controller channel: the invariant relating `self.seq` to the outstanding messages. -/

namespace Twink
open Spec Fmt

theorem isBarrierRequest_iff (m : Bytes) : isBarrierRequest (u8 m 0) (u8 m 1) = true ↔ IsBarrierReq m := by
  simp only [isBarrierRequest, IsBarrierReq]
  split <;> simp_all

theorem isBarrierReply_iff (m : Bytes) : isBarrierReply (u8 m 0) (u8 m 1) = true ↔ IsBarrierRep m := by
  simp only [isBarrierReply, IsBarrierRep]
  split <;> simp_all

/-- An outstanding item as seen by the proof: work of a request with its callback and "something was outstanding" flag, or a
barrier. -/
inductive Pend where
  | work (cb : Option Nat) (busy : Bool)
  | bar (xid : Nat) (cb : Option Nat)
  deriving DecidableEq

/-- Work with callback `d` may be covered by a chunk with callback `c`. -/
def Covers (alive : Nat → Bool) (c d : Option Nat) (busy : Bool) : Prop :=
  (d = none ∧ (busy = true → live alive c = none)) ∨ (∃ k, d = some k ∧ c = some k)

/-- `seq` accounts for the outstanding items. -/
inductive Acc (alive : Nat → Bool) : List Elem → List Pend → Prop
  | nil (P) (h : ∀ i ∈ P, i = .work none false) : Acc alive [] P
  | chunkNil (c) : Acc alive [.chunk c] []
  | chunkWork {c s d t P} (h : Covers alive c d t) : Acc alive (.chunk c :: s) P → Acc alive (.chunk c :: s) (.work d t :: P)
  | chunkBar {c x k s P} : Acc alive s P → Acc alive (.chunk c :: .barrier x k :: s) (.bar x k :: P)
  | barWork {x k s P} : Acc alive (.barrier x k :: s) P → Acc alive (.barrier x k :: s) (.work none false :: P)
  | barBar {x k s P} : Acc alive s P → Acc alive (.barrier x k :: s) (.bar x k :: P)

variable {alive : Nat → Bool}

theorem acc_add_bar {s : List Elem} {P : List Pend} (h : Acc alive s P) (x : Nat) (k : Option Nat) :
    Acc alive (s ++ [.barrier x k]) (P ++ [.bar x k]) := by
  induction h with
  | nil P h =>
    induction P with
    | nil => exact .barBar (.nil [] (by simp))
    | cons i P ih =>
      rw [h i (by simp)]
      exact .barWork (ih (fun j hj => h j (by simp [hj])))
  | chunkNil c => exact .chunkBar (.nil [] (by simp))
  | chunkWork hc _ ih => exact .chunkWork hc ih
  | chunkBar _ ih => exact .chunkBar ih
  | barWork _ ih => exact .barWork ih
  | barBar _ ih => exact .barBar ih

theorem acc_add_work {s : List Elem} {P : List Pend} {c d : Option Nat} {t : Bool} (h : Acc alive s P)
    (hl : s.getLast? = some (.chunk c)) (hc : Covers alive c d t) : Acc alive s (P ++ [.work d t]) := by
  induction h with
  | nil P h => simp at hl
  | chunkNil c' =>
    simp at hl; subst hl
    exact .chunkWork hc (.chunkNil _)
  | chunkWork hc' _ ih => exact .chunkWork hc' (ih hl)
  | @chunkBar c' x k s P _ ih =>
    refine .chunkBar (ih ?_)
    cases s with
    | nil => simp at hl
    | cons a s => simpa [List.getLast?_cons_cons] using hl
  | barWork _ ih => exact .barWork (ih hl)
  | @barBar x k s P _ ih =>
    refine .barBar (ih ?_)
    cases s with
    | nil => simp at hl
    | cons a s => simpa [List.getLast?_cons_cons] using hl

theorem acc_nil_chunk {P : List Pend} (c : Option Nat) (h : ∀ i ∈ P, i = .work none false) : Acc alive [.chunk c] P := by
  induction P with
  | nil => exact .chunkNil c
  | cons i P ih =>
    rw [h i (by simp)]
    exact .chunkWork (.inl ⟨rfl, by simp⟩) (ih (fun j hj => h j (by simp [hj])))

theorem acc_add_chunk {s : List Elem} {P : List Pend} (h : Acc alive s P)
    (hl : s.getLast? = none ∨ ∃ x k, s.getLast? = some (.barrier x k)) (c : Option Nat) : Acc alive (s ++ [.chunk c]) P := by
  induction h with
  | nil P h => exact acc_nil_chunk c h
  | chunkNil c' => simp at hl
  | chunkWork hc' _ ih => exact .chunkWork hc' (ih hl)
  | @chunkBar c' x k s P _ ih =>
    refine .chunkBar (ih ?_)
    cases s with
    | nil => left; rfl
    | cons a s => simpa [List.getLast?_cons_cons] using hl
  | barWork _ ih => exact .barWork (ih hl)
  | @barBar x k s P _ ih =>
    refine .barBar (ih ?_)
    cases s with
    | nil => left; rfl
    | cons a s => simpa [List.getLast?_cons_cons] using hl

theorem acc_mono {alive' : Nat → Bool} {s : List Elem} {P : List Pend} (h : Acc alive s P)
    (hle : ∀ c, alive' c = true → alive c = true) : Acc alive' s P := by
  induction h with
  | nil P h => exact .nil P h
  | chunkNil c => exact .chunkNil c
  | @chunkWork c _ d t _ hc _ ih =>
    refine .chunkWork ?_ ih
    rcases hc with ⟨h1, h2⟩ | h1
    · refine .inl ⟨h1, fun ht => ?_⟩
      have := h2 ht
      cases c with
      | none => rfl
      | some c =>
        simp only [live] at this ⊢
        split
        · rename_i ha; simp [hle c ha] at this
        · rfl
    · exact .inr h1
  | chunkBar _ ih => exact .chunkBar ih
  | barWork _ ih => exact .barWork ih
  | barBar _ ih => exact .barBar ih

/-- Work can be replicated or dropped anywhere. -/
theorem acc_replicate {s : List Elem} {A B : List Pend} {d : Option Nat} {t : Bool}
    (h : Acc alive s (A ++ .work d t :: B)) (n : Nat) : Acc alive s (A ++ (List.replicate n (.work d t) ++ B)) := by
  generalize hP : A ++ .work d t :: B = P at h
  induction h generalizing A with
  | nil P h =>
    subst hP
    refine .nil _ (fun i hi => ?_)
    simp only [List.mem_append, List.mem_replicate] at hi
    rcases hi with hi | ⟨_, rfl⟩ | hi
    · exact h i (by simp [hi])
    · exact h _ (by simp)
    · exact h i (by simp [hi])
  | chunkNil c => exact absurd hP (by simp)
  | @chunkWork c s d' t' P hc hacc ih =>
    cases A with
    | nil =>
      simp only [List.nil_append, List.cons.injEq, Pend.work.injEq] at hP ⊢
      obtain ⟨⟨rfl, rfl⟩, rfl⟩ := hP
      clear ih
      induction n with
      | zero => simpa using hacc
      | succ n ih => rw [List.replicate_succ, List.cons_append]; exact .chunkWork hc ih
    | cons a A =>
      simp only [List.cons_append, List.cons.injEq] at hP ⊢
      obtain ⟨rfl, rfl⟩ := hP
      exact .chunkWork hc (ih rfl)
  | @chunkBar c x k s P hacc ih =>
    cases A with
    | nil => simp at hP
    | cons a A =>
      simp only [List.cons_append, List.cons.injEq] at hP ⊢
      obtain ⟨rfl, rfl⟩ := hP
      exact .chunkBar (ih rfl)
  | @barWork x k s P hacc ih =>
    cases A with
    | nil =>
      simp only [List.nil_append, List.cons.injEq, Pend.work.injEq] at hP ⊢
      obtain ⟨⟨rfl, rfl⟩, rfl⟩ := hP
      clear ih
      induction n with
      | zero => simpa using hacc
      | succ n ih => rw [List.replicate_succ, List.cons_append]; exact .barWork ih
    | cons a A =>
      simp only [List.cons_append, List.cons.injEq] at hP ⊢
      obtain ⟨rfl, rfl⟩ := hP
      exact .barWork (ih rfl)
  | @barBar x k s P hacc ih =>
    cases A with
    | nil => simp at hP
    | cons a A =>
      simp only [List.cons_append, List.cons.injEq] at hP ⊢
      obtain ⟨rfl, rfl⟩ := hP
      exact .barBar (ih rfl)

/-- Untracked noise can be inserted anywhere a work item or the front is: here, in front of position `A`. -/
theorem acc_insert {s : List Elem} {A B : List Pend} (h : Acc alive s (A ++ B)) :
    Acc alive s (A ++ .work none false :: B) := by
  generalize hP : A ++ B = P at h
  induction h generalizing A with
  | nil P h =>
    subst hP
    refine .nil _ (fun i hi => ?_)
    simp only [List.mem_append, List.mem_cons] at hi
    rcases hi with hi | rfl | hi
    · exact h i (by simp [hi])
    · rfl
    · exact h i (by simp [hi])
  | chunkNil c =>
    obtain ⟨rfl, rfl⟩ := List.append_eq_nil_iff.1 hP
    exact .chunkWork (.inl ⟨rfl, by simp⟩) (.chunkNil c)
  | @chunkWork c s d' t' P hc hacc ih =>
    cases A with
    | nil =>
      simp only [List.nil_append] at hP ⊢; subst hP
      exact .chunkWork (.inl ⟨rfl, by simp⟩) (.chunkWork hc hacc)
    | cons a A =>
      simp only [List.cons_append, List.cons.injEq] at hP ⊢
      obtain ⟨rfl, rfl⟩ := hP
      exact .chunkWork hc (ih rfl)
  | @chunkBar c x k s P hacc ih =>
    cases A with
    | nil =>
      simp only [List.nil_append] at hP ⊢; subst hP
      exact .chunkWork (.inl ⟨rfl, by simp⟩) (.chunkBar hacc)
    | cons a A =>
      simp only [List.cons_append, List.cons.injEq] at hP ⊢
      obtain ⟨rfl, rfl⟩ := hP
      exact .chunkBar (ih rfl)
  | @barWork x k s P hacc ih =>
    cases A with
    | nil =>
      simp only [List.nil_append] at hP ⊢; subst hP
      exact .barWork (.barWork hacc)
    | cons a A =>
      simp only [List.cons_append, List.cons.injEq] at hP ⊢
      obtain ⟨rfl, rfl⟩ := hP
      exact .barWork (ih rfl)
  | @barBar x k s P hacc ih =>
    cases A with
    | nil =>
      simp only [List.nil_append] at hP ⊢; subst hP
      exact .barWork (.barBar hacc)
    | cons a A =>
      simp only [List.cons_append, List.cons.injEq] at hP ⊢
      obtain ⟨rfl, rfl⟩ := hP
      exact .barBar (ih rfl)

/-! ### What a send does -/

/-- The barrier message bytes. -/
theorem barrierMsg_ok {version : Option Nat} {x : Nat} {b : Bytes} (h : barrierMsg version x = .ok b) :
    ∃ v, version = some v ∧ b.length = 8 ∧ u8 b 0 = v ∧ u16 b 2 = 8 ∧ u32 b 4 = x ∧ IsBarrierReq b ∧ x < 2 ^ 32 := by
  have key : ∀ v t, pack hdrFmt [.int v, .int t, .int 8, .int x] = .ok b → t < 256 → (if v = 1 then t = 18 else t = 20) →
      b.length = 8 ∧ u8 b 0 = v ∧ u16 b 2 = 8 ∧ u32 b 4 = x ∧ IsBarrierReq b ∧ x < 2 ^ 32 := by
    intro v t hp ht hvt
    rw [pack] at hp
    split at hp
    · rename_i f1
      injection hp with hp
      have f1' := f1
      simp [fits, hdrFmt] at f1'
      have hl : b.length = 8 := by rw [← hp, enc_hdr_length]
      have hh := parseHeader_pack _ _ _ _ [] f1
      rw [List.append_nil, hp, parseHeader_fields b (by omega)] at hh
      simp only [Except.ok.injEq, Prod.mk.injEq] at hh
      obtain ⟨p1, p2, p3, p4⟩ := hh
      refine ⟨hl, p1, p3, p4, ?_, by omega⟩
      unfold IsBarrierReq
      rw [p1, p2]; exact hvt
    · cases hp
  unfold barrierMsg at h
  split at h
  · rename_i hv
    exact ⟨1, hv, key 1 18 h (by decide) (by simp)⟩
  · rename_i hv
    cases version with
    | none => simp at h
    | some v =>
      have hv' : v ≠ 1 := fun e => hv (by rw [e])
      exact ⟨v, rfl, key v 20 h (by decide) (by simp [hv'])⟩

/-- All outcomes of a send. -/
inductive SendCase (alive : Nat → Bool) (now : Clock) (wb wm : Bool) (st : Ctl) (m : Bytes) (cb : Option Nat) : Ctl × Py Unit → Prop
  | short (e) : m.length < 8 → SendCase alive now wb wm st m cb (st, .error e)
  | packFail (e) (c) : 8 ≤ m.length → ¬ IsBarrierReq m → st.seq.getLast? = some (.chunk c) → live alive c ≠ cb →
      SendCase alive now wb wm st m cb ({ st with dedup := some (hmsXid st.dedup now) }, .error e)
  | barrier : 8 ≤ m.length → IsBarrierReq m →
      SendCase alive now wb wm st m cb (ctlWrite wm { st with seq := st.seq ++ [.barrier (u32 m 4) cb] } (.user m cb))
  | same (c) : 8 ≤ m.length → ¬ IsBarrierReq m → st.seq.getLast? = some (.chunk c) → live alive c = cb →
      SendCase alive now wb wm st m cb (ctlWrite wm st (.user m cb))
  | insertFail (c b) : 8 ≤ m.length → ¬ IsBarrierReq m → st.seq.getLast? = some (.chunk c) → live alive c ≠ cb →
      barrierMsg st.version (hmsXid st.dedup now) = .ok b → wb = false →
      SendCase alive now wb wm st m cb
        ({ st with dedup := some (hmsXid st.dedup now), seq := st.seq ++ [.barrier (hmsXid st.dedup now) none, .chunk cb] },
          .error .other)
  | insert (c b) : 8 ≤ m.length → ¬ IsBarrierReq m → st.seq.getLast? = some (.chunk c) → live alive c ≠ cb →
      barrierMsg st.version (hmsXid st.dedup now) = .ok b → wb = true →
      SendCase alive now wb wm st m cb
        (ctlWrite wm { st with
          dedup := some (hmsXid st.dedup now), seq := st.seq ++ [.barrier (hmsXid st.dedup now) none, .chunk cb],
          wire := st.wire ++ [.inserted b] } (.user m cb))
  | afterBarrier (x k) : 8 ≤ m.length → ¬ IsBarrierReq m → st.seq.getLast? = some (.barrier x k) →
      SendCase alive now wb wm st m cb (ctlWrite wm { st with seq := st.seq ++ [.chunk cb] } (.user m cb))
  | idleNone : 8 ≤ m.length → ¬ IsBarrierReq m → st.seq = [] → cb = none →
      SendCase alive now wb wm st m cb (ctlWrite wm st (.user m cb))
  | idleSome (c) : 8 ≤ m.length → ¬ IsBarrierReq m → st.seq = [] → cb = some c →
      SendCase alive now wb wm st m cb (ctlWrite wm { st with seq := [.chunk cb] } (.user m cb))

theorem ctlSend_cases (alive : Nat → Bool) (now : Clock) (wb wm : Bool) (st : Ctl) (m : Bytes) (cb : Option Nat) :
    SendCase alive now wb wm st m cb (ctlSend alive now wb wm st m cb) := by
  unfold ctlSend
  by_cases hm : 8 ≤ m.length
  · rw [parseHeader_fields m hm]
    simp only
    by_cases hb : IsBarrierReq m
    · rw [if_pos ((isBarrierRequest_iff m).2 hb)]; exact .barrier hm hb
    · rw [if_neg (by rw [isBarrierRequest_iff]; exact hb)]
      match hl : st.seq.getLast? with
      | some (.chunk c) =>
        simp only
        by_cases hc : live alive c = cb
        · rw [if_neg (by simp [hc])]; exact .same c hm hb hl hc
        · rw [if_pos hc]
          match hbm : barrierMsg st.version (hmsXid st.dedup now) with
          | .error e => exact .packFail e c hm hb hl hc
          | .ok b =>
            cases wb with
            | false => simp only [ctlWrite]; exact .insertFail c b hm hb hl hc hbm rfl
            | true => simp only [ctlWrite, if_true]; exact .insert c b hm hb hl hc hbm rfl
      | some (.barrier x k) => exact .afterBarrier x k hm hb hl
      | none =>
        have hs : st.seq = [] := List.getLast?_eq_none_iff.1 hl
        cases cb with
        | none => simp only; rw [if_neg (by simp)]; exact .idleNone hm hb hs rfl
        | some c =>
          simp only
          rw [if_pos (by simp), hs]
          exact .idleSome c hm hb hs rfl
  · rw [parseHeader_short m (by omega)]; exact .short _ (by omega)

/-- The item for a request on the wire. -/
def itemOf (q : Req) : Pend := if IsBarrierReq q.bytes then .bar (u32 q.bytes 4) q.cb else .work q.cb q.busy

theorem covers_self (cb : Option Nat) (busy : Bool) (hlive : ∀ c, cb = some c → alive c = true) : Covers alive cb cb busy := by
  cases cb with
  | none => exact .inl ⟨rfl, fun _ => rfl⟩
  | some c => exact .inr ⟨c, rfl, rfl⟩

/-- A send with successful writes keeps the accounting. -/
theorem acc_send {st : Ctl} {P : List Pend} (h : Acc alive st.seq P) (now : Clock) (m : Bytes) (cb : Option Nat)
    (hcb : ∀ c, cb = some c → alive c = true) :
    let c := (ctlSend alive now true true st m cb).1
    Acc alive c.seq (P ++ (newReqs (st.seq ≠ []) (c.wire.drop st.wire.length)).map itemOf) := by
  intro c
  have hc := ctlSend_cases alive now true true st m cb
  have hcdef : c = (ctlSend alive now true true st m cb).1 := rfl
  rw [hcdef]
  generalize ctlSend alive now true true st m cb = r at hc
  have hU : ∀ (ws : List Wire) (w : List Wire), (ws ++ w).drop ws.length = w := fun ws w => by simp
  cases hc with
  | short e _ => simpa [newReqs] using h
  | packFail e _ _ _ _ _ => simpa [newReqs] using h
  | barrier hm hb =>
    simp only [ctlWrite, if_true, hU, newReqs, List.map_cons, List.map_nil, itemOf, hb, if_true]
    exact acc_add_bar h _ _
  | same c' hm hb hl hlc =>
    simp only [ctlWrite, if_true, hU, newReqs, List.map_cons, List.map_nil, itemOf, hb, if_false]
    refine acc_add_work h hl ?_
    cases cb with
    | none => exact .inl ⟨rfl, fun _ => hlc⟩
    | some k =>
      cases c' with
      | none => simp [live] at hlc
      | some k' => simp only [live] at hlc; split at hlc <;> simp_all [Covers]
  | insertFail _ _ _ _ _ _ _ hw => simp at hw
  | insert c' b hm hb hl hlc hbm _ =>
    obtain ⟨v, _, _, _, _, hx, hbb, _⟩ := barrierMsg_ok hbm
    simp only [ctlWrite, if_true, newReqs, List.append_assoc, hU, List.map_cons, List.map_nil, itemOf, hb, hbb,
      if_true, if_false, List.cons_append, List.nil_append]
    have h1 := acc_add_bar h (u32 b 4) none
    have h2 := acc_add_chunk h1 (.inr ⟨u32 b 4, none, by simp⟩) cb
    have h3 := acc_add_work (d := cb) (t := decide (st.seq ≠ [])) h2 (by simp) (covers_self cb _ hcb)
    simpa [hx] using h3
  | afterBarrier x k hm hb hl =>
    simp only [ctlWrite, if_true, hU, newReqs, List.map_cons, List.map_nil, itemOf, hb, if_false]
    exact acc_add_work (acc_add_chunk h (.inr ⟨x, k, hl⟩) cb) (by simp) (covers_self cb _ hcb)
  | idleNone hm hb hs hcn =>
    subst hcn
    simp only [ctlWrite, if_true, hU, newReqs, List.map_cons, List.map_nil, itemOf, hb, if_false]
    rw [hs] at h ⊢
    cases h with
    | nil P h =>
      refine .nil _ (fun i hi => ?_)
      simp only [List.mem_append, List.mem_singleton] at hi
      rcases hi with hi | rfl
      · exact h i hi
      · simp
  | idleSome c' hm hb hs hcn =>
    subst hcn
    simp only [ctlWrite, if_true, hU, newReqs, List.map_cons, List.map_nil, itemOf, hb, if_false]
    rw [hs] at h
    cases h with
    | nil P h => exact acc_add_work (acc_nil_chunk _ h) (by simp) (covers_self _ _ hcb)

/-! ### What handling a message does -/

theorem ctlHandle_def (hasAsync : Bool) (alive : Nat → Bool) (st : Ctl) (m : Bytes) (hm : 8 ≤ m.length) :
    ctlHandle hasAsync alive st m =
      if hasAsync = true ∧ IsAsyncMsg m then (st, .async)
      else match st.seq with
      | [] => (st, .default)
      | e :: rest =>
        if IsBarrierRep m then
          ({ st with seq := (scan alive (u32 m 4) (e :: rest) false (e :: rest)).1 },
            (scan alive (u32 m 4) (e :: rest) false (e :: rest)).2)
        else match e with
          | .barrier _ _ => (st, .default)
          | .chunk c => (st, cbOr alive c .default) := by
  unfold ctlHandle
  rw [parseHeader_fields m hm]
  simp only
  have h1 : (hasAsync && (decide (u8 m 1 = 10) || decide (u8 m 1 = 11) || decide (u8 m 1 = 12))) = true ↔
      hasAsync = true ∧ IsAsyncMsg m := by
    simp [IsAsyncMsg, or_assoc]
  by_cases ha : hasAsync = true ∧ IsAsyncMsg m
  · rw [if_pos (h1.2 ha), if_pos ha]
  · rw [if_neg (fun h => ha (h1.1 h)), if_neg ha]
    cases hs : st.seq with
    | nil => rfl
    | cons e rest =>
      simp only
      by_cases hb : IsBarrierRep m
      · rw [if_pos ((isBarrierReply_iff m).2 hb), if_pos hb]
      · rw [if_neg (fun h => hb ((isBarrierReply_iff m).1 h)), if_neg hb]
        cases e <;> rfl

/-- The matching barrier reply, for a queue accounting for that barrier first. -/
theorem handle_bar {hasAsync : Bool} {st : Ctl} {P : List Pend} {m : Bytes} {k : Option Nat}
    (h : Acc alive st.seq (.bar (u32 m 4) k :: P)) (hm : 8 ≤ m.length) (hb : IsBarrierRep m) :
    ∃ s', Acc alive s' P ∧ ctlHandle hasAsync alive st m =
      ({ st with seq := s' }, cbOr alive k .swallowed) := by
  have hna : ¬ (hasAsync = true ∧ IsAsyncMsg m) := by
    rintro ⟨_, h⟩; unfold IsBarrierRep at hb; unfold IsAsyncMsg at h; split at hb <;> omega
  rw [ctlHandle_def _ _ _ _ hm, if_neg hna]
  generalize hs : st.seq = s at h
  cases h with
  | nil P h => exact absurd (h _ (List.mem_cons_self ..)) (by simp)
  | @chunkBar c x k s P h =>
    refine ⟨s, h, ?_⟩
    simp [scan, hb]
  | @barBar x k s P h =>
    refine ⟨s, h, ?_⟩
    simp [scan, hb]

/-- A non-barrier message, for a queue accounting for its work first. -/
theorem handle_work {hasAsync : Bool} {st : Ctl} {P : List Pend} {m : Bytes} {d : Option Nat} {t : Bool}
    (h : Acc alive st.seq (.work d t :: P)) (hm : 8 ≤ m.length) (hb : ¬ IsBarrierRep m) :
    Acc alive st.seq P ∧ (ctlHandle hasAsync alive st m).1 = st ∧
    (¬ (hasAsync = true ∧ IsAsyncMsg m) →
      (∀ c, d = some c → (ctlHandle hasAsync alive st m).2 = if alive c then .callback c else .default) ∧
      (d = none → t = true → (ctlHandle hasAsync alive st m).2 = .default)) := by
  rw [ctlHandle_def _ _ _ _ hm]
  generalize hs : st.seq = s at h
  cases h with
  | nil P h =>
    refine ⟨.nil _ (fun i hi => h i (by simp [hi])), by simp only; split <;> rfl, fun hna => ?_⟩
    have := h _ (List.mem_cons_self ..)
    simp at this
    rw [if_neg hna]
    simp [this]
  | @chunkWork c s d t P hc h =>
    refine ⟨h, ?_, fun hna => ?_⟩
    · simp only [hb, if_false]; split <;> rfl
    · rw [if_neg hna]
      simp only [hb, if_false]
      rcases hc with ⟨rfl, h2⟩ | ⟨k, rfl, rfl⟩
      · refine ⟨by simp, fun _ ht => ?_⟩
        rw [cbOr, h2 ht]
      · refine ⟨?_, by simp⟩
        rintro c ⟨⟩
        simp only [cbOr, live]
        by_cases ha : alive k = true <;> simp [ha]
  | @barWork x k s P h =>
    refine ⟨h, ?_, fun hna => ?_⟩
    · simp only [hb, if_false]; split <;> rfl
    · rw [if_neg hna]
      simp [hb]

/-- Any message, any accounted queue: what can happen to the queue. -/
theorem handle_any {hasAsync : Bool} {st : Ctl} {P : List Pend} (m : Bytes) (h : Acc alive st.seq P) :
    ((ctlHandle hasAsync alive st m).1 = st ∧ (ctlHandle hasAsync alive st m).2 ≠ .multipleChunks) ∨
    ∃ A k B, 8 ≤ m.length ∧ IsBarrierRep m ∧ P = A ++ .bar (u32 m 4) k :: B ∧ (∀ i ∈ A, ∃ d t, i = .work d t) ∧
      (ctlHandle hasAsync alive st m).1 = { st with seq := (ctlHandle hasAsync alive st m).1.seq } ∧
      Acc alive (ctlHandle hasAsync alive st m).1.seq B ∧
      ctlHandle hasAsync alive st m = ({ st with seq := (ctlHandle hasAsync alive st m).1.seq },
        cbOr alive k .swallowed) := by
  by_cases hm : 8 ≤ m.length
  swap
  · left; simp [ctlHandle, parseHeader_short m (by omega)]
  by_cases hb : IsBarrierRep m ∧ ¬ (hasAsync = true ∧ IsAsyncMsg m)
  swap
  · left
    rw [ctlHandle_def _ _ _ _ hm]
    split
    · simp
    · rename_i hna
      have hnb : ¬ IsBarrierRep m := fun h => hb ⟨h, hna⟩
      simp only [hnb, if_false]
      split
      · simp
      · split
        · simp
        · simp only [cbOr]; split <;> simp
  obtain ⟨hb, hna⟩ := hb
  have key : ∀ (s : List Elem) (P : List Pend), st.seq = s → Acc alive s P →
      ((ctlHandle hasAsync alive st m).1 = st ∧ (ctlHandle hasAsync alive st m).2 ≠ .multipleChunks) ∨
      ∃ A k B s', P = A ++ .bar (u32 m 4) k :: B ∧ (∀ i ∈ A, ∃ d t, i = .work d t) ∧ Acc alive s' B ∧
        ctlHandle hasAsync alive st m = ({ st with seq := s' }, cbOr alive k .swallowed) := by
    intro s P hs h'
    clear h
    rw [ctlHandle_def _ _ _ _ hm, if_neg hna]
    induction h' with
    | nil P h => left; simp [hs]
    | chunkNil c => left; obtain ⟨_, sq, _, _⟩ := st; simp only at hs; subst hs; simp [hb, scan]
    | @chunkWork c s d t P hc h ih =>
      rcases ih hs with h1 | ⟨A, k, B, s', h1, h2, h3, h4⟩
      · exact .inl h1
      · exact .inr ⟨.work d t :: A, k, B, s', by rw [h1]; rfl, by
          intro i hi; rcases List.mem_cons.1 hi with rfl | hi
          · exact ⟨_, _, rfl⟩
          · exact h2 i hi, h3, h4⟩
    | @chunkBar c x k s P h _ =>
      by_cases hx : x = u32 m 4
      · right; subst hx
        exact ⟨[], k, P, s, rfl, by simp, h, by simp [hs, hb, scan]⟩
      · left; obtain ⟨_, sq, _, _⟩ := st; simp only at hs; subst hs; simp [hb, scan, hx]
    | @barWork x k s P h ih =>
      rcases ih hs with h1 | ⟨A, k', B, s', h1, h2, h3, h4⟩
      · exact .inl h1
      · exact .inr ⟨.work none false :: A, k', B, s', by rw [h1]; rfl, by
          intro i hi; rcases List.mem_cons.1 hi with rfl | hi
          · exact ⟨_, _, rfl⟩
          · exact h2 i hi, h3, h4⟩
    | @barBar x k s P h _ =>
      by_cases hx : x = u32 m 4
      · right; subst hx
        exact ⟨[], k, P, s, rfl, by simp, h, by simp [hs, hb, scan]⟩
      · left; obtain ⟨_, sq, _, _⟩ := st; simp only at hs; subst hs; simp [hb, scan, hx]
  rcases key st.seq P rfl h with h1 | ⟨A, k, B, s', h1, h2, h3, h4⟩
  · exact .inl h1
  · exact .inr ⟨A, k, B, hm, hb, h1, h2, by rw [h4], by rw [h4]; exact h3, by rw [h4]⟩

/-- Work in front of a barrier can be forgotten. -/
theorem acc_drop_front {s : List Elem} {A B : List Pend} (hA : ∀ i ∈ A, ∃ d t, i = .work d t) (h : Acc alive s (A ++ B)) :
    Acc alive s B := by
  induction A with
  | nil => exact h
  | cons i A ih =>
    obtain ⟨d, t, rfl⟩ := hA i (by simp)
    refine ih (fun j hj => hA j (by simp [hj])) ?_
    simpa using acc_replicate (A := []) h 0

/-- Non-barrier messages never raise an assertion and leave the queue alone. -/
theorem handle_nonbarrier (hasAsync : Bool) (alive : Nat → Bool) (st : Ctl) (m : Bytes) (hm : 8 ≤ m.length) (hb : ¬ IsBarrierRep m) :
    (ctlHandle hasAsync alive st m).1 = st ∧
    ((ctlHandle hasAsync alive st m).2 = .async ∨ (ctlHandle hasAsync alive st m).2 = .default ∨
      ∃ c, (ctlHandle hasAsync alive st m).2 = .callback c) := by
  rw [ctlHandle_def _ _ _ _ hm]
  split
  · simp
  · cases hs : st.seq with
    | nil => simp
    | cons e rest =>
      simp only [hb, if_false]
      cases e with
      | barrier x k => simp
      | chunk c => simp only [cbOr]; split <;> simp

end Twink
