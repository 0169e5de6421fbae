import Verif.Model.Ovs
import Verif.Spec.Ovs
import Verif.Proof.Controller
import Verif.Proof.Of13Layout
import Verif.Proof.Of13Loop

/-!
# C48, C49, C58, C59: Open vSwitch helpers
-/

namespace Twink.Ovs
open Spec Fmt
open Of13 (bind_ok ok_inj ok_bind)

/-! ## C49 -/

theorem lt_u8 (b : Bytes) (i : Nat) : u8 b i < 256 := (b.getD i 0).toNat_lt

theorem lt_u32 (b : Bytes) (i : Nat) : u32 b i < 4294967296 := by
  unfold u32 u16
  have := lt_u8 b i; have := lt_u8 b (i + 1); have := lt_u8 b (i + 2); have := lt_u8 b (i + 2 + 1)
  omega

theorem decBE_four (m : Bytes) (o : Nat) (h : o + 4 ≤ m.length) : decBE ((m.drop o).take 4) = u32 m o := by
  have h1 : (m.drop o).take 4 = (m.drop o).take 2 ++ (m.drop (o + 2)).take 2 := by
    rw [← List.drop_drop, ← List.take_add]
  have h2 := decBE_foldl ((m.drop (o + 2)).take 2) (decBE ((m.drop o).take 2))
  have hl : ((m.drop (o + 2)).take 2).length = 2 := by simp; omega
  rw [hl] at h2
  rw [h1, u32, ← Of13.decBE_two m o (by omega), ← Of13.decBE_two m (o + 2) (by omega)]
  unfold decBE at h2 ⊢
  rw [List.foldl_append, h2]; omega

theorem autoAsync_eq (parent : Bytes → Py Unit) (m : Bytes) (hp : parent m = .ok ()) (hm : Whole m) :
    autoAsync true parent m = .ok (release m).head? := by
  have hb : unpackFrom [I] m 8 = if 12 ≤ m.length then .ok [.int (u32 m 8)] else .error .structError := by
    unfold unpackFrom
    by_cases h : 12 ≤ m.length
    · rw [if_pos h, if_pos (by simpa [calcsize, Item.width, I] using h)]
      simp only [dec, I, decBE_four m 8 h]
    · rw [if_neg h, if_neg (by simpa [calcsize, Item.width, I] using h)]
  have h0 := lt_u8 m 0
  have h4 := lt_u32 m 4
  have h8 := lt_u32 m 8
  simp only [autoAsync, hp, ok_bind, Bool.not_true, Bool.false_eq_true, if_false, parseHeader_fields m hm.1]
  unfold release Buffered
  by_cases ht : u8 m 1 = 10
  · rw [if_pos ht, hb, if_pos (hm.2 ht), ok_bind]
    simp only [ht, true_and]
    by_cases hn : u32 m 8 = 0xffffffff
    · simp [hn]
    · simp only [hn, if_false, ne_eq, not_false_eq_true, if_true]
      by_cases hv : u8 m 0 = 1
      · have hf : fits [B, B, H, I, I, H, H] [.int (u8 m 0), .int 13, .int (calcsize [B, B, H, I, I, H, H]), .int (u32 m 4),
            .int (u32 m 8), .int 0xffff, .int 0] = true := by
          simp [fits, B, H, I, calcsize, Item.width, h0]; omega
        simp only [hv, if_true] at hf ⊢
        simp only [pack, hf, if_true, ok_bind, List.head?_cons]
        simp [enc, encBE_1, encBE_2, encBE_4, ofHeader, calcsize, Item.width]
      · have hf : fits [B, B, H, I, I, I, H, X 6] [.int (u8 m 0), .int 13, .int (calcsize [B, B, H, I, I, I, H, X 6]), .int (u32 m 4),
            .int (u32 m 8), .int 0xfffffffd, .int 0] = true := by
          simp [fits, B, H, I, X, calcsize, Item.width, h0]; omega
        simp only [hv, if_false]
        simp only [pack, hf, if_true, ok_bind, List.head?_cons]
        simp [enc, encBE_1, encBE_2, encBE_4, ofHeader, calcsize, Item.width, zeros]
  · simp [ht]

theorem release_head (m : Bytes) : (release m).head?.toList = release m := by
  unfold release; split
  · split <;> rfl
  · rfl

theorem release_long (m r : Bytes) (h : r ∈ release m) : 8 ≤ r.length ∧ u8 r 1 = 13 := by
  unfold release at h
  split at h
  · split at h <;> (rw [List.mem_singleton] at h; subst h; exact ⟨by simp, by simp [ofHeader, b8, u8]⟩)
  · cases h

theorem userSent_append (a b : List Wire) : userSent (a ++ b) = userSent a ++ userSent b := by
  induction a with
  | nil => rfl
  | cons w a ih => cases w <;> simp [userSent, ih]

theorem async_iff (alive : Nat → Bool) (st : Ctl) (m : Bytes) (hm : 8 ≤ m.length) :
    ctlHandle true alive st m = (st, .async) ∨ ((u8 m 1 ≠ 10) ∧ (ctlHandle true alive st m).2 ≠ .async ∧
      (ctlHandle true alive st m).1.wire = st.wire ∧ (ctlHandle true alive st m).1.version = st.version ∧
      (ctlHandle true alive st m).1.dedup = st.dedup) := by
  unfold ctlHandle
  rw [parseHeader_fields m hm]
  simp only [Bool.true_and]
  split
  · left; rfl
  · rename_i h
    right
    have hcb : ∀ cb d, d ≠ Handled.async → cbOr alive cb d ≠ .async := by
      intro cb d hd; unfold cbOr; split
      · simp
      · exact hd
    refine ⟨fun e => h (by simp [e]), ?_⟩
    split
    · exact ⟨by simp, rfl, rfl, rfl⟩
    · split
      · refine ⟨?_, rfl, rfl, rfl⟩
        have : ∀ orig b l, (scan alive (u32 m 4) orig b l).2 ≠ .async := by
          intro orig b l
          induction l generalizing b with
          | nil => cases b <;> simp [scan]
          | cons e l ih =>
            cases e with
            | barrier x cb =>
              cases b <;> (simp only [scan]; split <;> [exact hcb _ _ (by simp); simp])
            | chunk cb =>
              cases b
              · exact ih true
              · simp [scan]
        exact this _ _ _
      · split
        · exact ⟨by simp, rfl, rfl, rfl⟩
        · exact ⟨hcb _ _ (by simp), rfl, rfl, rfl⟩

/-- C49. On an auto-packet-out channel, in any state, a PACKET_IN of a buffered packet makes the channel write exactly
one message of its own, the PACKET_OUT of the specification, possibly after a barrier that separates it from a pending
request with a callback; any other message makes it write nothing. -/
theorem C49_one (parent : Bytes → Py Unit) (alive : Nat → Bool) (now : Clock) (wb wm : Bool) (st : Ctl) (m : Bytes)
    (hm : Whole m) (hp : parent m = .ok ()) (hok : (autoRecv true parent alive now wb wm st m).2 = .ok ()) :
    ∃ ins, (autoRecv true parent alive now wb wm st m).1.wire = st.wire ++ ins ++ (release m).map (.user · none) ∧
      (ins = [] ∨ ∃ b, ins = [.inserted b] ∧ IsBarrierReq b) ∧ (release m = [] → ins = []) := by
  rcases async_iff alive st m hm.1 with ha | ⟨h10, hna, hw, _, _⟩
  · unfold autoRecv at hok ⊢
    rw [ha] at hok ⊢
    simp only [autoAsync_eq parent m hp hm] at hok ⊢
    cases hr : release m with
    | nil => exact ⟨[], by simp, .inl rfl, fun _ => rfl⟩
    | cons r rs =>
      have hrs : rs = [] := by
        have := release_head m
        rw [hr] at this
        simpa using this
      subst hrs
      rw [hr] at hok
      simp only [List.head?_cons] at hok ⊢
      obtain ⟨hl, h13⟩ := release_long m r (by rw [hr]; simp)
      have hnb : ¬ IsBarrierReq r := by
        unfold IsBarrierReq; split <;> (rw [h13]; decide)
      have hc := ctlSend_cases alive now wb wm st r none
      generalize ctlSend alive now wb wm st r none = res at hc hok
      cases hc with
      | short e h => omega
      | packFail e c _ _ _ _ => cases hok
      | barrier _ h => exact (hnb h).elim
      | insertFail c b _ _ _ _ _ _ => cases hok
      | insert c b _ _ _ _ hbm _ =>
        cases wm
        · cases hok
        · obtain ⟨_, _, _, _, _, _, hb, _⟩ := barrierMsg_ok hbm
          exact ⟨[.inserted b], by simp [ctlWrite], .inr ⟨b, rfl, hb⟩, fun h => by cases h⟩
      | idleSome c _ _ _ h => cases h
      | same c _ _ _ _ =>
        cases wm
        · cases hok
        · exact ⟨[], by simp [ctlWrite], .inl rfl, fun _ => rfl⟩
      | afterBarrier x k _ _ _ =>
        cases wm
        · cases hok
        · exact ⟨[], by simp [ctlWrite], .inl rfl, fun _ => rfl⟩
      | idleNone _ _ _ _ =>
        cases wm
        · cases hok
        · exact ⟨[], by simp [ctlWrite], .inl rfl, fun _ => rfl⟩
  · have hrel : release m = [] := by
      unfold release; exact if_neg (fun h => h10 h.1)
    refine ⟨[], ?_, .inl rfl, fun _ => rfl⟩
    rw [hrel]
    unfold autoRecv
    generalize hr : ctlHandle true alive st m = res at hna hw
    obtain ⟨st', hd⟩ := res
    cases hd <;> simp_all

/-- C49. The PACKET_OUT is sent: nothing but a transport failure, or a missing version or exhausted transaction ids for the
separating barrier, can prevent it. -/
theorem C49_sent (parent : Bytes → Py Unit) (alive : Nat → Bool) (now : Clock) (st : Ctl) (m : Bytes) (v : Nat)
    (hm : Whole m) (hp : parent m = .ok ()) (hv : st.version = some v) (hv' : v < 256) (hx : hmsXid st.dedup now < 4294967296) :
    (autoRecv true parent alive now true true st m).2 = .ok () := by
  rcases async_iff alive st m hm.1 with ha | ⟨_, hna, _, _⟩
  · unfold autoRecv
    rw [ha]
    simp only [autoAsync_eq parent m hp hm]
    cases hr : (release m).head? with
    | none => rfl
    | some r =>
      have hmem : r ∈ release m := List.mem_of_mem_head? hr
      obtain ⟨hl, h13⟩ := release_long m r hmem
      have hc := ctlSend_cases alive now true true st r none
      have hbm : ∃ b, barrierMsg st.version (hmsXid st.dedup now) = .ok b := by
        unfold barrierMsg
        rw [hv]
        by_cases h1 : v = 1
        · subst h1; exact ⟨_, by rw [if_pos rfl]; exact pack_eq_ok.2 ⟨by simp [fits, hdrFmt]; omega, rfl⟩⟩
        · exact ⟨_, by rw [if_neg (by simpa using h1)]; exact pack_eq_ok.2 ⟨by simp [fits, hdrFmt]; omega, rfl⟩⟩
      simp only
      generalize hres : ctlSend alive now true true st r none = res at hc
      cases hc with
      | short e h => omega
      | packFail e c _ hnb hlast hlive =>
        exfalso
        obtain ⟨b, hb⟩ := hbm
        unfold ctlSend at hres
        rw [parseHeader_fields r hl] at hres
        simp only at hres
        rw [if_neg (by rw [isBarrierRequest_iff]; exact hnb), hlast] at hres
        simp only [if_pos hlive, hb, ctlWrite, if_true] at hres
        injection hres with h1 h2
        cases h2
      | insertFail c b _ _ _ _ _ h => cases h
      | _ => rfl
  · unfold autoRecv
    generalize hr : ctlHandle true alive st m = res at hna
    obtain ⟨st', hd⟩ := res
    cases hd <;> simp_all

/-- What happens on a channel: messages received, and other sends by the application. -/
inductive Ev where
  | recv (m : Bytes) (now : Clock)
  | send (m : Bytes) (cb : Option Nat) (now : Clock)

/-- One event with successful writes. -/
def evStep (parent : Bytes → Py Unit) (alive : Nat → Bool) (st : Ctl) : Ev → Ctl × Py Unit
  | .recv m now => autoRecv true parent alive now true true st m
  | .send m cb now => ctlSend alive now true true st m cb

/-- The messages that the events alone account for. -/
def evOut : Ev → List Bytes
  | .recv m _ => release m
  | .send m _ _ => [m]

/-- Events until the first exception. -/
def evRun (parent : Bytes → Py Unit) (alive : Nat → Bool) : Ctl → List Ev → Py Ctl
  | st, [] => .ok st
  | st, e :: es => do
    (evStep parent alive st e).2
    evRun parent alive (evStep parent alive st e).1 es

/-- C49, for all histories of received messages interleaved with sends of the application: the messages on the wire, apart from
inserted barriers, are those of the application and, in place, one PACKET_OUT for every buffered PACKET_IN. -/
theorem C49_history (parent : Bytes → Py Unit) (hp : ∀ m, parent m = .ok ()) (alive : Nat → Bool) (es : List Ev)
    (he : ∀ m now, .recv m now ∈ es → Whole m) (st st' : Ctl) (hr : evRun parent alive st es = .ok st') :
    userSent st'.wire = userSent st.wire ++ (es.map evOut).flatten := by
  induction es generalizing st with
  | nil => simp only [evRun, ok_inj] at hr; subst hr; simp
  | cons e es ih =>
    simp only [evRun, bind_ok] at hr
    obtain ⟨_, h1, h2⟩ := hr
    rw [ih (fun m now h => he m now (by simp [h])) _ h2]
    rw [List.map_cons, List.flatten_cons, ← List.append_assoc]
    congr 1
    cases e with
    | recv m now =>
      obtain ⟨ins, g1, g2, _⟩ := C49_one parent alive now true true st m (he m now (by simp)) (hp m) h1
      simp only [evStep, evOut]
      rw [g1, userSent_append, userSent_append]
      have hi : userSent ins = [] := by
        rcases g2 with rfl | ⟨b, rfl, _⟩ <;> rfl
      have hu : ∀ l : List Bytes, userSent (l.map (.user · none)) = l := by
        intro l; induction l with
        | nil => rfl
        | cons a l ih => simp [userSent, ih]
      rw [hi, hu, List.append_nil]
    | send m cb now =>
      simp only [evStep, evOut] at h1 ⊢
      have hc := ctlSend_cases alive now true true st m cb
      generalize ctlSend alive now true true st m cb = res at hc h1
      cases hc with
      | short e h => cases h1
      | packFail => cases h1
      | insertFail => rename_i h; cases h
      | _ => simp [ctlWrite, userSent_append, userSent]

/-- A PACKET_IN of version 4 with buffer id 7, while a request with a live callback is pending, meets the hypotheses: a
barrier and the PACKET_OUT are written. -/
example : ∃ st, evRun (fun _ => .ok ()) (fun _ => true) ⟨some 4, [.chunk (some 1)], [], none⟩
    [.recv [4, 10, 0, 14, 0, 0, 0, 9, 0, 0, 0, 7, 0, 0] ⟨0, 0, 0, 0⟩] = .ok st ∧
    st.wire = [.inserted [4, 20, 0, 8, 0, 0, 0, 0],
      .user [4, 13, 0, 24, 0, 0, 0, 9, 0, 0, 0, 7, 255, 255, 255, 253, 0, 0, 0, 0, 0, 0, 0, 0] none] := by
  refine ⟨_, rfl, ?_⟩
  decide

/-! ## C59 -/

theorem ruleHandle_eq (results : List Bytes) (m : Bytes) (hm : 8 ≤ m.length) :
    ruleHandle results m = .ok (barrierReplies [m], results ++ flowMods [m]) := by
  have h0 := lt_u8 m 0
  have h4 := lt_u32 m 4
  have hp : ∀ t < 256, pack hdrFmt [.int (u8 m 0), .int t, .int 8, .int (u32 m 4)] = .ok (ofHeader (u8 m 0) t 8 (u32 m 4)) := by
    intro t ht
    rw [ofHeader_enc]
    exact pack_eq_ok.2 ⟨by simp [fits, hdrFmt, h0, ht]; omega, rfl⟩
  unfold ruleHandle barrierReplies flowMods
  rw [parseHeader_fields m hm, ok_bind]
  simp only
  by_cases h1 : u8 m 0 = 1 ∧ u8 m 1 = 18
  · rw [if_pos h1, hp 19 (by decide), ok_bind]
    simp [h1.1, h1.2]
  · rw [if_neg h1]
    by_cases h2 : u8 m 0 ≠ 1 ∧ u8 m 1 = 20
    · rw [if_pos h2, hp 21 (by decide), ok_bind]
      simp [h2.1, h2.2]
    · rw [if_neg h2]
      by_cases h3 : u8 m 1 = 14
      · rw [if_pos h3]; simp [h3]
      · rw [if_neg h3]
        have : ¬ ((u8 m 0 = 1 ∧ u8 m 1 = 18) ∨ (u8 m 0 ≠ 1 ∧ u8 m 1 = 20)) := by tauto
        simp [h3]; tauto

/-- C59. Whatever ovs-ofctl sends to the server of `rule2ofp`, every barrier request is answered by one barrier reply with its
version and transaction id, in order, nothing else is sent, and the results are exactly the FLOW_MOD messages, unchanged and
in order. -/
theorem C59_collects (ms : List Bytes) (hms : ∀ m ∈ ms, 8 ≤ m.length) (results : List Bytes) :
    ruleRun results ms = .ok (barrierReplies ms, results ++ flowMods ms) := by
  induction ms generalizing results with
  | nil => simp [ruleRun, barrierReplies, flowMods]
  | cons m ms ih =>
    rw [ruleRun, ruleHandle_eq results m (hms m (by simp)), ok_bind]
    simp only
    rw [ih (fun n hn => hms n (by simp [hn])), ok_bind]
    have e1 : barrierReplies (m :: ms) = barrierReplies [m] ++ barrierReplies ms := by
      unfold barrierReplies
      rw [← List.map_append, ← List.filter_append]; rfl
    have e2 : flowMods (m :: ms) = flowMods [m] ++ flowMods ms := by
      unfold flowMods
      rw [← List.filter_append]; rfl
    rw [e1, e2, List.append_assoc]

/-- A session of version 4: hello, flow modification, barrier. -/
example : ruleRun [] [[4, 0, 0, 8, 0, 0, 0, 1], [4, 14, 0, 9, 0, 0, 0, 2, 5], [4, 20, 0, 8, 0, 0, 0, 3]] =
    .ok ([[4, 21, 0, 8, 0, 0, 0, 3]], [[4, 14, 0, 9, 0, 0, 0, 2, 5]]) := by decide

/-! ## C48 -/

/-- An option that the table knows. -/
def Known (name : Str) (i : Info) : Prop := known.lookup name = some i

theorem makeOptions_ok (conv : ArgTy → V → Py Str) (o : List (Str × Option V)) (as : List Str) :
    makeOptions conv o = .ok as ↔ ∃ parts, o.mapM (fun x => optArgs conv x.1 x.2) = .ok parts ∧ as = parts.flatten := by
  induction o generalizing as with
  | nil =>
    simp only [makeOptions, ok_inj, List.mapM_nil]
    constructor
    · rintro rfl; exact ⟨[], rfl, rfl⟩
    · rintro ⟨_, h, rfl⟩
      cases h; rfl
  | cons x o ih =>
    obtain ⟨name, v⟩ := x
    simp only [makeOptions, bind_ok, ok_inj, List.mapM_cons]
    constructor
    · rintro ⟨a, h1, as', h2, rfl⟩
      obtain ⟨parts, h3, rfl⟩ := (ih as').1 h2
      exact ⟨a :: parts, ⟨a, h1, parts, h3, rfl⟩, rfl⟩
    · rintro ⟨parts, ⟨a, h1, ps, h3, h4⟩, rfl⟩
      have : parts = a :: ps := by cases h4; rfl
      subst this
      exact ⟨a, h1, ps.flatten, (ih _).2 ⟨ps, h3, rfl⟩, rfl⟩

/-- The documented form of an option on the command line: its name with hyphens for underscores, after one hyphen if it is
a single letter and two otherwise; a long option has its argument behind an equal sign, a short one as the next
argument. -/
def Shape (name : Str) (arg : Option Str) : List Str :=
  let n := name.map fun c => if c = '_' then '-' else c
  match n, arg with
  | [c], none => [['-', c]]
  | [c], some a => [['-', c], a]
  | n, none => ['-' :: '-' :: n]
  | n, some a => ['-' :: '-' :: n ++ '=' :: a]

/-- All rows of the table: one letter names have one hyphen and no equal sign, others two and an equal sign if they take
an argument; no name has an equal sign in it, no name is empty. -/
theorem rows : ∀ r ∈ known, (r.2.detail = decide (1 < r.1.length)) ∧ (r.2.arg.isSome → r.2.join = r.2.detail) ∧ '=' ∉ r.1 ∧
    r.1 ≠ [] := by decide +kernel

theorem lookup_mem {name : Str} {i : Info} (h : known.lookup name = some i) : (name, i) ∈ known := by
  have : ∀ l : List (Str × Info), l.lookup name = some i → (name, i) ∈ l := by
    intro l
    induction l with
    | nil => intro h; cases h
    | cons r l ih =>
      obtain ⟨n, j⟩ := r
      intro h
      rw [List.lookup_cons] at h
      split at h
      · rename_i he
        injection h with h
        subst h
        rw [eq_of_beq he]; simp
      · exact List.mem_cons_of_mem _ (ih h)
  exact this _ h

/-- The option table agrees with the documented form. -/
theorem flag_shape {name : Str} {i : Info} (h : known.lookup name = some i) :
    Shape name none = [flag name i] ∧
    (i.arg.isSome → ∀ a, Shape name (some a) = if i.join then [flag name i ++ '=' :: a] else [flag name i, a]) := by
  obtain ⟨h1, h2, _, h4⟩ := rows _ (lookup_mem h)
  simp only at h1 h2 h4
  match name, h4 with
  | [c], _ =>
    have hd : i.detail = false := by rw [h1]; rfl
    refine ⟨by simp [Shape, flag, dashes, hd], fun ha a => ?_⟩
    have hj : i.join = false := by rw [h2 ha, hd]
    simp [Shape, flag, dashes, hd, hj]
  | c :: d :: rest, _ =>
    have hd : i.detail = true := by rw [h1]; simp
    refine ⟨by simp [Shape, flag, dashes, hd], fun ha a => ?_⟩
    have hj : i.join = true := by rw [h2 ha, hd]
    simp [Shape, flag, dashes, hd, hj]

/-- The argument of an option as it appears on the command line: flags have none. -/
def argOf (conv : ArgTy → V → Py Str) (name : Str) (v : Option V) : Py (Option Str) :=
  match known.lookup name with
  | some ⟨_, some ty, _⟩ =>
    match v with
    | some v => do .ok (some (← conv ty v))
    | none => .ok none
  | _ => .ok none

/-- C48. The command line consists of the options in order, each in its documented form with its own argument; with an
option unknown to ovs-ofctl there is none.  (An empty argument of a long option comes as a separate argument.) -/
theorem C48_rendering (conv : ArgTy → V → Py Str) (o : List (Str × Option V)) (as : List Str) (h : makeOptions conv o = .ok as) :
    ∃ parts, as = parts.flatten ∧ List.Forall₂ (fun x part => x.1 ∈ known.map Prod.fst ∧ ∃ a, argOf conv x.1 x.2 = .ok a ∧
      (a ≠ some [] → part = Shape x.1 a) ∧ (a = some [] → part = Shape x.1 none ++ [[]])) o parts := by
  obtain ⟨parts, hp, rfl⟩ := (makeOptions_ok conv o as).1 h
  refine ⟨parts, rfl, ?_⟩
  clear h
  induction o generalizing parts with
  | nil => cases hp; exact .nil
  | cons x o ih =>
    rw [List.mapM_cons] at hp
    simp only [bind_ok] at hp
    obtain ⟨a, h1, ps, h2, h3⟩ := hp
    have : parts = a :: ps := by cases h3; rfl
    subst this
    refine .cons ?_ (ih ps h2)
    unfold optArgs at h1
    split at h1
    · cases h1
    · rename_i i hl
      obtain ⟨s1, s2⟩ := flag_shape hl
      refine ⟨List.mem_map_of_mem (lookup_mem hl), ?_⟩
      unfold argOf
      rw [hl]
      obtain ⟨d, arg, j⟩ := i
      cases arg with
      | none =>
        simp only [ok_inj] at h1
        exact ⟨none, rfl, fun _ => by rw [← h1, s1], fun h => by cases h⟩
      | some ty =>
        cases hx : x.2 with
        | none =>
          rw [hx] at h1
          simp only [ok_inj] at h1
          exact ⟨none, rfl, fun _ => by rw [← h1, s1], fun h => by cases h⟩
        | some v =>
          rw [hx] at h1
          simp only [bind_ok] at h1
          obtain ⟨sval, h5, h6⟩ := h1
          refine ⟨some sval, by simp only [h5, ok_bind], fun hne => ?_, fun he => ?_⟩
          · have hne' : sval ≠ [] := fun e => hne (by rw [e])
            rw [s2 rfl sval]
            cases j
            · simp at h6; simp [h6]
            · simp [hne'] at h6; simp [h6]
          · injection he with he
            subst he
            rw [s1]
            simp at h6
            simp [← h6]

/-- C48. An unknown option is rejected, whatever the others are (unless an argument is rejected before). -/
theorem C48_unknown (conv : ArgTy → V → Py Str) (o : List (Str × Option V)) (x : Str × Option V) (hx : x ∈ o)
    (hu : x.1 ∉ known.map Prod.fst) : ∀ as, makeOptions conv o ≠ .ok as := by
  intro as h
  obtain ⟨parts, _, hf⟩ := C48_rendering conv o as h
  have : ∀ (o : List (Str × Option V)) parts, List.Forall₂ (fun x part => x.1 ∈ known.map Prod.fst ∧ ∃ a, argOf conv x.1 x.2 = .ok a ∧
      (a ≠ some [] → part = Shape x.1 a) ∧ (a = some [] → part = Shape x.1 none ++ [[]])) o parts → x ∈ o → False := by
    intro o parts hf
    induction hf with
    | nil => intro h; cases h
    | cons h1 _ ih =>
      intro hm
      rcases List.mem_cons.1 hm with rfl | hm
      · exact hu h1.1
      · exact ih hm
  exact this o parts hf hx

/-- Every option that takes an argument has one, and not the empty one. -/
def Full (conv : ArgTy → V → Py Str) (o : List (Str × Option V)) : Prop :=
  ∀ x ∈ o, ∀ d ty j, known.lookup x.1 = some ⟨d, some ty, j⟩ → ∃ v s, x.2 = some v ∧ conv ty v = .ok s ∧ s ≠ []

/-- Names differ on the command line. -/
theorem names_differ : ∀ r ∈ known, ∀ r' ∈ known, flag r.1 r.2 = flag r'.1 r'.2 → r = r' := by decide +kernel

theorem no_equal : ∀ r ∈ known, '=' ∉ flag r.1 r.2 := by decide +kernel

theorem split_equal {a b c d : Str} (ha : '=' ∉ a) (hc : '=' ∉ c) (h : a ++ '=' :: b = c ++ '=' :: d) : a = c ∧ b = d := by
  induction a generalizing c with
  | nil =>
    cases c with
    | nil => simp at h; exact ⟨rfl, h⟩
    | cons x c =>
      simp at h hc
      exact (hc.1 h.1).elim
  | cons x a ih =>
    cases c with
    | nil =>
      simp at h ha
      exact (ha.1 h.1.symm).elim
    | cons y c =>
      simp at h ha hc
      obtain ⟨e1, e2⟩ := ih ha.2 hc.2 h.2
      exact ⟨by rw [h.1, e1], e2⟩

/-- The first argument belongs to one option only. -/
theorem part_inj {conv : ArgTy → V → Py Str} {x y : Str × Option V} {a b : List Str} {r s : List Str}
    (hx : optArgs conv x.1 x.2 = .ok a) (hy : optArgs conv y.1 y.2 = .ok b) (fx : Full conv [x]) (fy : Full conv [y])
    (h : a ++ r = b ++ s) : x.1 = y.1 ∧ argOf conv x.1 x.2 = argOf conv y.1 y.2 ∧ r = s := by
  obtain ⟨n, v⟩ := x
  obtain ⟨m, w⟩ := y
  simp only at hx hy ⊢
  unfold optArgs at hx hy
  split at hx
  · cases hx
  · rename_i i hi
    split at hy
    · cases hy
    · rename_i k hk
      have mi := lookup_mem hi
      have mk := lookup_mem hk
      have ei := no_equal _ mi
      have ek := no_equal _ mk
      have hd := names_differ _ mi _ mk
      simp only at ei ek hd
      -- the shapes of the two parts
      have key : ∀ {n : Str} {v : Option V} {i : Info} {a : List Str}, known.lookup n = some i → Full conv [(n, v)] →
          (match i.arg, v with
            | some ty, some v => do
              let sval ← conv ty v
              if (i.join && decide (sval ≠ [])) = true then .ok [flag n i ++ '=' :: sval] else .ok [flag n i, sval]
            | _, _ => .ok [flag n i] : Py (List Str)) = .ok a →
          (i.arg = none ∧ a = [flag n i] ∧ argOf conv n v = .ok none) ∨
          (i.arg.isSome ∧ i.join = true ∧ ∃ t, a = [flag n i ++ '=' :: t] ∧ argOf conv n v = .ok (some t)) ∨
          (i.arg.isSome ∧ i.join = false ∧ ∃ t, a = [flag n i, t] ∧ argOf conv n v = .ok (some t)) := by
        intro n v i a hl hf ha
        obtain ⟨d, arg, j⟩ := i
        unfold argOf
        rw [hl]
        cases arg with
        | none => simp only [ok_inj] at ha; left; exact ⟨rfl, ha.symm, rfl⟩
        | some ty =>
          right
          obtain ⟨v', t, h1, h2, h3⟩ := hf (n, v) (by simp) d ty j hl
          simp only at h1
          subst h1
          simp only [h2, ok_bind] at ha ⊢
          cases j
          · right; simp at ha; exact ⟨rfl, rfl, t, ha.symm, rfl⟩
          · left; simp [h3] at ha; exact ⟨rfl, rfl, t, ha.symm, rfl⟩
      rcases key hi fx hx with ⟨a1, rfl, a3⟩ | ⟨a1, a2, t, rfl, a3⟩ | ⟨a1, a2, t, rfl, a3⟩ <;>
      rcases key hk fy hy with ⟨b1, rfl, b3⟩ | ⟨b1, b2, u, rfl, b3⟩ | ⟨b1, b2, u, rfl, b3⟩ <;>
      simp only [List.cons_append, List.nil_append, List.cons.injEq] at h
      · have := hd h.1
        simp only [Prod.mk.injEq] at this
        exact ⟨this.1, by rw [a3, b3], h.2⟩
      · exfalso; rw [h.1] at ei; exact ei (by simp)
      · have := hd h.1
        simp only [Prod.mk.injEq] at this
        rw [this.2] at a1; rw [a1] at b1; cases b1
      · exfalso; rw [← h.1] at ek; exact ek (by simp)
      · obtain ⟨e1, e2⟩ := split_equal ei ek h.1
        have := hd e1
        simp only [Prod.mk.injEq] at this
        exact ⟨this.1, by rw [a3, b3, e2], h.2⟩
      · exfalso; rw [← h.1] at ek; exact ek (by simp)
      · have := hd h.1
        simp only [Prod.mk.injEq] at this
        rw [this.2, b1] at a1; cases a1
      · exfalso; rw [h.1] at ei; exact ei (by simp)
      · have := hd h.1
        simp only [Prod.mk.injEq] at this
        exact ⟨this.1, by rw [a3, b3, h.2.1], h.2.2⟩

theorem mapM_cons_ok {f : α → Py β} {x : α} {l : List α} {ps : List β} (h : (x :: l).mapM f = .ok ps) :
    ∃ p qs, f x = .ok p ∧ l.mapM f = .ok qs ∧ ps = p :: qs := by
  rw [List.mapM_cons] at h
  simp only [bind_ok] at h
  obtain ⟨a, h1, qs, h2, h3⟩ := h
  exact ⟨a, qs, h1, h2, by cases h3; rfl⟩

/-- C48. Nothing is lost: two lists of options with the same command line have the same names, in the same order, with the same
arguments, if no argument is missing or empty.  Missing is: values of options that take none are ignored, and
different values may have the same text, see `C48_flag_value_refuted`. -/
theorem C48_lossless_partial (conv : ArgTy → V → Py Str) (o o' : List (Str × Option V)) (as : List Str)
    (h : makeOptions conv o = .ok as) (h' : makeOptions conv o' = .ok as) (hf : Full conv o) (hf' : Full conv o') :
    o.map (fun x => (x.1, argOf conv x.1 x.2)) = o'.map (fun x => (x.1, argOf conv x.1 x.2)) := by
  obtain ⟨ps, h1, h2⟩ := (makeOptions_ok conv o as).1 h
  obtain ⟨qs, g1, g2⟩ := (makeOptions_ok conv o' as).1 h'
  rw [h2] at g2
  clear h h' h2
  have ne : ∀ {x : Str × Option V} {p : List Str}, optArgs conv x.1 x.2 = .ok p → p ≠ [] := by
    intro x p hp e
    subst e
    unfold optArgs at hp
    split at hp
    · cases hp
    · split at hp
      · simp only [bind_ok] at hp
        obtain ⟨_, _, hp⟩ := hp
        split at hp <;> cases hp
      · cases hp
  induction o generalizing o' ps qs with
  | nil =>
    have : ps = [] := by cases h1; rfl
    subst this
    cases o' with
    | nil => rfl
    | cons y o' =>
      obtain ⟨q, qs', e1, e2, rfl⟩ := mapM_cons_ok g1
      exfalso
      apply ne e1
      have := g2
      simp at this
      exact this.1
  | cons x o ih =>
    obtain ⟨p, ps', d1, d2, rfl⟩ := mapM_cons_ok h1
    cases o' with
    | nil =>
      have : qs = [] := by cases g1; rfl
      subst this
      exfalso
      apply ne d1
      simp at g2
      exact g2.1
    | cons y o' =>
      obtain ⟨q, qs', e1, e2, rfl⟩ := mapM_cons_ok g1
      rw [List.flatten_cons, List.flatten_cons] at g2
      obtain ⟨k1, k2, k3⟩ := part_inj d1 e1 (fun z hz => hf z (by simp at hz; simp [hz]))
        (fun z hz => hf' z (by simp at hz; simp [hz])) g2
      rw [List.map_cons, List.map_cons, k1, ← k1, k2, k1]
      congr 1
      exact ih o' (fun z hz => hf z (by simp [hz])) (fun z hz => hf' z (by simp [hz])) ps' d2 qs' e2 k3

/-- Options that meet the hypotheses of `C48_lossless_partial`, with texts as values. -/
example : makeOptions (V := Str) (fun _ s => .ok s) [("O".toList, some "OpenFlow13".toList), ("strict".toList, none),
    ("flow_format".toList, some "any".toList)] =
    .ok ["-O".toList, "OpenFlow13".toList, "--strict".toList, "--flow-format=any".toList] := by decide +kernel

/-- C48 does not hold of options without argument: their value is ignored, so that `strict=False` is the same as
`strict=True`, and of missing arguments: `{F: None, m: None}` reads like `{F: "-m"}`. -/
theorem C48_flag_value_refuted :
    (∀ (V : Type) (conv : ArgTy → V → Py Str) (v w : Option V),
      makeOptions conv [("strict".toList, v)] = makeOptions conv [("strict".toList, w)]) ∧
    makeOptions (V := Str) (fun _ s => .ok s) [("F".toList, none), ("m".toList, none)] =
      makeOptions (fun _ s => .ok s) [("F".toList, some "-m".toList)] := by
  refine ⟨fun V conv v w => ?_, by decide +kernel⟩
  have : known.lookup "strict".toList = some ⟨true, none, false⟩ := by decide +kernel
  simp only [makeOptions, optArgs, this]

/-! ## C58 -/

/-- The names of the protocol versions for ovs-ofctl, by version number on the wire. -/
def protocols : List Str := ["OpenFlow10".toList, "OpenFlow11".toList, "OpenFlow12".toList, "OpenFlow13".toList, "OpenFlow14".toList]

/-- C58. On a channel of version 2, 3 or 4 (OpenFlow 1.1 to 1.3) ovs-ofctl is run with the option `-O` for this version, unless
the caller chose the version; the temporary server is stopped afterwards.  Missing: version 5. -/
theorem C58_protocol_partial (conv : ArgTy → V → Py Str) (text : Str → V) (hconv : ∀ s, conv .str (text s) = .ok s)
    (version : Nat) (hv : version ∈ [2, 3, 4]) (addr action : Str) (args : List Str) (options : List (Str × Option V))
    (ho : ∀ x ∈ options, x.1 ≠ "O".toList ∧ x.1 ≠ "protocols".toList) (os : List Str) (hos : makeOptions conv options = .ok os) :
    ∃ p, protocols[version - 1]? = some p ∧ ofctl conv text (some version) addr action args options =
      ([.start, .run (["ovs-ofctl".toList] ++ os ++ ["-O".toList, p] ++ [action, addr] ++ args), .halt], .ok ()) := by
  have hany : options.any (fun o => o.1 = "O".toList || o.1 = "protocols".toList) = false := by
    rw [List.any_eq_false]
    intro x hx
    obtain ⟨h1, h2⟩ := ho x hx
    simp only [h1, h2, decide_false, Bool.or_false, Bool.false_eq_true, not_false_eq_true]
  have happ : ∀ p, makeOptions conv (options ++ [("O".toList, some (text p))]) = .ok (os ++ ["-O".toList, p]) := by
    intro p
    have hk : known.lookup "O".toList = some ⟨false, some .str, false⟩ := by decide +kernel
    have h1 : optArgs conv "O".toList (some (text p)) = .ok ["-O".toList, p] := by
      simp only [optArgs, hk, hconv, ok_bind]; rfl
    clear hany ho
    induction options generalizing os with
    | nil =>
      simp only [makeOptions, ok_inj] at hos
      subst hos
      simp only [List.nil_append, makeOptions, h1, ok_bind, List.append_nil]
    | cons x options ih =>
      obtain ⟨n, v⟩ := x
      simp only [List.cons_append, makeOptions, bind_ok, ok_inj] at hos ⊢
      obtain ⟨a, h2, as, h3, rfl⟩ := hos
      exact ⟨a, h2, as ++ ["-O".toList, p], ih as h3, by simp⟩
  have hne : (some version : Option Nat) ≠ some 1 := by
    intro e; injection e with e; subst e; simp at hv
  have fin : ∀ p, protoName (some version) = .ok p → ofctl conv text (some version) addr action args options =
      ([.start, .run (["ovs-ofctl".toList] ++ os ++ ["-O".toList, p] ++ [action, addr] ++ args), .halt], .ok ()) := by
    intro p hp
    have : ofctlCmd conv text (some version) addr action args options =
        .ok (["ovs-ofctl".toList] ++ os ++ ["-O".toList, p] ++ [action, addr] ++ args) := by
      unfold ofctlCmd withProto
      rw [if_pos hne, hany]
      simp only [Bool.false_eq_true, if_false, hp, ok_bind, happ]
      simp only [List.append_assoc]
    unfold ofctl
    rw [this]
  simp at hv
  rcases hv with rfl | rfl | rfl
  · exact ⟨_, rfl, fin _ rfl⟩
  · exact ⟨_, rfl, fin _ rfl⟩
  · exact ⟨_, rfl, fin _ rfl⟩

/-- C58 does not hold of version 5 (OpenFlow 1.4), though the package has a codec for it and a channel may negotiate it: the
tuple of names is too short, `ofctl` raises IndexError without running anything, but for a temporary server started and
stopped. -/
theorem C58_version5_refuted (conv : ArgTy → V → Py Str) (text : Str → V) (addr action : Str) (args : List Str)
    (options : List (Str × Option V)) (ho : ∀ x ∈ options, x.1 ≠ "O".toList ∧ x.1 ≠ "protocols".toList) :
    ofctl conv text (some 5) addr action args options = ([.start, .halt], .error .indexError) := by
  have hany : options.any (fun o => o.1 = "O".toList || o.1 = "protocols".toList) = false := by
    rw [List.any_eq_false]
    intro x hx
    obtain ⟨h1, h2⟩ := ho x hx
    simp only [h1, h2, decide_false, Bool.or_false, Bool.false_eq_true, not_false_eq_true]
  have : ofctlCmd conv text (some 5) addr action args options = .error .indexError := by
    unfold ofctlCmd withProto
    rw [if_pos (by decide), hany]
    rfl
  unfold ofctl
  rw [this]

/-- C58. The temporary server is always stopped. -/
theorem C58_halts (conv : ArgTy → V → Py Str) (text : Str → V) (version : Option Nat) (addr action : Str) (args : List Str)
    (options : List (Str × Option V)) : (ofctl conv text version addr action args options).1.head? = some .start ∧
      (ofctl conv text version addr action args options).1.getLast? = some .halt := by
  unfold ofctl
  split <;> exact ⟨rfl, rfl⟩

end Twink.Ovs
