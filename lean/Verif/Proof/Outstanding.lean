import Verif.Props.Controller

/-! # The entries of a controller channel and the outstanding requests -/

namespace Twink.Outstanding
open Spec

/-- The entry (or none) for requests without a barrier request between them. -/
def Seg (G : List Elem) (F : List Req) : Prop :=
  (∀ q ∈ F, ¬ IsBarrierReq q.bytes) ∧
  ((G = [] ∧ ∀ q ∈ F, q.cb = none ∧ q.busy = false) ∨
   ∃ c, G = [.chunk c] ∧ (∀ k, c = some k ↔ ∃ q ∈ F, q.cb = some k) ∧ ∃ q ∈ F, q.cb ≠ none ∨ q.busy = true)

/-- The entries for all outstanding requests. -/
inductive Rel : List Elem → List Req → Prop
  | last {G F} : Seg G F → Rel G F
  | seg {G F s out} (b : Req) : Seg G F → IsBarrierReq b.bytes → Rel s out →
      Rel (G ++ .barrier (u32 b.bytes 4) b.cb :: s) (F ++ b :: out)

theorem seg_nil : Seg [] [] := ⟨by simp, .inl ⟨rfl, by simp⟩⟩

theorem add_bar {s : List Elem} {out : List Req} (h : Rel s out) (b : Req) (hb : IsBarrierReq b.bytes) :
    Rel (s ++ [.barrier (u32 b.bytes 4) b.cb]) (out ++ [b]) := by
  induction h with
  | last h => exact .seg b h hb (.last seg_nil)
  | seg b' h hb' _ ih => rw [List.append_assoc, List.append_assoc]; exact .seg b' h hb' ih

theorem seg_last {G : List Elem} {F : List Req} {x : Nat} {k : Option Nat} (h : Seg G F) (hl : G.getLast? = some (.barrier x k)) : False := by
  rcases h.2 with ⟨rfl, _⟩ | ⟨c, rfl, _⟩ <;> simp at hl

theorem last_of {G : List Elem} {e : Elem} {s : List Elem} (h : s ≠ []) : (G ++ e :: s).getLast? = s.getLast? := by
  rw [List.getLast?_append, List.getLast?_cons, List.getLast?_eq_some_getLast h]
  simp

theorem add_same {s : List Elem} {out : List Req} (h : Rel s out) (q : Req) (hq : ¬ IsBarrierReq q.bytes) {c : Option Nat}
    (hl : s.getLast? = some (.chunk c)) (hc : ∀ k, q.cb = some k → c = some k) : Rel s (out ++ [q]) := by
  induction h with
  | @last G F h =>
    refine .last ⟨?_, ?_⟩
    · intro r hr
      rcases List.mem_append.1 hr with hr | hr
      · exact h.1 r hr
      · simp only [List.mem_singleton] at hr; subst hr; exact hq
    · rcases h.2 with ⟨rfl, _⟩ | ⟨c', rfl, h2, r, hr, h3⟩
      · simp at hl
      · simp at hl
        subst hl
        refine .inr ⟨_, rfl, fun k => ?_, r, by simp [hr], h3⟩
        rw [h2 k]
        constructor
        · rintro ⟨r, hr, e⟩; exact ⟨r, by simp [hr], e⟩
        · rintro ⟨r, hr, e⟩
          rcases List.mem_append.1 hr with hr | hr
          · exact ⟨r, hr, e⟩
          · simp only [List.mem_singleton] at hr; subst hr; exact (h2 k).1 (hc k e)
  | @seg G F s out b h hb hr ih =>
    rw [List.append_assoc]
    have hs : s ≠ [] := by rintro rfl; simp at hl
    rw [last_of hs] at hl
    exact .seg b h hb (ih hl)

theorem add_chunk {s : List Elem} {out : List Req} (h : Rel s out) (q : Req) (hq : ¬ IsBarrierReq q.bytes)
    (hl : ∀ c, s.getLast? ≠ some (.chunk c)) (hc : q.cb ≠ none ∨ q.busy = true) : Rel (s ++ [.chunk q.cb]) (out ++ [q]) := by
  induction h with
  | @last G F h =>
    refine .last ⟨?_, ?_⟩
    · intro r hr
      rcases List.mem_append.1 hr with hr | hr
      · exact h.1 r hr
      · simp only [List.mem_singleton] at hr; subst hr; exact hq
    · rcases h.2 with ⟨rfl, h2⟩ | ⟨c', rfl, _⟩
      · refine .inr ⟨q.cb, rfl, fun k => ?_, q, by simp, hc⟩
        constructor
        · intro e; exact ⟨q, by simp, e⟩
        · rintro ⟨r, hr, e⟩
          rcases List.mem_append.1 hr with hr | hr
          · rw [(h2 r hr).1] at e; cases e
          · simp only [List.mem_singleton] at hr; subst hr; exact e
      · exact absurd rfl (hl c')
  | @seg G F s out b h hb hr ih =>
    rw [List.append_assoc, List.append_assoc, List.cons_append, List.cons_append]
    refine .seg b h hb (ih fun c hc' => hl c ?_)
    rw [last_of (by rintro rfl; simp at hc')]; exact hc'

theorem add_idle {out : List Req} (h : Rel [] out) (q : Req) (hq : ¬ IsBarrierReq q.bytes) (hc : q.cb = none) (hb : q.busy = false) :
    Rel [] (out ++ [q]) := by
  generalize hs : ([] : List Elem) = s at h
  cases h with
  | last h =>
    subst hs
    refine .last ⟨?_, .inl ⟨rfl, ?_⟩⟩
    · intro r hr
      rcases List.mem_append.1 hr with hr | hr
      · exact h.1 r hr
      · simp only [List.mem_singleton] at hr; subst hr; exact hq
    · rcases h.2 with ⟨_, h2⟩ | ⟨c', e, _⟩
      · intro r hr
        rcases List.mem_append.1 hr with hr | hr
        · exact h2 r hr
        · simp only [List.mem_singleton] at hr; subst hr; exact ⟨hc, hb⟩
      · cases e
  | seg => simp at hs

theorem front_of {F : List Req} {b : Req} {out : List Req} (hF : ∀ q ∈ F, ¬ IsBarrierReq q.bytes) (hb : IsBarrierReq b.bytes) :
    (F ++ b :: out).takeWhile (fun q => decide (¬ IsBarrierReq q.bytes)) = F ∧
    (F ++ b :: out).dropWhile (fun q => decide (¬ IsBarrierReq q.bytes)) = b :: out := by
  have : ∀ q ∈ F, decide (¬ IsBarrierReq q.bytes) = true := fun q hq => by simpa using hF q hq
  rw [List.takeWhile_append_of_pos this, List.dropWhile_append_of_pos this]
  simp [hb]

theorem front_all {F : List Req} (hF : ∀ q ∈ F, ¬ IsBarrierReq q.bytes) :
    F.takeWhile (fun q => decide (¬ IsBarrierReq q.bytes)) = F ∧ F.dropWhile (fun q => decide (¬ IsBarrierReq q.bytes)) = [] := by
  have : ∀ q ∈ F, decide (¬ IsBarrierReq q.bytes) = true := fun q hq => by simpa using hF q hq
  have e1 := List.takeWhile_append_of_pos (l₂ := []) this
  have e2 := List.dropWhile_append_of_pos (l₂ := []) this
  simpa using And.intro e1 e2

/-- What becomes of a message: the result and the entries left, by the outstanding requests. -/
theorem handle_rel {alive : Nat → Bool} {c : Ctl} {out : List Req} (h : Rel c.seq out) (a : Bool) (m : Bytes) (hm : 8 ≤ m.length) :
    Rel (ctlHandle a alive c m).1.seq (complete m out) ∧
    (¬ (a = true ∧ IsAsyncMsg m) →
      (¬ IsBarrierRep m → ∃ k, (ctlHandle a alive c m).2 = cbOr alive k .default ∧
        ∀ j, k = some j ↔ ∃ q ∈ out.takeWhile (fun q => decide (¬ IsBarrierReq q.bytes)), q.cb = some j) ∧
      (IsBarrierRep m → (ctlHandle a alive c m).2 =
        match out.dropWhile (fun q => decide (¬ IsBarrierReq q.bytes)) with
        | b :: _ => if u32 m 4 = u32 b.bytes 4 then cbOr alive b.cb .swallowed else .missingBarrier
        | [] => if ∃ q ∈ out, q.cb ≠ none ∨ q.busy = true then .unknownBarrier else .default)) := by
  by_cases hasync : a = true ∧ IsAsyncMsg m
  · have hb : ¬ IsBarrierRep m := fun hb => barrierRep_not_async hb hasync.2
    refine ⟨?_, fun h => absurd hasync h⟩
    rw [ctlHandle_def _ _ _ _ hm, if_pos hasync]
    have : complete m out = out := by
      unfold complete
      split
      · rw [if_neg (fun h => hb h.2.1)]
      · rfl
    rw [this]; exact h
  refine (?_ : _ ∧ _ → _) ?_
  · exact fun h => ⟨h.1, fun _ => h.2⟩
  rw [ctlHandle_def _ _ _ _ hm, if_neg hasync]
  obtain ⟨v, s, w, d⟩ := c
  simp only at h ⊢
  generalize hs : s = s' at h
  have hr := h
  cases h with
  | last h =>
    obtain ⟨f1, f2⟩ := front_all h.1
    have e1 : complete m out = out := by unfold complete; simp only [f2]
    rw [f1, f2, e1]
    rcases h.2 with ⟨rfl, h2⟩ | ⟨c, rfl, h2, r, hrm, h3⟩
    · subst hs
      refine ⟨hr, fun _ => ⟨none, rfl, fun j => ?_⟩, fun _ => ?_⟩
      · refine ⟨fun e => by simp at e, ?_⟩
        rintro ⟨q, hq, e⟩; rw [(h2 q hq).1] at e; cases e
      · simp only
        rw [if_neg]
        rintro ⟨q, hq, e⟩
        rw [(h2 q hq).1, (h2 q hq).2] at e; simp at e
    · subst hs
      by_cases hb : IsBarrierRep m
      · simp only [hb, if_true, scan]
        refine ⟨hr, by simp, fun _ => ?_⟩
        rw [if_pos ⟨r, hrm, h3⟩]
      · simp only [hb, if_false]
        exact ⟨hr, fun _ => ⟨c, rfl, h2⟩, by simp⟩
  | @seg G F s2 out2 b h hb hr2 =>
    obtain ⟨f1, f2⟩ := front_of (out := out2) h.1 hb
    have e1 : complete m (F ++ b :: out2) = if 8 ≤ m.length ∧ IsBarrierRep m ∧ u32 m 4 = u32 b.bytes 4 then out2 else F ++ b :: out2 := by
      unfold complete; simp only [f2]
    rw [f1, f2, e1]
    by_cases hbr : IsBarrierRep m
    · rcases h.2 with ⟨rfl, h2⟩ | ⟨c, rfl, h2, r, hrm, h3⟩ <;> subst hs <;>
        simp only [List.nil_append, List.cons_append, hbr, if_true, scan] <;>
        by_cases hx : u32 m 4 = u32 b.bytes 4 <;> simp only [hx, hm, if_true, true_and, if_false]
      · exact ⟨hr2, by simp, fun _ => trivial⟩
      · have hx' : ¬ u32 b.bytes 4 = u32 m 4 := fun e => hx e.symm
        simp only [hx', if_false]
        exact ⟨hr, by simp, fun _ => trivial⟩
      · exact ⟨hr2, by simp, fun _ => trivial⟩
      · have hx' : ¬ u32 b.bytes 4 = u32 m 4 := fun e => hx e.symm
        simp only [hx', if_false]
        exact ⟨hr, by simp, fun _ => trivial⟩
    · rw [if_neg (fun h => hbr h.2.1)]
      rcases h.2 with ⟨rfl, h2⟩ | ⟨c, rfl, h2, r, hrm, h3⟩ <;> subst hs <;>
        simp only [List.nil_append, List.cons_append, hbr, if_false]
      · refine ⟨hr, fun _ => ⟨none, rfl, fun j => ?_⟩, by simp⟩
        refine ⟨fun e => by simp at e, ?_⟩
        rintro ⟨q, hq, e⟩; rw [(h2 q hq).1] at e; cases e
      · exact ⟨hr, fun _ => ⟨c, rfl, h2⟩, by simp⟩

theorem send_rel {alive : Nat → Bool} {st : Ctl} {out : List Req} (h : Rel st.seq out) (now : Clock) (m : Bytes) (cb : Option Nat) :
    Rel (ctlSend alive now true true st m cb).1.seq
      (out ++ newReqs (st.seq ≠ []) ((ctlSend alive now true true st m cb).1.wire.drop st.wire.length)) := by
  have hc := ctlSend_cases alive now true true st m cb
  generalize ctlSend alive now true true st m cb = r at hc
  have hU : ∀ (ws : List Wire) (w : List Wire), (ws ++ w).drop ws.length = w := fun ws w => by simp
  have busy : ∀ e, st.seq.getLast? = some e → decide (st.seq ≠ []) = true := by
    intro e he; simp only [decide_eq_true_eq]; rintro h0; rw [h0] at he; simp at he
  cases hc with
  | short e _ => simpa [newReqs] using h
  | packFail e _ _ _ _ _ => simpa [newReqs] using h
  | barrier hm hb =>
    simp only [ctlWrite, if_true, hU, newReqs, List.map_cons, List.map_nil]
    exact add_bar h ⟨m, cb, _⟩ hb
  | same c' hm hb hl hlc =>
    simp only [ctlWrite, if_true, hU, newReqs, List.map_cons, List.map_nil]
    refine add_same h ⟨m, cb, _⟩ hb hl fun k hk => ?_
    simp only at hk
    subst hk
    cases c' with
    | none => simp [live] at hlc
    | some k' => simp only [live] at hlc; split at hlc <;> simp_all
  | insertFail _ _ _ _ _ _ _ hw => simp at hw
  | insert c' b hm hb hl hlc hbm _ =>
    obtain ⟨v, _, _, _, _, hx, hbb, _⟩ := barrierMsg_ok hbm
    simp only [ctlWrite, if_true, newReqs, List.append_assoc, hU, List.map_cons, List.map_nil, List.cons_append, List.nil_append]
    have h1 := add_bar h ⟨b, none, true⟩ hbb
    simp only [hx] at h1
    have h2 := add_chunk h1 ⟨m, cb, decide (st.seq ≠ [])⟩ hb (by simp) (.inr (busy _ hl))
    simpa using h2
  | afterBarrier x k hm hb hl =>
    simp only [ctlWrite, if_true, hU, newReqs, List.map_cons, List.map_nil]
    exact add_chunk h ⟨m, cb, _⟩ hb (by simp [hl]) (.inr (busy _ hl))
  | idleNone hm hb hs hcn =>
    subst hcn
    simp only [ctlWrite, if_true, hU, newReqs, List.map_cons, List.map_nil]
    rw [hs] at h ⊢
    exact add_idle h ⟨m, none, _⟩ hb rfl (by simp)
  | idleSome c hm hb hs hcn =>
    subst hcn
    simp only [ctlWrite, if_true, hU, newReqs, List.map_cons, List.map_nil]
    rw [hs] at h ⊢
    have := add_chunk h ⟨m, some c, decide (([] : List Elem) ≠ [])⟩ hb (by simp) (.inl (by simp))
    simpa using this

theorem reach_rel {c : Ctl} {alive : Nat → Bool} {out : List Req} (h : OutReach c alive out) : Rel c.seq out := by
  induction h with
  | init v d alive => exact .last seg_nil
  | send m cb now hcb _ ih => exact send_rel ih now m cb
  | @handle c alive out a m _ ih =>
    by_cases hm : 8 ≤ m.length
    · exact (handle_rel ih a m hm).1
    · have : complete m out = out := by
        unfold complete
        split
        · rw [if_neg (fun h => hm h.1)]
        · rfl
      rw [this]
      simpa [ctlHandle, parseHeader_short m (by omega)] using ih
  | die alive' hle _ ih => exact ih
  | otherXid now _ ih => exact ih

end Twink.Outstanding
