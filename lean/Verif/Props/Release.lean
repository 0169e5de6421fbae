import Verif.Props.Controller

/-! # Property C95: reply callbacks are released when their requests have been answered -/

namespace Twink.Release
open Twink Spec

/-- The bytes of what was written last. -/
def lastBytes : List Wire → Option Bytes
  | ws => ws.getLast?.map fun | .user m _ => m | .inserted b => b

/-! ## Size of the bookkeeping -/

theorem acc_length {alive : Nat → Bool} {s : List Elem} {P : List Pend} (h : Acc alive s P) :
    s.length ≤ 2 * (P.filter fun i => match i with | .bar _ _ => true | .work _ _ => false).length + 1 := by
  induction h with
  | nil P h => simp
  | chunkNil c => simp
  | chunkWork _ _ ih => simpa using ih
  | chunkBar _ ih => simp only [List.length_cons, List.filter_cons, if_true]; omega
  | barWork _ ih => simpa using ih
  | barBar _ ih => simp only [List.length_cons, List.filter_cons, if_true]; omega

/-- **C95, size.** In every history, with every switch: the channel keeps at most two records for each barrier request that is outstanding,
and one more. -/
theorem C95_size {c : Ctl} {alive : Nat → Bool} {out : List Req} (h : OutReach c alive out) :
    c.seq.length ≤ 2 * (out.filter fun q => decide (IsBarrierReq q.bytes)).length + 1 := by
  have := acc_length (outReach_acc h)
  have e : ((out.map itemOf).filter fun i => match i with | .bar _ _ => true | .work _ _ => false).length =
      (out.filter fun q => decide (IsBarrierReq q.bytes)).length := by
    clear h this
    induction out with
    | nil => rfl
    | cons q out ih =>
      by_cases hq : IsBarrierReq q.bytes
      · simp only [List.map_cons, itemOf, if_pos hq, List.filter_cons, if_true, List.length_cons, ih]
        rw [if_pos (decide_eq_true hq)]; rfl
      · simp only [List.map_cons, itemOf, if_neg hq, List.filter_cons]
        rw [if_neg (by decide), if_neg (fun h => hq (of_decide_eq_true h))]; exact ih
  omega

/-! ## At rest -/

/-- **C95, at rest.** With a switch that works in order, once all requests have been processed and all replies handled, at most one record is
left, and no barrier. -/
theorem at_rest {hasAsync : Bool} {s : Sys} (h : SysReach hasAsync s) (h1 : s.toSwitch = []) (h2 : s.toCtl = []) :
    s.ctl.seq = [] ∨ ∃ c, s.ctl.seq = [.chunk c] := by
  obtain ⟨ha, _⟩ := sysReach_inv h
  rw [h1, h2] at ha
  simp only [List.map_nil, List.append_nil] at ha
  generalize s.ctl.seq = q at ha
  cases ha with
  | nil _ _ => exact .inl rfl
  | chunkNil c => exact .inr ⟨c, rfl⟩

theorem scan_suffix (alive : Nat → Bool) (x : Nat) (orig : List Elem) (d : Bool) (s : List Elem) (hs : s <:+ orig) :
    (scan alive x orig d s).1 <:+ orig := by
  induction s generalizing d with
  | nil => cases d <;> exact List.suffix_rfl
  | cons e s ih =>
    have hs' : s <:+ orig := (List.suffix_cons e s).trans hs
    cases e with
    | barrier y cb => cases d <;> simp only [scan] <;> split <;> first | exact hs' | exact List.suffix_rfl
    | chunk c =>
      cases d with
      | true => exact List.suffix_rfl
      | false => exact ih true hs'

theorem handle_suffix (a : Bool) (alive : Nat → Bool) (st : Ctl) (m : Bytes) : (ctlHandle a alive st m).1.seq <:+ st.seq := by
  unfold ctlHandle
  split
  · exact List.suffix_rfl
  · split
    · exact List.suffix_rfl
    · split
      · exact List.suffix_rfl
      · rename_i e rest hs
        split
        · simp only; rw [hs]; exact scan_suffix _ _ _ _ _ List.suffix_rfl
        · split <;> exact List.suffix_rfl

/-- If what was written last is a barrier request, the last record, if any, is that of a barrier. -/
def Tail (c : Ctl) : Prop :=
  ∀ b, lastBytes c.wire = some b → IsBarrierReq b → ∀ k, c.seq.getLast? ≠ some (.chunk k)

theorem tail_suffix {c c' : Ctl} (h : Tail c) (hw : c'.wire = c.wire) (hs : c'.seq <:+ c.seq) : Tail c' := by
  intro b hb hq k hk
  rw [hw] at hb
  refine h b hb hq k ?_
  obtain ⟨t, ht⟩ := hs
  rw [← ht, List.getLast?_append, hk]; rfl

theorem tail_send {c : Ctl} (h : Tail c) (alive : Nat → Bool) (now : Clock) (m : Bytes) (cb : Option Nat) :
    Tail (ctlSend alive now true true c m cb).1 := by
  have hc := ctlSend_cases alive now true true c m cb
  generalize ctlSend alive now true true c m cb = r at hc
  have hno : ∀ (d : Ctl) (ws : List Wire), ¬ IsBarrierReq m → d.wire = ws ++ [.user m cb] → Tail d := by
    intro d ws hn hw b hb hq
    rw [hw] at hb
    simp only [lastBytes, List.getLast?_append, List.getLast?_singleton, Option.some_or, Option.map_some, Option.some.injEq] at hb
    subst hb; exact absurd hq hn
  cases hc with
  | short e _ => exact h
  | packFail e k _ _ _ _ => exact tail_suffix h rfl List.suffix_rfl
  | barrier _ _ =>
    intro b _ _ k hk
    simp [ctlWrite] at hk
  | same k _ hn _ _ => exact hno _ c.wire hn rfl
  | insertFail _ _ _ _ _ _ _ hf => cases hf
  | insert k b _ hn _ _ _ _ => exact hno _ (c.wire ++ [.inserted b]) hn rfl
  | afterBarrier x k _ hn _ => exact hno _ c.wire hn rfl
  | idleNone _ hn _ _ => exact hno _ c.wire hn rfl
  | idleSome k _ hn _ _ => exact hno _ c.wire hn rfl

theorem tail_reach {hasAsync : Bool} {s : Sys} (h : SysReach hasAsync s) : Tail s.ctl := by
  induction h with
  | init v d alive => intro b hb; simp [freshCtl, lastBytes] at hb
  | @step s s' _ hstep ih =>
    cases hstep with
    | send m cb now hlen hcb => exact tail_send ih _ _ _ _
    | work => exact ih
    | barrier => exact ih
    | unsolicited => exact ih
    | deliver p rest hp => exact tail_suffix ih (handle_wire _ _ _ _).1 (handle_suffix _ _ _ _)
    | die => exact ih
    | otherXid now => exact tail_suffix ih rfl List.suffix_rfl

/-- **C95, provable part.** With a switch that works in order: at rest, at most one callback is recorded; if a barrier request was what was
sent last, none is, and everything that arrives thereafter goes to the channel's own handlers. (Missing for the full claim: requests with
a callback that no barrier follows, `C95_stale_refuted`.) -/
theorem C95_partial {hasAsync : Bool} {s : Sys} (h : SysReach hasAsync s) (h1 : s.toSwitch = []) (h2 : s.toCtl = []) :
    (s.ctl.seq = [] ∨ ∃ c, s.ctl.seq = [.chunk c]) ∧
    ∀ b, lastBytes s.ctl.wire = some b → IsBarrierReq b → s.ctl.seq = [] ∧ ∀ m : Bytes, 8 ≤ m.length →
      ctlHandle hasAsync s.alive s.ctl m = (s.ctl, if hasAsync = true ∧ IsAsyncMsg m then .async else .default) := by
  refine ⟨at_rest h h1 h2, fun b hb hq => ?_⟩
  have ht := tail_reach h b hb hq
  have he : s.ctl.seq = [] := by
    rcases at_rest h h1 h2 with e | ⟨c, e⟩
    · exact e
    · exact absurd (by rw [e]; rfl) (ht c)
  refine ⟨he, fun m hm => ?_⟩
  rw [ctlHandle_def _ _ _ _ hm, he]
  split <;> rfl

/-- **C95 is false of the code**: a request with a callback has been answered and the answer handled, nothing is outstanding; what the switch
sends next on its own, here an error message, is still given to the callback of that request. -/
theorem C95_stale_refuted (hasAsync : Bool) : ∃ s : Sys, SysReach hasAsync s ∧ s.toSwitch = [] ∧ s.toCtl = [] ∧
    s.ctl.seq = [.chunk (some 1)] ∧ (ctlHandle hasAsync s.alive s.ctl [4, 1, 0, 12, 0, 0, 0, 0, 0, 1, 0, 0]).2 = .callback 1 := by
  let s0 : Sys := ⟨freshCtl (some 4) none, fun _ => true, [], []⟩
  let s1 := sysSend s0 [4, 7, 0, 8, 0, 0, 0, 2] (some 1) ⟨0, 0, 0, 0⟩
  have h1 : SysReach hasAsync s1 :=
    .step (.init (some 4) none (fun _ => true)) (.send s0 _ (some 1) ⟨0, 0, 0, 0⟩ (by decide) (by intro c _; rfl))
  have h2 := SysReach.step h1 (SysStep.work (hasAsync := hasAsync) s1 ⟨[4, 7, 0, 8, 0, 0, 0, 2], some 1, false⟩ []
    [[4, 8, 0, 8, 0, 0, 0, 2]] rfl (by decide)
    (by intro b hb; simp only [List.mem_singleton] at hb; subst hb; exact ⟨by decide, by decide, fun _ => by decide⟩))
  have h3 := SysReach.step h2 (SysStep.deliver _ _ [] rfl)
  cases hasAsync
  · exact ⟨_, h3, rfl, rfl, by decide, by decide⟩
  · exact ⟨_, h3, rfl, rfl, by decide, by decide⟩

/-- Non-vacuity of `C95_partial`: a request with a callback, then a barrier request, all answered and handled. -/
example : ∃ (s : Sys) (b : Bytes), SysReach false s ∧ s.toSwitch = [] ∧ s.toCtl = [] ∧ lastBytes s.ctl.wire = some b ∧ IsBarrierReq b := by
  let s0 : Sys := ⟨freshCtl (some 4) none, fun _ => true, [], []⟩
  let s1 := sysSend s0 [4, 7, 0, 8, 0, 0, 0, 2] (some 1) ⟨0, 0, 0, 0⟩
  let s2 := sysSend s1 [4, 20, 0, 8, 0, 0, 0, 3] none ⟨0, 0, 0, 0⟩
  have h1 : SysReach false s2 :=
    .step (.step (.init (some 4) none (fun _ => true)) (.send s0 _ (some 1) ⟨0, 0, 0, 0⟩ (by decide) (by intro c _; rfl)))
      (.send s1 _ none ⟨0, 0, 0, 0⟩ (by decide) (by intro c h; cases h))
  have h2 := SysReach.step h1 (SysStep.work s2 ⟨[4, 7, 0, 8, 0, 0, 0, 2], some 1, false⟩ [⟨[4, 20, 0, 8, 0, 0, 0, 3], none, true⟩]
    [[4, 8, 0, 8, 0, 0, 0, 2]] rfl (by decide)
    (by intro b hb; simp only [List.mem_singleton] at hb; subst hb; exact ⟨by decide, by decide, fun _ => by decide⟩))
  have h3 := SysReach.step h2 (SysStep.barrier _ ⟨[4, 20, 0, 8, 0, 0, 0, 3], none, true⟩ [] [4, 21, 0, 8, 0, 0, 0, 3] rfl (by decide)
    (by unfold AnswersBarrier; decide))
  have h4 := SysReach.step h3 (SysStep.deliver _ _ _ rfl)
  have h5 := SysReach.step h4 (SysStep.deliver _ _ [] rfl)
  exact ⟨_, [4, 20, 0, 8, 0, 0, 0, 3], h5, rfl, rfl, rfl, by decide⟩

end Twink.Release
