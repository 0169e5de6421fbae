import Verif.Props.Release

/-! # Property C95: exactly which callback is left over -/

namespace Twink.Release
open Twink Spec

/-- The last record is a chunk of callback `k` exactly if what was written last is a request, not a barrier, with that callback; for callbacks still held. -/
def Left (c : Ctl) (alive : Nat → Bool) : Prop :=
  ∀ k, alive k = true → (c.seq.getLast? = some (.chunk (some k)) ↔ ∃ m, c.wire.getLast? = some (.user m (some k)) ∧ ¬ IsBarrierReq m)

theorem scan_last (alive : Nat → Bool) (x : Nat) (orig : List Elem) (d : Bool) (s : List Elem) (hs : s <:+ orig) {c : Option Nat}
    (hl : orig.getLast? = some (.chunk c)) : (scan alive x orig d s).1.getLast? = some (.chunk c) := by
  induction s generalizing d with
  | nil => cases d <;> exact hl
  | cons e s ih =>
    have hs' : s <:+ orig := (List.suffix_cons e s).trans hs
    cases e with
    | barrier y cb =>
      have key : s.getLast? = some (.chunk c) := by
        obtain ⟨t, ht⟩ := hs
        rw [← ht, List.getLast?_append, List.getLast?_cons] at hl
        cases hq : s.getLast? with
        | none => rw [hq] at hl; simp at hl
        | some e => rw [hq] at hl; simpa using hl
      cases d <;> simp only [scan] <;> split <;> first | exact key | exact hl
    | chunk k =>
      cases d with
      | true => exact hl
      | false => exact ih true hs'

theorem handle_last (a : Bool) (alive : Nat → Bool) (st : Ctl) (m : Bytes) (c : Option Nat) :
    (ctlHandle a alive st m).1.seq.getLast? = some (.chunk c) ↔ st.seq.getLast? = some (.chunk c) := by
  constructor
  · intro h
    obtain ⟨t, ht⟩ := handle_suffix a alive st m
    rw [← ht, List.getLast?_append, h]; rfl
  · intro h
    unfold ctlHandle
    split
    · exact h
    · split
      · exact h
      · split
        · exact h
        · rename_i e rest hs
          split
          · exact scan_last _ _ _ _ _ List.suffix_rfl (hs ▸ h)
          · split <;> exact h

theorem left_send {c : Ctl} {alive : Nat → Bool} (h : Left c alive) (now : Clock) (m : Bytes) (cb : Option Nat) :
    Left (ctlSend alive now true true c m cb).1 alive := by
  have hc := ctlSend_cases alive now true true c m cb
  generalize ctlSend alive now true true c m cb = r at hc
  have hadd : ∀ (d : Ctl) (ws : List Wire) (es : List Elem), ¬ IsBarrierReq m → d.wire = ws ++ [.user m cb] → d.seq = es ++ [.chunk cb] → Left d alive := by
    intro d ws es hn hw he k _
    rw [hw, he]
    simp only [List.getLast?_append, List.getLast?_singleton, Option.some_or, Option.some.injEq, Elem.chunk.injEq, Wire.user.injEq]
    exact ⟨fun e => ⟨m, ⟨rfl, e⟩, hn⟩, fun ⟨_, ⟨_, e⟩, _⟩ => e⟩
  cases hc with
  | short e _ => exact h
  | packFail e k _ _ _ _ => exact h
  | barrier _ hb =>
    intro k _
    simp only [ctlWrite, if_true, List.getLast?_append, List.getLast?_singleton, Option.some_or, Option.some.injEq, Wire.user.injEq, reduceCtorEq, false_iff]
    rintro ⟨_, ⟨rfl, _⟩, hn⟩
    exact hn hb
  | same k' _ hn hl hv =>
    intro k hk
    simp only [ctlWrite, if_true, hl, List.getLast?_append, List.getLast?_singleton, Option.some_or, Option.some.injEq, Elem.chunk.injEq, Wire.user.injEq]
    constructor
    · rintro rfl
      exact ⟨m, ⟨rfl, by rw [← hv]; simp [live, hk]⟩, hn⟩
    · rintro ⟨_, ⟨_, rfl⟩, _⟩
      cases k' with
      | none => simp [live] at hv
      | some j => simp only [live] at hv; split at hv <;> simp_all
  | insertFail _ _ _ _ _ _ _ hf => cases hf
  | insert k b _ hn _ _ _ _ => exact hadd _ (c.wire ++ [.inserted b]) (c.seq ++ [.barrier (hmsXid c.dedup now) none]) hn rfl (by simp [ctlWrite])
  | afterBarrier x k _ hn _ => exact hadd _ c.wire c.seq hn rfl rfl
  | idleNone _ hn hs hcb =>
    intro k _
    subst hcb
    simp [ctlWrite, hs]
  | idleSome k _ hn hs _ => exact hadd _ c.wire [] hn rfl rfl

theorem left_reach {hasAsync : Bool} {s : Sys} (h : SysReach hasAsync s) : Left s.ctl s.alive := by
  induction h with
  | init v d alive => intro k _; simp [freshCtl]
  | @step s s' _ hstep ih =>
    cases hstep with
    | send m cb now hlen hcb => exact left_send ih _ _ _
    | work => exact ih
    | barrier => exact ih
    | unsolicited => exact ih
    | deliver p rest hp =>
      intro k hk
      rw [handle_last, (handle_wire _ _ _ _).1]
      exact ih k hk
    | die alive' hle => exact fun k hk => ih k (hle k hk)
    | otherXid now => exact ih

/-- **C95, the exact line.** With a switch that works in order, when all requests have been processed and all replies handled: some message is still given to
callback `k` if and only if `k` is still held and what was written last is a request with callback `k` other than a barrier request.  So the claim holds exactly of the histories
that end with a barrier request, with a request without callback, or with the death of the last callback. -/
theorem C95_exact {hasAsync : Bool} {s : Sys} (h : SysReach hasAsync s) (h1 : s.toSwitch = []) (h2 : s.toCtl = []) (k : Nat) :
    (∃ m : Bytes, 8 ≤ m.length ∧ (ctlHandle hasAsync s.alive s.ctl m).2 = .callback k) ↔
      s.alive k = true ∧ ∃ m, s.ctl.wire.getLast? = some (.user m (some k)) ∧ ¬ IsBarrierReq m := by
  have hl := left_reach h
  constructor
  · rintro ⟨m, hm, hk⟩
    rw [ctlHandle_def _ _ _ _ hm] at hk
    rcases at_rest h h1 h2 with e | ⟨c, e⟩
    · rw [e] at hk
      split at hk <;> simp at hk
    · rw [e] at hk
      split at hk
      · simp at hk
      · simp only at hk
        split at hk
        · simp [scan] at hk
        · unfold cbOr at hk
          split at hk
          · rename_i c' hc
            injection hk with hk; subst hk
            cases c with
            | none => simp [live] at hc
            | some j =>
              simp only [live] at hc
              split at hc
              · rename_i hj
                injection hc with hc; subst hc
                exact ⟨hj, (hl j hj).1 (by rw [e]; rfl)⟩
              · simp at hc
          · simp at hk
  · rintro ⟨hk, hm⟩
    have hq := (hl k hk).2 hm
    rcases at_rest h h1 h2 with e | ⟨c, e⟩
    · rw [e] at hq; simp at hq
    · rw [e] at hq
      simp only [List.getLast?_singleton, Option.some.injEq, Elem.chunk.injEq] at hq
      subst hq
      refine ⟨[4, 1, 0, 8, 0, 0, 0, 0], by decide, ?_⟩
      rw [ctlHandle_def _ _ _ _ (by decide), e, if_neg (by simp [IsAsyncMsg, u8]), ]
      simp only
      rw [if_neg (by simp [IsBarrierRep, u8])]
      simp [cbOr, live, hk]

/-- Both sides can hold: the history of `C95_stale_refuted`. -/
example : ∃ s : Sys, SysReach false s ∧ s.toSwitch = [] ∧ s.toCtl = [] ∧ s.alive 1 = true ∧
    s.ctl.wire.getLast? = some (.user [4, 7, 0, 8, 0, 0, 0, 2] (some 1)) ∧ ¬ IsBarrierReq [4, 7, 0, 8, 0, 0, 0, 2] := by
  let s0 : Sys := ⟨freshCtl (some 4) none, fun _ => true, [], []⟩
  let s1 := sysSend s0 [4, 7, 0, 8, 0, 0, 0, 2] (some 1) ⟨0, 0, 0, 0⟩
  have h1 : SysReach false s1 :=
    .step (.init (some 4) none (fun _ => true)) (.send s0 _ (some 1) ⟨0, 0, 0, 0⟩ (by decide) (by intro c _; rfl))
  have h2 := SysReach.step h1 (SysStep.work s1 ⟨[4, 7, 0, 8, 0, 0, 0, 2], some 1, false⟩ [] [] rfl (by decide) (by simp))
  exact ⟨_, h2, rfl, rfl, rfl, rfl, by decide⟩

end Twink.Release
