import Verif.Props.Wrap

/-! # Property C103: exactly when several threads leave a channel with the wrapper it had -/

namespace Twink.Wrap.Threads
open Twink Wrap

/-- The object `id` is not entered. -/
def NotEntered (id : Nat) (es : List Ev) : Prop := ∀ e ∈ es, ∀ w, e ≠ .enter id w

/-- Interleavings after which things are as before: apart from reads, the block that is left last was entered when things were as before. -/
inductive Back : List Ev → Prop
  | nil : Back []
  | read {es : List Ev} : Back es → Back (es ++ [.read])
  | block {pre mid : List Ev} {id : Nat} {w : W} : Back pre → NotEntered id mid → Back (pre ++ .enter id w :: mid ++ [.leave id])

/-- `with` leaves only what it has entered. -/
def Entered (es : List Ev) : Prop := ∀ pre id post, es = pre ++ .leave id :: post → ∃ w, Ev.enter id w ∈ pre

theorem inst_kept (s : St) (id : Nat) (es : List Ev) (h : NotEntered id es) : (run s es).inst id = s.inst id := by
  induction es generalizing s with
  | nil => rfl
  | cons e es ih =>
    rw [run, ih _ (fun x hx => h x (List.mem_cons_of_mem _ hx))]
    have he := h e (List.mem_cons_self ..)
    cases e with
    | enter j w =>
      have : id ≠ j := by rintro rfl; exact he w rfl
      exact enter_inst_ne s w this
    | leave j => rw [step, leave_inst]
    | read => rfl

theorem leave_last (s : St) (pre mid : List Ev) (id : Nat) (w : W) (h : NotEntered id mid) :
    (run s (pre ++ .enter id w :: mid ++ [.leave id])).cur = (run s pre).cur := by
  rw [List.append_assoc, run_append, List.cons_append, run, run_append]
  have := inst_kept (step (run s pre) (.enter id w)) id mid h
  rw [show (step (run s pre) (.enter id w)).inst id = some (run s pre).cur from enter_inst _ id w] at this
  simp only [run, step] at this ⊢
  unfold leave; rw [this]

theorem last_enter {id : Nat} {l : List Ev} (h : ∃ w, Ev.enter id w ∈ l) :
    ∃ pre w mid, l = pre ++ .enter id w :: mid ∧ NotEntered id mid := by
  induction l with
  | nil => obtain ⟨w, hw⟩ := h; cases hw
  | cons x l ih =>
    by_cases hl : ∃ w, Ev.enter id w ∈ l
    · obtain ⟨pre, w, mid, rfl, hm⟩ := ih hl
      exact ⟨x :: pre, w, mid, rfl, hm⟩
    · obtain ⟨w, hw⟩ := h
      rcases List.mem_cons.1 hw with rfl | hw
      · exact ⟨[], w, l, rfl, fun e he w' e' => hl ⟨w', e' ▸ he⟩⟩
      · exact absurd ⟨w, hw⟩ hl

/-- **C103, exactly, for several threads**: whatever threads do with objects that are not the wrapper of the channel at the beginning, the channel ends
with the wrapper it had if and only if each block that determines the end was entered when it had that wrapper: the block left last, with
the events before it in turn. -/
theorem C103_exact (s : St) (es : List Ev) (he : Entered es) (hs : ∀ id w, Ev.enter id w ∈ es → s.cur ≠ .obj id w) :
    (run s es).cur = s.cur ↔ Back es := by
  constructor
  · induction hn : es.length using Nat.strongRecOn generalizing es with
    | _ n ih =>
      intro h
      subst hn
      rcases List.eq_nil_or_concat es with rfl | ⟨es', e, rfl⟩
      · exact .nil
      · rw [List.concat_eq_append] at *
        cases e with
        | read =>
          rw [run_append] at h
          refine .read (ih es'.length (by simp) es' ?_ (fun id w hm => hs id w (List.mem_append_left _ hm)) rfl h)
          intro pre id post e
          exact he pre id (post ++ [.read]) (by rw [e]; simp)
        | enter id w =>
          rw [run_append] at h
          exact absurd h.symm (hs id w (by simp))
        | leave id =>
          obtain ⟨pre, w, mid, e, hm⟩ := last_enter (he es' id [] rfl)
          subst e
          rw [leave_last s pre mid id w hm] at h
          refine .block (ih pre.length (by simp) pre ?_ (fun id w hm => hs id w (by simp [hm])) rfl h) hm
          intro p i post e
          exact he p i (post ++ .enter id w :: mid ++ [.leave id]) (by rw [e]; simp)
  · intro hb
    clear he hs
    induction hb with
    | nil => rfl
    | read _ ih => rw [run_append]; exact ih
    | block _ hm ih => rw [leave_last _ _ _ _ _ hm]; exact ih

/-- The hypotheses of `C103_exact`: two threads whose blocks overlap. They do not leave the channel as it was, but they do if the second one ends first. -/
example : Entered [.enter 0 (.fn 1), .enter 1 (.fn 2), .leave 0, .leave 1] ∧ Back [.enter 0 (.fn 1), .enter 1 (.fn 2), .leave 1, .leave 0] ∧
    ¬ Back [.enter 0 (.fn 1), .enter 1 (.fn 2), .leave 0, .leave 1] := by
  have hent : Entered [.enter 0 (.fn 1), .enter 1 (.fn 2), .leave 0, .leave 1] := by
    intro pre id post e
    match pre, e with
    | [], e => simp at e
    | [_], e => simp at e
    | [_, _], e => simp at e; obtain ⟨rfl, rfl, rfl, _⟩ := e; exact ⟨.fn 1, by simp⟩
    | [_, _, _], e => simp at e; obtain ⟨rfl, rfl, rfl, rfl, _⟩ := e; exact ⟨.fn 2, by simp⟩
    | _ :: _ :: _ :: _ :: _, e => simp at e
  refine ⟨hent, .block (pre := []) (mid := [.enter 1 (.fn 2), .leave 1]) .nil ?_, fun h => ?_⟩
  · intro e he w
    simp at he
    rcases he with rfl | rfl <;> simp
  · have := (C103_exact ⟨.fn 0, fun _ => none⟩ _ hent (by simp)).2 h
    simp [run, step, enter, leave] at this

end Twink.Wrap.Threads
