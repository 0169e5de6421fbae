import Verif.Model.Threadlet

/-! # Property C36: the outcome of a spawned task -/

namespace Twink

/-- What `get` should report for an outcome. -/
def Reports {α : Type} : Outcome α → Got α → Prop
  | .value v, g => g = .ret (some v)
  | .exc e, g => g = .raised e

theorem gets_after {α : Type} (n : Nat) (v : Option α) : Threadlet.gets n ⟨none, v⟩ = List.replicate n (.ret v) := by
  induction n with
  | zero => rfl
  | succ n ih => simp [Threadlet.gets, Threadlet.get, ih, List.replicate_succ]

/-- **C36, values.** If the function returns a value, every one of any number of `get` calls returns it. -/
theorem C36_values_partial {α : Type} (v : α) (n : Nat) (g : Got α)
    (hg : g ∈ Threadlet.gets n (Threadlet.new.finish (.value v))) : Reports (.value v) g := by
  cases n with
  | zero => simp [Threadlet.gets] at hg
  | succ n =>
    have : Threadlet.gets (n + 1) (Threadlet.new.finish (Outcome.value v)) = List.replicate (n + 1) (.ret (some v)) := by
      simp [Threadlet.gets, Threadlet.get, Threadlet.new, Threadlet.finish, gets_after, List.replicate_succ]
    rw [this] at hg
    exact List.eq_of_mem_replicate hg

/-- **C36, first call.** The first `get` reports the outcome, value or exception. -/
theorem C36_first_get_partial {α : Type} (o : Outcome α) : Reports o (Threadlet.new.finish o).get.2 := by
  cases o <;> rfl

/-- **C36, before the end.** `get` reports nothing before the function has ended, and does not spoil a later `get`. -/
theorem C36_not_before_partial {α : Type} (o : Outcome α) :
    (Threadlet.new (α := α)).get.2 = .waiting ∧ Reports o ((Threadlet.new.get.1).finish o).get.2 := by
  cases o <;> exact ⟨rfl, rfl⟩

/-- **C36 is false** for exceptions: every `get` after the first one returns `None` instead of raising. -/
theorem C36_refuted {α : Type} (e : Err) (n : Nat) :
    Threadlet.gets (n + 1) ((Threadlet.new (α := α)).finish (.exc e)) = .raised e :: List.replicate n (.ret none) := by
  simp [Threadlet.gets, Threadlet.get, Threadlet.new, Threadlet.finish, gets_after]

/-- Non-vacuity of C36. -/
example : Threadlet.gets 2 ((Threadlet.new (α := Nat)).finish (.exc .keyError)) = [.raised .keyError, .ret none] ∧
    Threadlet.gets 2 ((Threadlet.new (α := Nat)).finish (.value 7)) = [.ret (some 7), .ret (some 7)] := by decide

end Twink
