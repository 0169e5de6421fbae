import Verif.Model.Wrap

/-! # Property C103: a temporary read wrapper is in force within its block, and only there -/

namespace Twink.Wrap
open Twink

/-! ## Specification -/

/-- The function a wrapper stands for: itself, or the one for which the object was made. -/
def fnOf : W → Nat
  | .fn n => n
  | .obj _ (.fn n) => n
  | .obj _ (.obj i w) => fnOf (.obj i w)

/-- The functions that reads should go through, by the place of the read in the program: that of the innermost block around it, or `f`. -/
def lexical (f : Nat) : Prog → List Nat × Bool
  | .done => ([], false)
  | .raise => ([], true)
  | .read k => (f :: (lexical f k).1, (lexical f k).2)
  | .block _ w body k =>
    if (lexical (fnOf w) body).2 then ((lexical (fnOf w) body).1, true)
    else ((lexical (fnOf w) body).1 ++ (lexical f k).1, (lexical f k).2)

/-- No object is used for a block inside one of its own blocks; `outer`: objects of the blocks around. -/
def Proper (outer : List Nat) : Prog → Prop
  | .done => True
  | .raise => True
  | .read k => Proper outer k
  | .block id _ body k => id ∉ outer ∧ Proper (id :: outer) body ∧ Proper outer k

instance properDec : (o : List Nat) → (p : Prog) → Decidable (Proper o p)
  | _, .done => isTrue trivial
  | _, .raise => isTrue trivial
  | o, .read k => properDec o k
  | o, .block id _ b k =>
    haveI := properDec (id :: o) b
    haveI := properDec o k
    inferInstanceAs (Decidable (_ ∧ _ ∧ _))

/-- What happens between two events concerns other objects only. -/
def Others (id : Nat) (es : List Ev) : Prop := ∀ e ∈ es, (∀ w, e ≠ .enter id w) ∧ e ≠ .leave id

/-! ## Proofs -/

theorem leave_inst (s : St) (id : Nat) : (leave s id).inst = s.inst := by unfold leave; split <;> rfl

theorem enter_inst (s : St) (id : Nat) (w : W) : (enter s id w).inst id = some s.cur := if_pos rfl

theorem enter_inst_ne (s : St) {id j : Nat} (w : W) (h : j ≠ id) : (enter s id w).inst j = s.inst j := if_neg h

theorem eff_fnOf (w : W) : eff w = fnOf w := by
  induction w with
  | fn n => rfl
  | obj i w ih => cases w with
    | fn n => rfl
    | obj j w => rw [eff, ih]; rfl

theorem fnOf_enter (s : St) (id : Nat) (w : W) : fnOf (enter s id w).cur = fnOf w := by
  rw [← eff_fnOf, ← eff_fnOf]; rfl

theorem exec_inst (p : Prog) (outer : List Nat) (s : St) (hp : Proper outer p) (j : Nat) (hj : j ∈ outer) : (exec p s).1.inst j = s.inst j := by
  induction p generalizing outer s with
  | done => rfl
  | raise => rfl
  | read k ih => exact ih outer s hp hj
  | block id w b k ihb ihk =>
    obtain ⟨h1, h2, h3⟩ := hp
    have hne : j ≠ id := fun h => h1 (h ▸ hj)
    have hb := ihb (id :: outer) (enter s id w) h2 (List.mem_cons_of_mem _ hj)
    rw [enter_inst_ne s w hne] at hb
    simp only [exec]
    split
    · rw [leave_inst]; exact hb
    · rw [ihk outer _ h3 hj, leave_inst]; exact hb

theorem exec_proper (p : Prog) (outer : List Nat) (s : St) (hp : Proper outer p) :
    (exec p s).1.cur = s.cur ∧ (exec p s).2 = lexical (fnOf s.cur) p := by
  induction p generalizing outer s with
  | done => exact ⟨rfl, rfl⟩
  | raise => exact ⟨rfl, rfl⟩
  | read k ih =>
    obtain ⟨h1, h2⟩ := ih outer s hp
    exact ⟨h1, by simp only [exec, lexical, h2, eff_fnOf]⟩
  | block id w b k ihb ihk =>
    obtain ⟨h1, h2, h3⟩ := hp
    obtain ⟨_, hl⟩ := ihb (id :: outer) (enter s id w) h2
    have hi := exec_inst b (id :: outer) (enter s id w) h2 id (List.mem_cons_self ..)
    rw [enter_inst] at hi
    have hc : (leave (exec b (enter s id w)).1 id).cur = s.cur := by unfold leave; rw [hi]
    rw [fnOf_enter] at hl
    simp only [exec, lexical, hl]
    split
    · exact ⟨hc, rfl⟩
    · obtain ⟨k1, k2⟩ := ihk outer (leave (exec b (enter s id w)).1 id) h3
      rw [hc] at k1 k2
      exact ⟨k1, by rw [k2]⟩

theorem run_inst (s : St) (id : Nat) (es : List Ev) (h : Others id es) : (run s es).inst id = s.inst id := by
  induction es generalizing s with
  | nil => rfl
  | cons e es ih =>
    rw [run, ih _ (fun x hx => h x (List.mem_cons_of_mem _ hx))]
    have he := h e (List.mem_cons_self ..)
    cases e with
    | enter j w => exact enter_inst_ne s w (fun hj => he.1 w (by rw [hj]))
    | leave j => rw [step, leave_inst]
    | read => rfl

theorem run_append (s : St) (a b : List Ev) : run s (a ++ b) = run (run s a) b := by
  induction a generalizing s with
  | nil => rfl
  | cons e a ih => exact ih _

/-! ## C103 -/

/-- **C103, provable part.** A thread that is the only one to use read wrappers of a channel, and that uses no object inside its own block,
reads within each block through the wrapper of that block, elsewhere through the one that was there before, and leaves the channel with
the latter, also when it is left by an exception. (Missing: several threads, `C103_threads_refuted`, and objects used inside their own
blocks, `C103_again_refuted`.) -/
theorem C103_nested_partial (p : Prog) (s : St) (hp : Proper [] p) :
    (exec p s).1.cur = s.cur ∧ (exec p s).2 = lexical (fnOf s.cur) p := exec_proper p [] s hp

/-- **C103, several threads, provable part.** Whatever other threads do meanwhile with other objects: when a block ends, the channel has the
wrapper that it had when the block began. So a block around all others leaves the channel as it was. -/
theorem C103_outermost_partial (s : St) (id : Nat) (w : W) (es : List Ev) (h : Others id es) :
    (run s (.enter id w :: es ++ [.leave id])).cur = s.cur := by
  rw [List.cons_append, run, run_append]
  have := run_inst (step s (.enter id w)) id es h
  rw [show (step s (.enter id w)).inst id = some s.cur from enter_inst s id w] at this
  simp only [run, step] at this ⊢
  unfold leave; rw [this]

/-- **C103 is false of the code** for two threads: if the first leaves its block while the second is in its own, the second reads through the
wrapper that was there before, not its own; and when both have left their blocks, the wrapper of the first stays for ever. -/
theorem C103_threads_refuted (s : St) (i j : Nat) (hij : i ≠ j) (v w : W) :
    (run s [.enter i v, .enter j w, .leave i]).cur = s.cur ∧
    (run s [.enter i v, .enter j w, .leave i, .leave j]).cur = .obj i v := by
  simp [run, step, enter, leave, hij]

/-- **C103 is false of the code** for an object that is used inside its own block: it remains the wrapper of the channel afterwards, whatever the
inner block does with other objects. -/
theorem C103_again_refuted (s : St) (i : Nat) (w : W) (b : Prog) (hb : Proper [i] b) (hr : (lexical (fnOf w) b).2 = false) :
    (exec (.block i w (.block i w b .done) .done) s).1.cur = .obj i w := by
  have hi := exec_inst b [i] (enter (enter s i w) i w) hb i (List.mem_cons_self ..)
  have hl := (exec_proper b [i] (enter (enter s i w) i w) hb).2
  rw [enter_inst] at hi
  rw [fnOf_enter] at hl
  have e : leave (exec b (enter (enter s i w) i w)).1 i = { (exec b (enter (enter s i w) i w)).1 with cur := .obj i w } := by
    unfold leave; rw [hi]; rfl
  simp only [exec, hl, hr, Bool.false_eq_true, if_false, e]
  unfold leave; simp only [hi]; rfl

/-- Non-vacuity of `C103_nested_partial`: nested blocks, the same object used twice one after the other, an exception inside. -/
example : Proper [] (.block 1 (.fn 7) (.read (.block 2 (.fn 8) (.read .done) (.read .done))) (.read (.block 1 (.fn 7) (.read .raise) (.read .done)))) ∧
    (exec (.block 1 (.fn 7) (.read (.block 2 (.fn 8) (.read .done) (.read .done))) (.read (.block 1 (.fn 7) (.read .raise) (.read .done))))
      ⟨.fn 0, fun _ => none⟩).2 = ([7, 8, 7, 0, 7], true) := by decide

/-- Non-vacuity of `C103_outermost_partial`: two overlapping blocks inside. -/
example : Others 1 [.enter 2 (.fn 8), .enter 3 (.fn 9), .leave 2, .read, .leave 3] := by
  intro e he
  simp only [List.mem_cons, List.not_mem_nil, or_false] at he
  rcases he with rfl | rfl | rfl | rfl | rfl <;> simp

end Twink.Wrap
