import Verif.Model.Rate

/-! What users of a rate limiter observe. -/

namespace Twink.Spec

/-- The calls made on behalf of the tasks: `(func, args, kwargs)` actually used, in the order of the threads. -/
def callsMade (s : Rate) : List (Option Nat × Option Nat × Option Nat) := s.proxies.filterMap (·.called)

/-- The correct call for task `t`. -/
def callOf (t : Nat) : Option Nat × Option Nat × Option Nat := (some t, some t, some t)

/-- The number of tasks running. -/
def runningCount (s : Rate) : Nat := (s.proxies.filter (fun p => p.pc = .running)).length

/-- No thread of the rate limiter is left: nothing pending or waiting, all calls of `loop` have ended. -/
def NoLoops (s : Rate) : Prop := s.pending = 0 ∧ s.waiting = 0 ∧ ∀ f ∈ s.frames, f.pc = .ended

/-- The thread has not called its task yet. -/
def unstarted (p : RProxy) : Bool :=
  match p.pc with
  | .start | .gotF _ | .gotA _ _ => true
  | _ => false

/-- Schedules in which every task thread gets as far as calling its task before the call of `loop` that started it takes up its
next task. -/
def PromptRun (s : Rate) : List ROp → Prop
  | [] => True
  | .loop pick :: ops =>
    ((∃ f t, s.frames[s.frames.length - 1]? = some f ∧ f.pc = .bindF t) →
        ∀ p ∈ s.proxies, p.frame = s.frames.length - 1 → unstarted p = false) ∧
      PromptRun (rstep s (.loop pick)) ops
  | op :: ops => PromptRun (rstep s op) ops

end Twink.Spec
