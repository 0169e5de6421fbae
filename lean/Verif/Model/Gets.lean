import Verif.Model.Threadlet

/-!
# Concurrent calls of `Threadlet.get`

Models `/repo/twink/sched_basic.py:17-54` (`Threadlet`, `spawn`) as an interleaving of the task's thread and any number of threads that call
`get()`, with or without a timeout, on a started task.  `Queue.get` is atomic; reads and writes of `self.result` and `self.value` are
separate steps.
-/

namespace Twink.Gets

/-- How a call of `get` ends. -/
inductive Answer (α : Type) where
  | ret (v : Option α)     -- returns (`none` is Python's `None`)
  | raised (e : Err)       -- raises the exception of the function
  | attribute              -- AttributeError: `self.result` is None
  | empty                  -- `Queue.Empty`: the timeout
  deriving DecidableEq, Repr

/-- Where a call of `get` is. sched_basic.py:38-49 -/
inductive Pc (α : Type) where
  | test                   -- before `if self.result` (42)
  | fetch                  -- before `self.result` in 43 is evaluated
  | waiting                -- in `Queue.get` (43)
  | took (o : Outcome α)   -- before `self.result = None` (44)
  | cleared (o : Outcome α) -- before `self.value = values[0]` or `raise` (45-48)
  | reading                -- before `return self.value` (49)
  | done (a : Answer α)
  deriving DecidableEq, Repr

/-- `queue`: the item in the queue; `result`: `self.result` is the queue, not None; `over`: how the function has ended, `some none` if with an exception that
`except Exception` does not catch. -/
structure St (α : Type) where
  over : Option (Option (Outcome α))
  queue : Option (Outcome α)
  result : Bool
  value : Option α
  calls : List (Pc α)
  deriving DecidableEq, Repr

/-- A task that was started by `spawn`. sched_basic.py:18-30, 51-54 -/
def spawned {α : Type} : St α := ⟨none, none, true, none, []⟩

inductive Op (α : Type) where
  | finish (o : Option (Outcome α))   -- the function ends; `none`: SystemExit, KeyboardInterrupt, ...
  | call                              -- a thread calls `get()`
  | step (i : Nat)                    -- the thread of call `i` goes on
  | expire (i : Nat)                  -- the timeout of call `i` is over
  deriving DecidableEq, Repr

/-- The next step of a call. sched_basic.py:42-49 -/
def callStep {α : Type} (s : St α) : Pc α → St α × Pc α
  | .test => if s.result then (s, .fetch) else (s, .reading)
  | .fetch => if s.result then (s, .waiting) else (s, .done .attribute)
  | .waiting =>
    match s.queue with
    | some o => ({ s with queue := none }, .took o)
    | none => (s, .waiting)
  | .took o => ({ s with result := false }, .cleared o)
  | .cleared (.value v) => ({ s with value := some v }, .reading)
  | .cleared (.exc e) => (s, .done (.raised e))
  | .reading => (s, .done (.ret s.value))
  | .done a => (s, .done a)

/-- A step of the system. -/
def step {α : Type} (s : St α) : Op α → St α
  | .finish o =>
    match s.over with
    | none => { s with over := some o, queue := o }       -- `wrap`, 20-26
    | some _ => s
  | .call => { s with calls := s.calls ++ [.test] }
  | .step i =>
    match s.calls[i]? with
    | some pc => { (callStep s pc).1 with calls := s.calls.set i (callStep s pc).2 }
    | none => s
  | .expire i =>
    match s.calls[i]? with
    | some .waiting => if s.queue = none then { s with calls := s.calls.set i (.done .empty) } else s
    | _ => s

def run {α : Type} (s : St α) : List (Op α) → St α
  | [] => s
  | op :: ops => run (step s op) ops

end Twink.Gets
