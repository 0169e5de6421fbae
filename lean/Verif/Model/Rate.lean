import Verif.Py

/-!
# Rate limited tasks

Models `/repo/twink/base.py:474-520` (`RateLimit`) as a transition system: any number of threads submit tasks, every submission
starts one thread that runs `loop`, `loop` starts one thread per task that runs `proxy`.

Tasks are numbered in the order of submission; `(func, args, kwargs)` of task `t` are modelled by `(t, t, t)`.
`proxy` is a closure: `func`, `args`, `kwargs`, `task`, `hot` and `hot_lock` are variables of the enclosing call of `loop`, read when
`proxy` runs, not when it was created. `[id(task) for task in hot]` assigns `task` (Python 2).
Simplifications: equal tasks do not occur (`hot.remove` compares by equality), object ids are not reused, the steps under
`hot_lock` are atomic.
-/

namespace Twink

/-- Position in `loop` (base.py:489-520). -/
inductive LPc where
  | outer              -- `while len(self.cold) > 0` (491)
  | inner              -- `while len(hot) < self.size and len(self.cold) > 0` (495)
  | pop                -- `task = self.cold.pop(0)` (498)
  | bindF (t : Nat)    -- `(func, args, kwargs) = task` (501), assigning `func`
  | bindA (t : Nat)    -- … `args`
  | bindK (t : Nat)    -- … `kwargs`
  | append (t : Nat)   -- `hot.append(task)` (506)
  | spawn (t : Nat)    -- `children[id(task)] = sched.spawn(proxy)` (507)
  | check              -- the first round of `for task_id,job in tuple(children.items())` (509-513)
  | join               -- `job.join(0.5)`, `break` (516, 520)
  | ended              -- returned, or died by `NameError` (518); the lock is released
  deriving DecidableEq, Repr

/-- A call of `loop` with its local variables. -/
structure LFrame where
  pc : LPc
  hot : List Nat
  children : List Nat
  func : Option Nat
  args : Option Nat
  kwargs : Option Nat
  task : Option Nat
  deriving DecidableEq, Repr

/-- Position in `proxy` (base.py:502-505). -/
inductive PPc where
  | start
  | gotF (f : Option Nat)
  | gotA (f a : Option Nat)
  | running               -- in `func(*args, **kwargs)`
  | removing              -- before `hot.remove(task)`
  | done
  deriving DecidableEq, Repr

/-- A thread running `proxy`: the call of `loop` whose variables it shares, the task it was started for (ghost), and the call
it has made (ghost). -/
structure RProxy where
  frame : Nat
  owner : Nat
  pc : PPc
  called : Option (Option Nat × Option Nat × Option Nat)
  deriving DecidableEq, Repr

/-- `submitted` counts the submissions, `pending` the submissions between `append` and `sched.spawn`, `waiting` the threads waiting
for `loop_lock`, `popped` lists the tasks taken from `cold` (ghost). -/
structure Rate where
  size : Nat
  submitted : Nat
  cold : List Nat
  pending : Nat
  waiting : Nat
  frames : List LFrame
  proxies : List RProxy
  popped : List Nat
  deriving DecidableEq, Repr

/-- `RateLimit(size)` (base.py:475-481). -/
def freshRate (size : Nat) : Rate := ⟨size, 0, [], 0, 0, [], [], []⟩

inductive ROp where
  | submit                              -- `self.cold.append(…)` (485)
  | spawnLoop                           -- `sched.spawn(self.loop)` (487)
  | acquire                             -- a waiting thread gets `loop_lock` (490)
  | loop (pick : Nat)                   -- the thread in `loop` moves; `pick` selects the first child of the dictionary
  | proxy (j : Nat) (raises : Bool)     -- proxy thread `j` moves
  deriving DecidableEq, Repr

/-- `task_id in [id(task) for task in hot]` for the first child (base.py:509-513). -/
def firstRuns (f : LFrame) (pick : Nat) : Bool :=
  match f.children[pick % f.children.length]? with
  | some c => f.hot.contains c
  | none => false

/-- The variable `task` after `[id(task) for task in hot]` (base.py:512). -/
def taskAfter (f : LFrame) : Option Nat :=
  match f.hot.getLast? with
  | some t => some t
  | none => f.task

/-- One step of the thread that holds `loop_lock`, with local variables `f` (call number `i`). -/
def loopStep (s : Rate) (i : Nat) (f : LFrame) (pick : Nat) : Rate :=
  match f.pc with
  | .outer =>
    if s.cold = [] then { s with frames := s.frames.set i { f with pc := .ended } }
    else { s with frames := s.frames.set i { f with pc := .inner, hot := [], children := [] } }
  | .inner =>
    if f.hot.length < s.size ∧ s.cold ≠ [] then { s with frames := s.frames.set i { f with pc := .pop, task := none } }
    else { s with frames := s.frames.set i { f with pc := .outer } }
  | .pop =>
    match s.cold with
    | t :: ts => { s with cold := ts, popped := s.popped ++ [t], frames := s.frames.set i { f with pc := .bindF t, task := some t } }
    | [] => { s with frames := s.frames.set i { f with pc := .ended } }
  | .bindF t => { s with frames := s.frames.set i { f with pc := .bindA t, func := some t } }
  | .bindA t => { s with frames := s.frames.set i { f with pc := .bindK t, args := some t } }
  | .bindK t => { s with frames := s.frames.set i { f with pc := .append t, kwargs := some t } }
  | .append t => { s with frames := s.frames.set i { f with pc := .spawn t, hot := f.hot ++ [t] } }
  | .spawn t =>
    { s with proxies := s.proxies ++ [⟨i, t, .start, none⟩],
             frames := s.frames.set i { f with pc := .check, children := f.children ++ [t] } }
  | .check =>
    if firstRuns f pick then { s with frames := s.frames.set i { f with pc := .join, task := taskAfter f } }
    else { s with frames := s.frames.set i { f with pc := .ended, task := taskAfter f } }
  | .join => { s with frames := s.frames.set i { f with pc := .inner } }
  | .ended => s

/-- One step of proxy thread `j` (base.py:502-505); an exception of the task ends the thread before `hot.remove`. -/
def proxyStep (s : Rate) (j : Nat) (p : RProxy) (raises : Bool) : Rate :=
  match s.frames[p.frame]? with
  | none => s
  | some f =>
    match p.pc with
    | .start => { s with proxies := s.proxies.set j { p with pc := .gotF f.func } }
    | .gotF x => { s with proxies := s.proxies.set j { p with pc := .gotA x f.args } }
    | .gotA x y => { s with proxies := s.proxies.set j { p with pc := .running, called := some (x, y, f.kwargs) } }
    | .running => { s with proxies := s.proxies.set j { p with pc := if raises then .done else .removing } }
    | .removing =>
      match f.task with
      | some t => { s with proxies := s.proxies.set j { p with pc := .done },
                           frames := s.frames.set p.frame { f with hot := f.hot.erase t } }
      | none => { s with proxies := s.proxies.set j { p with pc := .done } }   -- `hot.remove(None)` raises
    | .done => s

/-- One step of the system. -/
def rstep (s : Rate) : ROp → Rate
  | .submit => { s with submitted := s.submitted + 1, cold := s.cold ++ [s.submitted], pending := s.pending + 1 }
  | .spawnLoop => if 0 < s.pending then { s with pending := s.pending - 1, waiting := s.waiting + 1 } else s
  | .acquire =>
    if 0 < s.waiting ∧ s.frames.all (fun f => f.pc = .ended) then
      { s with waiting := s.waiting - 1, frames := s.frames ++ [⟨.outer, [], [], none, none, none, none⟩] }
    else s
  | .loop pick =>
    match s.frames[s.frames.length - 1]? with
    | some f => loopStep s (s.frames.length - 1) f pick
    | none => s
  | .proxy j raises =>
    match s.proxies[j]? with
    | some p => proxyStep s j p raises
    | none => s

def rrun (s : Rate) : List ROp → Rate
  | [] => s
  | op :: ops => rrun (rstep s op) ops

end Twink
