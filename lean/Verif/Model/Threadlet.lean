import Verif.Py

/-!
# Spawned tasks

Models `/repo/twink/sched_basic.py:17-54` (`Threadlet`, `spawn`). Python's `None` is `none`; a value returned by the task is `some v`.
-/

namespace Twink

/-- How the task's function ends. -/
inductive Outcome (α : Type) where
  | value (v : α)
  | exc (e : Err)
  deriving DecidableEq, Repr

/-- A `Threadlet` (sched_basic.py:18-30): `result` is the queue with what was put into it (`none` after `self.result = None`),
`value` is `self.value`. The wrapper `wrap` puts exactly one item. -/
structure Threadlet (α : Type) where
  result : Option (Option (Outcome α))
  value : Option α
  deriving DecidableEq, Repr

/-- A new threadlet. -/
def Threadlet.new {α : Type} : Threadlet α := ⟨some none, none⟩

/-- `wrap` finishes: `result.put(obj)` (sched_basic.py:20-26); the queue object stays reachable for the thread only. -/
def Threadlet.finish {α : Type} (t : Threadlet α) (o : Outcome α) : Threadlet α :=
  match t.result with
  | some none => { t with result := some (some o) }
  | _ => t

/-- Result of a `get` call. -/
inductive Got (α : Type) where
  | ret (v : Option α)   -- returns (`none` is Python's `None`)
  | raised (e : Err)
  | waiting              -- the queue is empty: blocks, or raises `Queue.Empty` on timeout
  deriving DecidableEq, Repr

/-- `Threadlet.get` (sched_basic.py:38-49). -/
def Threadlet.get {α : Type} (t : Threadlet α) : Threadlet α × Got α :=
  match t.result with
  | none => (t, .ret t.value)
  | some none => (t, .waiting)
  | some (some (.value v)) => (⟨none, some v⟩, .ret (some v))
  | some (some (.exc e)) => (⟨none, t.value⟩, .raised e)

/-- Successive `get` calls. -/
def Threadlet.gets {α : Type} : Nat → Threadlet α → List (Got α)
  | 0, _ => []
  | n + 1, t => t.get.2 :: Threadlet.gets n t.get.1

end Twink
