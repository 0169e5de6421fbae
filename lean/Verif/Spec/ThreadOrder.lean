import Verif.Model.Parallel

/-! The order in which the threads of a parallel channel get to run, read off the schedule alone. -/

namespace Twink.Par.Order

/-- `(n, l)`: `n` messages have been received, so that there are `n` threads, and the threads `l` have run, in the order of their first move. -/
def note (a : Nat × List Nat) : Op → Nat × List Nat
  | .recv _ => (a.1 + 1, a.2)
  | .thread j _ => if j < a.1 ∧ j ∉ a.2 then (a.1, a.2 ++ [j]) else a
  | .pool _ _ => a

/-- The threads in the order of their first move. -/
def starts (ops : List Op) : List Nat := (ops.foldl note (0, [])).2

/-- The messages in the order of arrival. -/
def received (ops : List Op) : List Bytes :=
  ops.filterMap fun op =>
    match op with
    | .recv m => some m
    | _ => none

end Twink.Par.Order
