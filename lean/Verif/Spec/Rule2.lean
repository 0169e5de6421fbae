import Verif.Model.Rule2
import Verif.Spec.Wire
import Verif.Spec.Ovs

/-!
# Vocabulary for `rule2ofp`
-/

namespace Twink.Rule2
open Spec

/-- What `ovs-ofctl` makes of a rule it understands are flow modifications. -/
def Sane (r : Rule) : Prop := ∀ ms x, r.mods = some (ms, x) → x < 2 ^ 32 ∧ ∀ m ∈ ms, 8 ≤ m.length ∧ u8 m 1 = 14

/-- `ovs-ofctl` understands the rule. -/
def Understood (r : Rule) : Prop := r.mods ≠ none

/-- The messages of a list of rules. -/
def messages : List Rule → List Bytes
  | [] => []
  | r :: rs => (match r.mods with | some (ms, _) => ms | none => []) ++ messages rs

/-- `rule2ofp` has returned or raised. -/
def Over (s : St) : Prop := ∃ r, s.main = .ended r

/-- The server serves for ever: whatever happens, it listens and the loop that accepts connections runs. -/
def Immortal (addr : Ovs.Str) (s : St) : Prop := ∀ ops, (runs addr s ops).listening = true ∧ (runs addr s ops).accepting = true ∧ (runs addr s ops).runner ≠ .ended

/-- `stop()` was called before the thread of `start()` had set `accepting`. -/
def StoppedFirst (addr : Ovs.Str) (s : St) (ops : List Op) : Prop :=
  ∃ ops1 ops2 e, ops = ops1 ++ .main :: ops2 ∧ (runs addr s ops1).main = .stop e ∧ (runs addr s ops1).starter = .fresh

/-- An `ovs-ofctl` that understands its rule came to connect while the server did not listen. -/
def Refused (addr : Ovs.Str) (s : St) (ops : List Op) : Prop :=
  ∃ ops1 ops2 r todo, ops = ops1 ++ .client :: ops2 ∧ (runs addr s ops1).main = .busy r todo .connecting ∧ Understood r ∧ (runs addr s ops1).listening = false

end Twink.Rule2
