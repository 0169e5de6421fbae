import Verif.Model.Sending
import Verif.Spec.Framing

/-! What sender and receiver expect of each other. -/

namespace Twink.Spec

/-- The messages whose `send` did not raise an exception. -/
def sentOf (l : List (Bytes × Sent)) : List Bytes :=
  l.filterMap fun (m, r) => match r with
    | .accepts _ => some m
    | .raises _ => none

/-- What a stream socket may do: it accepts at least one byte and at most the whole message. -/
def Lawful : Bytes × Sent → Prop
  | (m, .accepts n) => 1 ≤ n ∧ n ≤ m.length
  | _ => True

/-- The socket accepts the message as a whole, or raises. -/
def Whole : Bytes × Sent → Prop
  | (m, .accepts n) => n = m.length
  | _ => True

end Twink.Spec
