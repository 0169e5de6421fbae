import Verif.Model.Hub

/-! What has happened to the switching hub. -/

namespace Twink.Hub

/-- A frame of the host has come in by the port. -/
def SeenAt (l : List Event) (h : Bytes) (p : Nat) : Prop := ∃ f, Event.frame f ∈ l ∧ f.src = h ∧ f.inPort = p

/-- Addresses have six bytes. -/
def Event.Six : Event → Prop
  | .frame f => f.dst.length = 6 ∧ f.src.length = 6
  | _ => True

/-- No event of the host but frames at the port. -/
def Only (h : Bytes) (p : Nat) (l : List Event) : Prop := ∀ f, Event.frame f ∈ l → f.src = h → f.inPort = p

/-- The ports the switch had when HELLO was handled. -/
def portsAtHello : List Event → Option (List Nat)
  | [] => none
  | .setup ports :: _ => some ports
  | _ :: l => portsAtHello l

end Twink.Hub
