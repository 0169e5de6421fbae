import Verif.Model.Life
import Verif.Props.AgentExact

/-!
# Specification: what the software switch survives
-/

namespace Twink.Life
open Spec Session

/-- The messages that do not end the loop: an echo request once a version is agreed upon; a hello that offers version 4 and that the parser of OpenFlow 1.3 reads; and any
other message that the parser reads and that asks for something the switch can do. -/
def Survives (s : Sess Agent.St) (m : Bytes) : Prop :=
  8 ≤ m.length ∧ (u8 m 1 = 2 → s.version ≠ none) ∧ (u8 m 1 = 0 → ∃ vs, parseHello m = .ok vs ∧ 4 ∈ vs) ∧
    (u8 m 1 ≠ 2 → ∃ msg, Of13.parse m 0 = .ok msg ∧ Agent.Served s.user msg)

/-- What does not end the service. -/
def Harmless (s : St) : Op → Prop
  | .message _ _ _ m => Survives s.sess m
  | .hangup => False
  | .cut => False
  | .dial .. => True
  | .call .. => True

/-- The switch serves: the main thread waits for calls, and the loop runs. -/
def Serves (s : St) : Prop := s.phase = .serving ∧ s.link = .live

/-- The version is agreed upon, or not. -/
def Agreed (s : St) : Prop := s.sess.version = none ∨ s.sess.version = some 4

end Twink.Life
