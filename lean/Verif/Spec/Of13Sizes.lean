import Verif.Spec.Of13

/-! Sizes of actions and instructions on the wire, OpenFlow 1.3.2, sections 7.2.4 and 7.2.5: fixed by the type, or announced. -/

namespace Twink.Of13

/-- Bytes of an action. -/
def Action.wireSize : Action → Nat
  | .output _ _ _ _ => 16
  | .setField _ len _ => len.getD 0
  | .experimenter _ len _ _ => len.getD 0
  | _ => 8

/-- Bytes of an instruction. -/
def Instr.wireSize : Instr → Nat
  | .header _ _ => 8
  | .gotoTable _ _ _ => 8
  | .writeMetadata _ _ _ _ => 24
  | .actions _ _ l => 8 + (l.values.map Action.wireSize).sum
  | .meter _ _ _ => 8
  | .experimenter _ len _ _ => len.getD 0

/-- The length field of an instruction. -/
def Instr.lenField : Instr → Option Nat
  | .header _ l => l
  | .gotoTable _ l _ => l
  | .writeMetadata _ l _ _ => l
  | .actions _ l _ => l
  | .meter _ l _ => l
  | .experimenter _ l _ _ => l

end Twink.Of13
