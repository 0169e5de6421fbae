import Verif.Spec.Of14

/-! Sizes of structures on the wire, OpenFlow 1.4.0, sections 7.2.4, 7.2.5 and 7.3.5: fixed by the type, or announced. -/

namespace Twink.Of14
open Of13

/-- Bytes of an action. -/
def Action.wireSize : Action → Nat
  | .output _ _ _ _ => 16
  | .setField _ len _ => len.getD 0
  | .experimenter _ len _ _ => len.getD 0
  | _ => 8

/-- Bytes of an instruction. -/
def Instr.wireSize : Instr → Nat
  | .header _ _ => 8
  | .gotoTable _ _ _ => 8
  | .writeMetadata _ _ _ _ => 24
  | .actions _ _ l => 8 + (l.values.map Action.wireSize).sum
  | .meter _ _ _ => 8
  | .experimenter _ len _ _ => len.getD 0

/-- The length field of an instruction. -/
def Instr.lenField : Instr → Option Nat
  | .header _ l => l
  | .gotoTable _ l _ => l
  | .writeMetadata _ l _ _ => l
  | .actions _ l _ => l
  | .meter _ l _ => l
  | .experimenter _ l _ _ => l

/-- Bytes of a bucket. -/
def Bucket.wireSize (b : Bucket) : Nat := 16 + (b.actions.values.map Action.wireSize).sum

end Twink.Of14
