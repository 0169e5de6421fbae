import Verif.Spec.Of13

/-! What makes the OpenFlow 1.4 parser loop. -/

namespace Twink.Of14
open Of13 Spec

/-- At offset `o` stands what looks like an experimenter property (0xffff) whose length field is zero. -/
def ZeroProp (m : Bytes) (o : Nat) : Prop := o + 4 ≤ m.length ∧ u16 m o = 0xffff ∧ u16 m (o + 2) = 0

/-- At offset `o` stands what looks like a property of a port modification of unknown type. -/
def UnknownProp (m : Bytes) (o : Nat) : Prop := o + 4 ≤ m.length ∧ u16 m o ∉ [0, 1, 0xffff]

/-- What stands at offset `o` of the message at offset `p` makes a loop of its parser stay where it is. -/
def Blocks (m : Bytes) (p o : Nat) : Prop :=
  -- PACKET_OUT, FLOW_MOD, GROUP_MOD, flow statistics, group descriptions
  ((u8 m (p + 1) ∈ [13, 14, 15] ∨ (u8 m (p + 1) = 19 ∧ u16 m (p + 8) ∈ [1, 7])) ∧ ZeroLength m o) ∨
  -- METER_MOD, meter configurations
  ((u8 m (p + 1) = 29 ∨ (u8 m (p + 1) = 19 ∧ u16 m (p + 8) = 10)) ∧ ExperimenterBand m o) ∨
  -- TABLE_MOD, PORT_MOD, port and queue statistics, queue descriptions
  ((u8 m (p + 1) ∈ [16, 17] ∨ (u8 m (p + 1) = 19 ∧ u16 m (p + 8) ∈ [4, 5, 15])) ∧ ZeroProp m o) ∨
  -- PORT_MOD
  (u8 m (p + 1) = 16 ∧ UnknownProp m o) ∨
  -- ROLE_STATUS: what should be the first half of the role is taken for an experimenter property's type
  (u8 m (p + 1) = 30 ∧ o = p + 8 ∧ u16 m o = 0xffff)

/-- A message at offset `p` nested in the one at offset `off`, by way of forwarded requests (32) and messages added to
bundles (34). -/
inductive Inner (m : Bytes) : Nat → Nat → Prop
  | here (off) : Inner m off off
  | forwarded (off p) : u8 m (off + 1) = 32 → Inner m (off + 8) p → Inner m off p
  | bundled (off p) : u8 m (off + 1) = 34 → Inner m (off + 16) p → Inner m off p

end Twink.Of14
