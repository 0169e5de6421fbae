import Verif.Spec.Hello
import Verif.Spec.Wire
import Verif.Model.Controller

/-! Specifications for the Open vSwitch helpers. -/

namespace Twink.Ovs
open Spec

/-- A PACKET_IN (type 10 in all versions) of a packet that the switch keeps in a buffer. -/
def Buffered (m : Bytes) : Prop := u8 m 1 = 10 ∧ u32 m 8 ≠ 0xffffffff

instance (m : Bytes) : Decidable (Buffered m) := by unfold Buffered; infer_instance

/-- The PACKET_OUT (type 13) that frees the buffer of a PACKET_IN: same version, transaction id and buffer id, no actions,
no data.  In version 1.0 the input port has two bytes, OFPP_NONE = 0xffff; later four, OFPP_CONTROLLER = 0xfffffffd,
and there are six bytes of padding. -/
def release (m : Bytes) : List Bytes :=
  if Buffered m then
    if u8 m 0 = 1 then [ofHeader 1 13 16 (u32 m 4) ++ be32 (u32 m 8) ++ be16 0xffff ++ be16 0]
    else [ofHeader (u8 m 0) 13 24 (u32 m 4) ++ be32 (u32 m 8) ++ be32 0xfffffffd ++ be16 0 ++ zeros 6]
  else []

/-- Whole messages; a PACKET_IN has a buffer id. -/
def Whole (m : Bytes) : Prop := 8 ≤ m.length ∧ (u8 m 1 = 10 → 12 ≤ m.length)

/-- The messages written on behalf of the user of the channel. -/
def userSent : List Wire → List Bytes
  | [] => []
  | .user m _ :: ws => m :: userSent ws
  | .inserted _ :: ws => userSent ws

/-- The barrier replies due, and the flow modifications, in a sequence of messages: BARRIER_REQUEST is 18 in version 1.0
and 20 later, BARRIER_REPLY is the next number, FLOW_MOD is 14. -/
def barrierReplies (ms : List Bytes) : List Bytes :=
  (ms.filter fun m => (u8 m 0 = 1 ∧ u8 m 1 = 18) ∨ (u8 m 0 ≠ 1 ∧ u8 m 1 = 20)).map
    fun m => ofHeader (u8 m 0) (u8 m 1 + 1) 8 (u32 m 4)

/-- The flow modifications in a sequence of messages. -/
def flowMods (ms : List Bytes) : List Bytes := ms.filter fun m => u8 m 1 = 14

end Twink.Ovs
