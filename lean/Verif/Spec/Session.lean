import Verif.Spec.Agent
import Verif.Spec.Wire
import Verif.Model.Session

/-!
# Specification of the example switch

What it sends, byte by byte, and the greetings of controllers.
-/

namespace Twink.Session
open Spec

/-- The hello of a switch that speaks version 1.3 only. -/
def hello13 (xid : Nat) : Bytes := ofHeader 4 0 16 xid ++ [0, 1, 0, 8, 0, 0, 0, 0x10]

/-- A hello from a peer whose highest version is `v`, and that speaks version 1.3: without elements (then 1.3 is the highest version), or with a bitmap of
one word. -/
def Greets (v : Nat) (m : Bytes) : Prop :=
  WellFormed m ∧ u8 m 0 = v ∧ u8 m 1 = 0 ∧
  ((v = 4 ∧ m.length = 8) ∨ (m.length = 16 ∧ u16 m 8 = 1 ∧ u16 m 10 = 8 ∧ (u32 m 12).testBit 4 = true))

/-- One flow, as the body of a multipart reply (OpenFlow 1.3.5, 7.3.5.2): table 0, duration 10 s and 20 ns, priority 30, timeouts 40 and 50, no flags, cookie 1,
2 packets, 3 bytes; port 222, source 00:11:22:33:00:00; output to port 1111. -/
def flowBody : Bytes :=
  [0, 96, 0, 0, 0, 0, 0, 10, 0, 0, 0, 20, 0, 30, 0, 40, 0, 50, 0, 0, 0, 0, 0, 0, 0, 0, 0, 0, 0, 0, 0, 1, 0, 0, 0, 0, 0, 0, 0, 2, 0, 0, 0, 0, 0, 0, 0, 3] ++
  [0, 1, 0, 22, 0x80, 0, 0, 4, 0, 0, 0, 222, 0x80, 0, 8, 6, 0x00, 0x11, 0x22, 0x33, 0x00, 0x00, 0, 0] ++
  [0, 4, 0, 24, 0, 0, 0, 0, 0, 0, 0, 16, 0, 0, 4, 87, 0xff, 0xe5, 0, 0, 0, 0, 0, 0]

/-- What the example sends in response to a message. -/
def answer (m : Bytes) : List Bytes :=
  if u8 m 1 = 2 then [ofHeader 4 3 m.length (u32 m 4) ++ m.drop 8]
  else if u8 m 1 = 5 then [ofHeader 4 6 32 (u32 m 4) ++ [0, 0, 0, 0, 0, 0, 0, 1, 0, 0, 0, 2, 3, 0, 0, 0, 0, 0, 0, 15, 0, 0, 0, 0]]
  else if u8 m 1 = 7 then [ofHeader 4 8 12 (u32 m 4) ++ [0, 0, 0xff, 0xe5]]
  else if u8 m 1 = 18 ∧ u16 m 8 = 1 then [ofHeader 4 19 112 (u32 m 4) ++ ([0, 1, 0, 0, 0, 0, 0, 0] ++ flowBody)]
  else []

/-- The parser of version 1.3 takes the message. -/
def Readable (m : Bytes) : Prop := ∃ msg, Of13.parse m 0 = .ok msg

/-- The reply that the standard requires, by type; `none` if the message is not a request. -/
def requires (m : Bytes) : Option Nat :=
  match u8 m 1 with
  | 2 => some 3      -- echo
  | 5 => some 6      -- features
  | 7 => some 8      -- configuration
  | 18 => some 19    -- multipart
  | 20 => some 21    -- barrier
  | 22 => some 23    -- queues
  | 24 => some 25    -- role
  | 26 => some 27    -- asynchronous messages
  | _ => none

end Twink.Session
