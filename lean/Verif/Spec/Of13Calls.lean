import Verif.Model.Of13Build
import Verif.Spec.Of13

/-!
# The calls of the OpenFlow 1.3 message builders

Every function of twink/ofp4/build.py that makes a whole message, with its arguments except `header`.
-/

namespace Twink.Of13
open Spec

/-- A call of a message builder. -/
inductive Call where
  | hello (elements : Seq HelloElem)
  | error (type code : Nat) (data : Option Bytes)
  | features (dpid nBuffers nTables aux caps : Nat)
  | config (flags : Nat) (miss : Option Nat)
  | packetIn (bufferId totalLen reason table cookie : Nat) (mt : Elem MatchT) (data : Bytes)
  | flowRemoved (cookie priority reason table durSec durNsec idle hard packets bytes : Nat) (mt : Elem MatchT)
  | portStatus (reason : Nat) (desc : Elem PortT)
  | packetOut (bufferId : Option Nat) (inPort : Nat) (actions : Seq Action) (data : Option Bytes)
  | flowMod (cookie cookieMask table command idle hard priority : Nat) (bufferId outPort outGroup : Option Nat)
      (flags : Nat) (mt : Elem MatchT) (instrs : Seq Instr)
  | groupMod (command type group : Nat) (buckets : Seq Bucket)
  | portMod (port : Nat) (hwAddr : Bytes) (config mask advertise : Nat)
  | tableMod (table config : Nat)
  | mpRequest (type flags : Nat) (body : Body)
  | mpReply (type flags : Nat) (body : Body)
  | queueReq (port : Nat)
  | queueRep (port : Nat) (queues : Seq Queue)
  | role (role generation : Nat)
  | async (packetIn portStatus flowRemoved : List Nat)
  | meterMod (command flags meter : Nat) (bands : Seq Band)
  | experimenter (exp expType : Nat) (data : Bytes)

/-- The call, with the header argument and the transaction id drawn if none is given. -/
def Call.run (rnd : Nat) (h : HdrArg) : Call → Py Bytes
  | .hello a => buildHello rnd h a
  | .error a b c => buildError rnd h a b c
  | .features a b c d e => buildFeatures rnd h a b c d e
  | .config a b => buildConfig rnd h a b
  | .packetIn a b c d e f g => buildPacketIn rnd h a b c d e f g
  | .flowRemoved a b c d e f g i j k l => buildFlowRemoved rnd h a b c d e f g i j k l
  | .portStatus a b => buildPortStatus rnd h a b
  | .packetOut a b c d => buildPacketOut rnd h a b c d
  | .flowMod a b c d e f g i j k l m n => buildFlowMod rnd h a b c d e f g i j k l m n
  | .groupMod a b c d => buildGroupMod rnd h a b c d
  | .portMod a b c d e => buildPortMod rnd h a b c d e
  | .tableMod a b => buildTableMod rnd h a b
  | .mpRequest a b c => buildMpRequest rnd h a b c
  | .mpReply a b c => buildMpReply rnd h a b c
  | .queueReq a => buildQueueReq rnd h a
  | .queueRep a b => buildQueueRep rnd h a b
  | .role a b => buildRole rnd h a b
  | .async a b c => buildAsync rnd h a b c
  | .meterMod a b c d => buildMeterMod rnd h a b c d
  | .experimenter a b c => buildExperimenter rnd h a b c

/-- The message types a call may produce, OpenFlow 1.3.2 section 7.1 (`OFPT_*`). -/
def Call.types : Call → List Nat
  | .hello .. => [0]
  | .error .. => [1]
  | .experimenter .. => [4]
  | .features .. => [6]
  | .config .. => [8, 9]
  | .packetIn .. => [10]
  | .flowRemoved .. => [11]
  | .portStatus .. => [12]
  | .packetOut .. => [13]
  | .flowMod .. => [14]
  | .groupMod .. => [15]
  | .portMod .. => [16]
  | .tableMod .. => [17]
  | .mpRequest .. => [18]
  | .mpReply .. => [19]
  | .queueReq .. => [22]
  | .queueRep .. => [23]
  | .role .. => [24, 25]
  | .async .. => [27, 28]
  | .meterMod .. => [29]

/-- The version requested by the header argument. -/
def HdrArg.version : HdrArg → Nat
  | .raw b => u8 b 0
  | .tup (some v) _ _ _ => v
  | _ => 4

/-- Calls whose messages the library can both build and parse: everything given as tuples of the kinds that can be parsed.  Not among them:
PORT_MOD, EXPERIMENTER, multipart messages with aggregate statistics, port statistics or table features; and the messages with descriptions of
ports, which can be parsed but not built again. -/
def Call.Rebuildable : Call → Prop
  | .hello es => es.All HelloElem.Parseable
  | .packetIn _ _ _ _ _ mt _ => ∃ m, mt = .tup m
  | .flowRemoved _ _ _ _ _ _ _ _ _ _ mt => ∃ m, mt = .tup m
  | .packetOut _ _ as _ => as.All Action.Parseable
  | .flowMod _ _ _ _ _ _ _ _ _ _ _ mt is => (∃ m, mt = .tup m) ∧ is.All Instr.Parseable
  | .groupMod _ _ _ bs => bs.All Bucket.Parseable
  | .meterMod _ _ _ bs => bs.All Band.Parseable
  | .mpRequest t _ body => t ∈ [0, 3, 7, 8, 11, 13] ∨ (∃ r, body = .one r ∧ t ∈ r.requestTypes ∧ r.Parseable) ∨
      (t = 0xffff ∧ ∃ d, body = .raw d)
  | .mpReply t _ body => (t ∈ [0, 8, 11] ∧ ∃ r, body = .one r ∧ r.replyType = some t ∧ r.Parseable) ∨
      (t ∈ [1, 3, 5, 6, 7, 9, 10] ∧ ∃ l : List Rec, body = .many (l.map .tup) ∧ ∀ r ∈ l, r.replyType = some t ∧ r.Parseable)
  | .queueRep _ qs => qs.All Queue.Parseable
  | .async a b c => a.length = 2 ∧ b.length = 2 ∧ c.length = 2
  | .portStatus .. => False
  | .portMod .. => False
  | .experimenter .. => False
  | _ => True

end Twink.Of13
