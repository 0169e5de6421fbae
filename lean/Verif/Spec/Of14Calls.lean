import Verif.Model.Of14Build
import Verif.Spec.Of14

/-!
# The calls of the OpenFlow 1.4 message builders

Every function of twink/ofp5/build.py that makes a whole message, with its arguments except `header`.  A message
inside a message is given as the bytes of another call.
-/

namespace Twink.Of14
open Spec Of13

/-- A call of a message builder. -/
inductive Call where
  | hello (elements : Seq HelloElem)
  | error (type code : Nat) (data : Option Bytes)
  | errorExp (expCode exp : Nat) (data : Bytes)
  | features (dpid nBuffers nTables aux caps : Nat)
  | config (flags : Nat) (miss : Option Nat)
  | packetIn (bufferId totalLen reason table cookie : Nat) (mt : Elem MatchT) (data : Bytes)
  | flowRemoved (cookie priority reason table durSec durNsec idle hard packets bytes : Nat) (mt : Elem MatchT)
  | portStatus (reason : Nat) (desc : Elem PortT)
  | packetOut (bufferId : Option Nat) (inPort : Nat) (actions : Seq Action) (data : Option Bytes)
  | flowMod (cookie cookieMask table command idle hard priority : Nat) (bufferId outPort outGroup : Option Nat)
      (flags importance : Nat) (mt : Elem MatchT) (instrs : Seq Instr)
  | groupMod (command type group : Nat) (buckets : Seq Bucket)
  | portMod (port : Nat) (hwAddr : Bytes) (config mask : Nat) (props : Seq Pr)
  | tableMod (table config : Nat) (props : Seq Pr)
  /-- `ofp_table_mod` with the properties given as the concatenation of what their builders return -/
  | tableModOf (table config : Nat) (props : Seq Pr)
  | mpRequest (type flags : Nat) (body : Body)
  /-- `ofp_multipart_request` with the body given as what the record's builder returns -/
  | mpRequestOf (type flags : Nat) (body : Rec)
  | mpReply (type flags : Nat) (body : Body)
  | role (role generation : Nat)
  | async (props : Seq Pr)
  | meterMod (command flags meter : Nat) (bands : Seq Band)
  | roleStatus (role reason generation : Nat) (props : Seq Pr)
  | tableStatus (reason : Nat) (table : Elem Rec)
  | bundleCtrl (bundle type flags : Nat) (props : Seq Pr)
  | bundleAdd (bundle flags : Nat) (rnd : Nat) (header : HdrArg) (message : Call) (props : Seq Pr)
  | requestForward (rnd : Nat) (header : HdrArg) (request : Call)
  | experimenter (exp expType : Nat) (data : Option Bytes)
  /-- `ofp_(header, data)`: messages without fields of their own, e.g. echo and barrier requests -/
  | other (data : Bytes)

/-- The call, with the header argument and the transaction id drawn if none is given. -/
def Call.run (rnd : Nat) (h : HdrArg) : Call → Py Bytes
  | .hello a => buildHello rnd h a
  | .error a b c => buildError rnd h a b c
  | .errorExp a b c => buildErrorExp rnd h a b c
  | .features a b c d e => buildFeatures rnd h a b c d e
  | .config a b => buildConfig rnd h a b
  | .packetIn a b c d e f g => buildPacketIn rnd h a b c d e f g
  | .flowRemoved a b c d e f g i j k l => buildFlowRemoved rnd h a b c d e f g i j k l
  | .portStatus a b => buildPortStatus rnd h a b
  | .packetOut a b c d => buildPacketOut rnd h a b c d
  | .flowMod a b c d e f g i j k l m n o => buildFlowMod rnd h a b c d e f g i j k l m n o
  | .groupMod a b c d => buildGroupMod rnd h a b c d
  | .portMod a b c d e => buildPortMod rnd h a b c d e
  | .tableMod a b c => buildTableMod rnd h a b c
  | .tableModOf a b c => do buildTableMod rnd h a b (.raw (← seqBytes buildPr c))
  | .mpRequest a b c => buildMpRequest rnd h a b c
  | .mpRequestOf a b c => do buildMpRequest rnd h a b (.raw (← buildRec c))
  | .mpReply a b c => buildMpReply rnd h a b c
  | .role a b => buildRole rnd h a b
  | .async a => buildAsync rnd h a
  | .meterMod a b c d => buildMeterMod rnd h a b c d
  | .roleStatus a b c d => buildRoleStatus rnd h a b c d
  | .tableStatus a b => buildTableStatus rnd h a (obj buildRec b)
  | .bundleCtrl a b c d => buildBundleCtrl rnd h a b c d
  | .bundleAdd a b rnd' h' c d => do
    let m ← c.run rnd' h'
    buildBundleAdd rnd h a b (.ok m) d
  | .requestForward rnd' h' c => do
    let m ← c.run rnd' h'
    buildRequestForward rnd h (.ok m)
  | .experimenter a b c => buildExperimenter rnd h a b c
  | .other d => ofp_ rnd h d .any

/-- The message types a call may produce, OpenFlow 1.4.0 section 7.1 (`OFPT_*`); `none` where the caller chooses. -/
def Call.types : Call → Option (List Nat)
  | .hello .. => some [0]
  | .error .. => some [1]
  | .errorExp .. => some [1]
  | .experimenter .. => some [4]
  | .features .. => some [6]
  | .config .. => some [8, 9]
  | .packetIn .. => some [10]
  | .flowRemoved .. => some [11]
  | .portStatus .. => some [12]
  | .packetOut .. => some [13]
  | .flowMod .. => some [14]
  | .groupMod .. => some [15]
  | .portMod .. => some [16]
  | .tableMod .. => some [17]
  | .tableModOf .. => some [17]
  | .mpRequest .. => some [18]
  | .mpRequestOf .. => some [18]
  | .mpReply .. => some [19]
  | .role .. => some [24, 25]
  | .async .. => some [27, 28]
  | .meterMod .. => some [29]
  | .roleStatus .. => some [30]
  | .tableStatus .. => some [31]
  | .requestForward .. => some [32]
  | .bundleCtrl .. => some [33]
  | .bundleAdd .. => some [34]
  | .other .. => none

/-- The types of messages that have a structure of their own in OpenFlow 1.4: all but echo, features, configuration,
barrier and asynchronous configuration requests and barrier replies.  Twenty to twenty-three: barriers, and the queue configuration
messages of earlier versions. -/
def structured : List Nat := [0, 1, 4, 6, 8, 9, 10, 11, 12, 13, 14, 15, 16, 17, 18, 19, 24, 25, 27, 28, 29, 30, 31, 32, 33, 34]

/-- The number of bytes of the body of a multipart request. -/
def reqSize (t : Nat) : Body → Nat
  | .one r => if t ∈ [0, 3, 7, 8, 11, 13] then 0 else r.size
  | .many l => if t = 12 then ((l.map fun | .tup r => r.size | _ => 0)).sum else 0
  | .raw d => if t ∈ [0, 3, 7, 8, 11, 13] then 0 else d.length
  | _ => 0

/-- The number of bytes of the body of a multipart reply. -/
def repSize : Body → Nat
  | .one r => r.size
  | .many l => ((l.map fun | .tup r => r.size | _ => 0)).sum
  | .raw d => d.length
  | _ => 0

/-- The number of bytes of the message. -/
def Call.size : Call → Nat
  | .hello es => 8 + (es.values.map HelloElem.size).sum
  | .error _ _ d => 12 + (d.getD []).length
  | .errorExp _ _ d => 16 + d.length
  | .features .. => 32
  | .config .. => 12
  | .packetIn _ _ _ _ _ mt d => 26 + matchSize mt + d.length
  | .flowRemoved _ _ _ _ _ _ _ _ _ _ mt => 48 + matchSize mt
  | .portStatus .. => 56
  | .packetOut _ _ as d => 24 + actionsSize as + (d.getD []).length
  | .flowMod _ _ _ _ _ _ _ _ _ _ _ _ mt is => 48 + matchSize mt + instrsSize is
  | .groupMod _ _ _ bs => 16 + (bs.values.map Bucket.size).sum
  | .portMod _ _ _ _ ps => 32 + propsSize ps
  | .tableMod _ _ ps => 16 + propsSize ps
  | .tableModOf _ _ ps => 16 + propsSize ps
  | .mpRequest t _ b => 16 + reqSize t b
  | .mpRequestOf _ _ r => 16 + r.size
  | .mpReply _ _ b => 16 + repSize b
  | .role .. => 24
  | .async ps => 8 + propsSize ps
  | .meterMod _ _ _ bs => 16 + 16 * bs.values.length
  | .roleStatus _ _ _ ps => 24 + propsSize ps
  | .tableStatus _ (.tup r) => 16 + r.size
  | .tableStatus _ _ => 16
  | .bundleCtrl _ _ _ ps => 16 + propsSize ps
  | .bundleAdd _ _ _ _ c ps => 16 + c.size + propsSize ps
  | .requestForward _ _ c => 8 + c.size
  | .experimenter _ _ d => 16 + (d.getD []).length
  | .other d => 8 + d.length

/-- The body of a multipart request of type `t` as it comes back. -/
def reqWire (t : Nat) : Body → Body
  | .one r => if t ∈ [0, 3, 7, 8, 11, 13] then .raw [] else .one r.wire
  | .many l => if t = 12 then .many (l.map fun | .tup r => .tup r.wire | e => e) else .raw []
  | .raw d => if t ∈ [0, 3, 7, 8, 11, 13] then .raw [] else .raw d
  | _ => .raw []

/-- The body of a multipart reply of type `t` as it comes back; aggregate statistics in a list. -/
def repWire (t : Nat) : Body → Body
  | .one r => if t = 2 then .many [.tup r.wire] else .one r.wire
  | .many l => .many (l.map fun | .tup r => .tup r.wire | e => e)
  | .raw d => .one (.experimenter (u32 d 0) (u32 d 4) (d.drop 8))
  | _ => .many []

/-- The match of a message as it comes back. -/
def matchWire : Elem MatchT → MatchT
  | .tup m => m.wire m.fields
  | _ => ⟨none, none, .none⟩

/-- The message as it should come back. -/
def Call.wire (rnd : Nat) (h : HdrArg) : Call → Msg
  | c@(.hello es) => .hello ⟨5, 0, c.size, h.xid rnd⟩ (es.values.map HelloElem.wire)
  | c@(.error t cd d) => .error ⟨5, 1, c.size, h.xid rnd⟩ t cd (d.getD [])
  | c@(.errorExp t x d) => .errorExp ⟨5, 1, c.size, h.xid rnd⟩ 0xffff t x d
  | c@(.features d nb nt aux caps) => .features ⟨5, 6, c.size, h.xid rnd⟩ d nb nt aux caps
  | c@(.config f ms) => .config ⟨5, h.type 0, c.size, h.xid rnd⟩ f (ms.getD 0xffff)
  | c@(.packetIn b tl r t ck mt d) => .packetIn ⟨5, 10, c.size, h.xid rnd⟩ b tl r t ck (matchWire mt) d
  | c@(.flowRemoved a b d e f g i j k l mt) => .flowRemoved ⟨5, 11, c.size, h.xid rnd⟩ a b d e f g i j k l (matchWire mt)
  | c@(.portStatus r _) => .portStatus ⟨5, 12, c.size, h.xid rnd⟩ r (.header none none)
  | c@(.packetOut b ip as d) => .packetOut ⟨5, 13, c.size, h.xid rnd⟩ (b.getD 0xffffffff) ip (actionsSize as)
      (as.values.map Action.wire) (d.getD [])
  | c@(.flowMod ck cm t cmd i hd p b op og f im mt is) => .flowMod ⟨5, 14, c.size, h.xid rnd⟩ ck cm t cmd i hd p
      (b.getD 0xffffffff) (op.getD 0xffffffff) (og.getD 0xffffffff) f im (matchWire mt) (is.values.map Instr.wire)
  | c@(.groupMod cmd t g bs) => .groupMod ⟨5, 15, c.size, h.xid rnd⟩ cmd t g (bs.values.map Bucket.wire)
  | c@(.portMod p hw cf mk ps) => .portMod ⟨5, 16, c.size, h.xid rnd⟩ p (inField 6 hw) cf mk (ps.values.map Pr.wire)
  | c@(.tableMod t cf ps) => .tableMod ⟨5, 17, c.size, h.xid rnd⟩ t cf (ps.values.map Pr.wire)
  | c@(.tableModOf t cf ps) => .tableMod ⟨5, 17, c.size, h.xid rnd⟩ t cf (ps.values.map Pr.wire)
  | c@(.mpRequest t f b) => .mpRequest ⟨5, 18, c.size, h.xid rnd⟩ t f (reqWire t b)
  | c@(.mpRequestOf t f r) => .mpRequest ⟨5, 18, c.size, h.xid rnd⟩ t f (.one r.wire)
  | c@(.mpReply t f b) => .mpReply ⟨5, 19, c.size, h.xid rnd⟩ t f (repWire t b)
  | c@(.role r g) => .role ⟨5, h.type 0, c.size, h.xid rnd⟩ r g
  | c@(.async ps) => .async ⟨5, h.type 0, c.size, h.xid rnd⟩ (ps.values.map Pr.wire)
  | c@(.meterMod cmd f mt bs) => .meterMod ⟨5, 29, c.size, h.xid rnd⟩ cmd f mt (bs.values.map Band.wire)
  | c@(.roleStatus r rs g ps) => .roleStatus ⟨5, 30, c.size, h.xid rnd⟩ r rs g (ps.values.map Pr.wire)
  | c@(.tableStatus ..) => .other ⟨5, 31, c.size, h.xid rnd⟩ []
  | c@(.bundleCtrl b t f ps) => .bundleCtrl ⟨5, 33, c.size, h.xid rnd⟩ b t f (ps.values.map Pr.wire)
  | c@(.bundleAdd b f rnd' h' i ps) => .bundleAdd ⟨5, 34, c.size, h.xid rnd⟩ b f (i.wire rnd' h') (ps.values.map Pr.wire)
  | c@(.requestForward rnd' h' i) => .requestForward ⟨5, 32, c.size, h.xid rnd⟩ (i.wire rnd' h')
  | c@(.experimenter x t d) => .experimenter ⟨5, 4, c.size, h.xid rnd⟩ x t (d.getD [])
  | c@(.other d) => .other ⟨5, h.type 0, c.size, h.xid rnd⟩ d

/-- Calls whose messages the library can both build and parse: everything given as tuples of the kinds that can be
parsed, messages inside messages to any depth.  Not among them: PORT_MOD, PORT_STATUS, ROLE_REQUEST, ROLE_REPLY, ROLE_STATUS, TABLE_STATUS, experimenter errors,
bundle messages with properties, multipart messages with table or port or queue statistics or descriptions, meter
requests, aggregate requests.  The header of METER_MOD has to be given with the right length. -/
def Call.Parseable (h : HdrArg) : Call → Prop
  | .hello es => es.All HelloElem.Parseable
  | .error .. => True
  | .features .. => True
  | .config .. => True
  | .packetIn _ _ _ _ _ mt _ => ∃ m, mt = .tup m
  | .flowRemoved _ _ _ _ _ _ _ _ _ _ mt => ∃ m, mt = .tup m
  | .packetOut _ _ as _ => as.All Action.Parseable
  | .flowMod _ _ _ _ _ _ _ _ _ _ _ _ mt is => (∃ m, mt = .tup m) ∧ is.All Instr.Parseable
  | .groupMod _ _ _ bs => bs.All Bucket.Parseable
  | .tableModOf _ _ ps => ps.All Pr.ForTable
  | .mpRequest t _ body => t ∈ [0, 3, 7, 8, 11, 13] ∨ (t = 14 ∧ body = .raw []) ∨ (t = 0xffff ∧ ∃ d, body = .raw d) ∨
      (∃ r, body = .one r ∧ r.requestType = some t ∧ r.Parseable) ∨
      (t = 12 ∧ ∃ l : List Rec, body = .many (l.map .tup) ∧ ∀ r ∈ l, r.replyType = some 12 ∧ r.Parseable)
  | .mpRequestOf t _ r => r.requestType = some t ∧ r.Parseable
  | .mpReply t _ body => (t ∈ [0, 2, 8, 11] ∧ ∃ r, body = .one r ∧ r.replyType = some t ∧ r.Parseable) ∨
      (t ∈ [1, 6, 7, 9, 10, 12] ∧ ∃ l : List Rec, body = .many (l.map .tup) ∧ ∀ r ∈ l, r.replyType = some t ∧ r.Parseable) ∨
      (t = 0xffff ∧ ∃ d, body = .raw d ∧ 8 ≤ d.length)
  | .async ps => ps.All Pr.ForAsync
  | .meterMod _ _ _ bs => bs.All Band.Parseable ∧ (∀ b, h = .raw b → 8 ≤ b.length) ∧ version h = 5 ∧ h.type 0 = 29 ∧
      givenLength h = 16 + 16 * bs.values.length
  | .bundleCtrl _ _ _ ps => ps = .none ∨ ps = .items []
  | .bundleAdd _ _ _ h' c ps => c.Parseable h' ∧ (ps = .none ∨ ps = .items [])
  | .requestForward _ h' c => c.Parseable h'
  | .experimenter .. => True
  | .other _ => h.type 0 ∉ structured
  | _ => False

end Twink.Of14
