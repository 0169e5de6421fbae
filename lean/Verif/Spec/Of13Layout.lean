import Verif.Spec.Of13Calls
import Verif.Spec.Of13
import Verif.Spec.Wire

/-!
# The wire format of OpenFlow 1.3

Written down from the structures in section 7 of the OpenFlow 1.3.2 switch specification (`struct ofp_match`,
`ofp_action_output`, ...), byte by byte, with no reference to the builders.
-/

namespace Twink.Of13
open Spec

/-- The bytes of one structure. -/
def Elem.bytes (f : α → Bytes) : Elem α → Bytes
  | .raw b => b
  | .tup a => f a
  | .bad => []

/-- The bytes of a list of structures. -/
def Seq.bytes (f : α → Bytes) : Seq α → Bytes
  | .raw b => b
  | .items l => (l.map (Elem.bytes f)).flatten
  | _ => []

/-- NULs up to the next multiple of eight. -/
def pad8 (b : Bytes) : Bytes := b ++ zeros (up8 b.length - b.length)

/-- `struct ofp_match`: the length excludes the padding. -/
def MatchT.bytes (m : MatchT) : Bytes :=
  pad8 (be16 (m.type.getD 1) ++ be16 (4 + m.fields.length) ++ m.fields)

/-- `struct ofp_action_*`: the length includes the padding. -/
def Action.bytes : Action → Bytes
  | .header t l => be16 (t.getD 0) ++ be16 (l.getD 0) ++ zeros 4
  | .output _ _ port maxLen => be16 0 ++ be16 16 ++ be32 port ++ be16 maxLen ++ zeros 6
  | .group _ _ g => be16 22 ++ be16 8 ++ be32 g
  | .setQueue _ _ queue => be16 21 ++ be16 8 ++ be32 queue
  | .mplsTtl _ _ ttl => be16 15 ++ be16 8 ++ b8 ttl ++ zeros 3
  | .nwTtl _ _ ttl => be16 23 ++ be16 8 ++ b8 ttl ++ zeros 3
  | .push t _ ethertype => be16 (t.getD 0) ++ be16 8 ++ be16 ethertype ++ zeros 2
  | .popMpls _ _ ethertype => be16 20 ++ be16 8 ++ be16 ethertype ++ zeros 2
  | .setField _ _ field => pad8 (be16 25 ++ be16 (up8 (4 + field.length)) ++ field)
  | .experimenter _ _ exp data => pad8 (be16 0xffff ++ be16 (up8 (8 + data.length)) ++ be32 exp ++ data)

/-- `struct ofp_instruction_*` -/
def Instr.bytes : Instr → Bytes
  | .header t l => be16 (t.getD 0) ++ be16 (l.getD 0)
  | .gotoTable _ _ table => be16 1 ++ be16 8 ++ b8 table ++ zeros 3
  | .writeMetadata _ _ md mask => be16 2 ++ be16 24 ++ zeros 4 ++ be64 md ++ be64 mask
  | .actions t _ s => be16 (t.getD 0) ++ be16 (8 + (s.bytes Action.bytes).length) ++ zeros 4 ++ s.bytes Action.bytes
  | .meter _ _ m => be16 6 ++ be16 8 ++ be32 m
  | .experimenter _ _ exp data => be16 0xffff ++ be16 (8 + data.length) ++ be32 exp ++ data

/-- `struct ofp_bucket` -/
def Bucket.bytes (b : Bucket) : Bytes :=
  pad8 (be16 (up8 (16 + (b.actions.bytes Action.bytes).length)) ++ be16 b.weight ++ be32 b.watchPort ++ be32 b.watchGroup ++ zeros 4 ++
    b.actions.bytes Action.bytes)

/-- `struct ofp_meter_band_*` -/
def Band.bytes : Band → Bytes
  | .header t l rate burst => be16 (t.getD 0) ++ be16 (l.getD 0) ++ be32 rate ++ be32 burst
  | .drop _ _ rate burst => be16 1 ++ be16 16 ++ be32 rate ++ be32 burst ++ zeros 4
  | .dscp _ _ rate burst prec => be16 2 ++ be16 16 ++ be32 rate ++ be32 burst ++ b8 prec ++ zeros 3
  | .experimenter _ _ rate burst exp data =>
    be16 0xffff ++ be16 (16 + data.length) ++ be32 rate ++ be32 burst ++ be32 exp ++ data

/-- The bytes of a name. -/
def Text.bytes : Text → Bytes
  | .str b => b
  | .uni b => b

/-- `struct ofp_port` -/
def PortT.bytes (p : PortT) : Bytes :=
  be32 p.portNo ++ zeros 4 ++ p.hwAddr ++ zeros 2 ++ p.name.bytes ++ zeros (16 - p.name.bytes.length) ++ be32 p.config ++ be32 p.state ++
    be32 p.curr ++ be32 p.advertised ++ be32 p.supported ++ be32 p.peer ++ be32 p.currSpeed ++ be32 p.maxSpeed

/-- `struct ofp_queue_prop_*` -/
def QProp.bytes : QProp → Bytes
  | .header p l => be16 (p.getD 0) ++ be16 (l.getD 8) ++ zeros 4
  | .minRate _ rate => be16 1 ++ be16 16 ++ zeros 4 ++ be16 rate ++ zeros 6
  | .maxRate _ rate => be16 2 ++ be16 16 ++ zeros 4 ++ be16 rate ++ zeros 6
  | .experimenter _ exp data => be16 0xffff ++ be16 (16 + data.length) ++ zeros 4 ++ be32 exp ++ zeros 4 ++ data

/-- `struct ofp_packet_queue` -/
def Queue.bytes (q : Queue) : Bytes :=
  be32 q.queueId ++ be32 q.port ++ be16 (16 + (q.properties.bytes QProp.bytes).length) ++ zeros 6 ++ q.properties.bytes QProp.bytes

/-- 32-bit numbers. -/
def Ints.bytes : Ints → Bytes
  | .list l => (l.map be32).flatten
  | .raw b => b
  | _ => []

/-- Four 32-bit numbers, zeros by default. -/
def Ints.bytes4 : Ints → Bytes
  | .none => zeros 16
  | i => i.bytes

/-- `struct ofp_hello_elem_*`: the length excludes the padding. -/
def HelloElem.bytes : HelloElem → Bytes
  | .header t l => be16 (t.getD 0) ++ be16 (l.getD 0)
  | .versionBitmap _ _ b => pad8 (be16 1 ++ be16 (4 + b.bytes.length) ++ b.bytes)

/-- `struct ofp_table_feature_prop_*`: the length excludes the padding. -/
def TfProp.bytes : TfProp → Bytes
  | .header t l => be16 (t.getD 0) ++ be16 (l.getD 0)
  | .instructions t _ s => pad8 (be16 (t.getD 0) ++ be16 (4 + (s.bytes Instr.bytes).length) ++ s.bytes Instr.bytes)
  | .nextTables t _ s => pad8 (be16 (t.getD 0) ++ be16 (4 + (s.bytes fun _ => []).length) ++ s.bytes fun _ => [])
  | .actions t _ s => pad8 (be16 (t.getD 0) ++ be16 (4 + (s.bytes Action.bytes).length) ++ s.bytes Action.bytes)
  | .oxm t _ i => pad8 (be16 (t.getD 0) ++ be16 (4 + i.bytes.length) ++ i.bytes)
  | .experimenter t _ e et d => pad8 (be16 (t.getD 0) ++ be16 (12 + d.length) ++ be32 e ++ be32 et ++ d)

/-- Two counters: `struct ofp_bucket_counter`, `struct ofp_meter_band_stats` -/
def pairBytes (p : Nat × Nat) : Bytes := be64 p.1 ++ be64 p.2

/-- The bodies of multipart messages, e.g. `struct ofp_flow_stats` -/
def Rec.bytes : Rec → Bytes
  | .desc a b c d e => inField 256 (a.getD []) ++ inField 256 (b.getD []) ++ inField 256 (c.getD []) ++ inField 32 (d.getD []) ++
      inField 256 (e.getD [])
  | .flowStatsReq t p g c cm mt => b8 (t.getD 0xff) ++ zeros 3 ++ be32 (p.getD 0xffffffff) ++ be32 (g.getD 0xffffffff) ++ zeros 4 ++
      be64 (c.getD 0) ++ be64 (cm.getD 0) ++ (mt.getD (.tup ⟨none, none, .none⟩)).bytes MatchT.bytes
  | .flowStats _ t ds dn p i h f c pc bc mt is =>
      be16 (48 + (mt.bytes MatchT.bytes).length + (is.bytes Instr.bytes).length) ++ b8 t ++ zeros 1 ++ be32 ds ++ be32 dn ++ be16 p ++
      be16 i ++ be16 h ++ be16 f ++ zeros 4 ++ be64 c ++ be64 pc ++ be64 bc ++ mt.bytes MatchT.bytes ++ is.bytes Instr.bytes
  | .aggregateReq t p g c cm mt => b8 (t.getD 0xff) ++ zeros 3 ++ be32 (p.getD 0xffffffff) ++ be32 (g.getD 0xffffffff) ++ zeros 4 ++
      be64 (c.getD 0) ++ be64 (cm.getD 0) ++ (mt.getD (.tup ⟨none, none, .none⟩)).bytes MatchT.bytes
  | .aggregate a b c => be64 a ++ be64 b ++ be32 c ++ zeros 4
  | .tableStats t a l m => b8 t ++ zeros 3 ++ be32 a ++ be64 l ++ be64 m
  | .tableFeatures _ t name mm mw c me ps => be16 (64 + (ps.bytes TfProp.bytes).length) ++ b8 t ++ zeros 5 ++ inField 32 name ++
      be64 mm ++ be64 mw ++ be32 c ++ be32 me ++ ps.bytes TfProp.bytes
  | .portStatsReq p => be32 (p.getD 0xffffffff) ++ zeros 4
  | .portStats p cs ds dn => be32 p ++ zeros 4 ++ (cs.map be64).flatten ++ be32 ds ++ be32 dn
  | .queueStatsReq p q => be32 (p.getD 0xffffffff) ++ be32 (q.getD 0xffffffff)
  | .queueStats p q a b c ds dn => be32 p ++ be32 q ++ be64 a ++ be64 b ++ be64 c ++ be32 ds ++ be32 dn
  | .groupStatsReq g => be32 (g.getD 0xfffffffc) ++ zeros 4
  | .groupStats _ g r p b ds dn cs => be16 (40 + (cs.bytes pairBytes).length) ++ zeros 2 ++ be32 g ++ be32 r ++ zeros 4 ++ be64 p ++
      be64 b ++ be32 ds ++ be32 dn ++ cs.bytes pairBytes
  | .groupDesc _ t g bs => be16 (8 + (bs.bytes Bucket.bytes).length) ++ b8 t ++ zeros 1 ++ be32 g ++ bs.bytes Bucket.bytes
  | .groupFeatures t c ms as => be32 t ++ be32 c ++ ms.bytes4 ++ as.bytes4
  | .meterReq m => be32 m ++ zeros 4
  | .meterStats m _ f p b ds dn bs => be32 m ++ be16 (40 + (bs.bytes pairBytes).length) ++ zeros 6 ++ be32 f ++ be64 p ++ be64 b ++ be32 ds ++ be32 dn ++
      bs.bytes pairBytes
  | .meterConfig _ f m bs => be16 (8 + (bs.bytes Band.bytes).length) ++ be16 f ++ be32 m ++ bs.bytes Band.bytes
  | .meterFeatures m bt c mb mc => be32 m ++ be32 bt ++ be32 c ++ b8 mb ++ b8 mc ++ zeros 2
  | .port p => p.bytes
  | .experimenter e t d => be32 e ++ be32 t ++ d

/-- The only length field that the builders copy from their arguments is that of the meter statistics: it has to be
given, and right. -/
def Rec.RightLen : Rec → Prop
  | .meterStats _ l _ _ _ _ _ bs => l = some (40 + (bs.bytes pairBytes).length)
  | _ => True

/-- A multipart body. -/
def Body.bytes : Body → Bytes
  | .raw b => b
  | .one r => r.bytes
  | .many l => (l.map (Elem.bytes Rec.bytes)).flatten
  | _ => []

/-- `Rec.RightLen` for all records of a body. -/
def Body.RightLen : Body → Prop
  | .one r => r.RightLen
  | .many l => ∀ r, .tup r ∈ l → r.RightLen
  | _ => True

/-- Everything after the header. -/
def Call.body : Call → Bytes
  | .hello es => es.bytes HelloElem.bytes
  | .error t c d => be16 t ++ be16 c ++ d.getD []
  | .features d nb nt aux caps => be64 d ++ be32 nb ++ b8 nt ++ b8 aux ++ zeros 2 ++ be32 caps ++ be32 0
  | .config fl miss => be16 fl ++ be16 (miss.getD 0xffff)
  | .packetIn b tl r t c mt d => be32 b ++ be16 tl ++ b8 r ++ b8 t ++ be64 c ++ mt.bytes MatchT.bytes ++ zeros 2 ++ d
  | .flowRemoved c p r t ds dn i h pc bc mt => be64 c ++ be16 p ++ b8 r ++ b8 t ++ be32 ds ++ be32 dn ++ be16 i ++ be16 h ++
      be64 pc ++ be64 bc ++ mt.bytes MatchT.bytes
  | .portStatus r p => b8 r ++ zeros 7 ++ p.bytes PortT.bytes
  | .packetOut b ip as d => be32 (b.getD 0xffffffff) ++ be32 ip ++ be16 (as.bytes Action.bytes).length ++ zeros 6 ++
      as.bytes Action.bytes ++ d.getD []
  | .flowMod c cm t cmd i h p b op og f mt is => be64 c ++ be64 cm ++ b8 t ++ b8 cmd ++ be16 i ++ be16 h ++ be16 p ++
      be32 (b.getD 0xffffffff) ++ be32 (op.getD 0xffffffff) ++ be32 (og.getD 0xffffffff) ++ be16 f ++ zeros 2 ++
      mt.bytes MatchT.bytes ++ is.bytes Instr.bytes
  | .groupMod c t g bs => be16 c ++ b8 t ++ zeros 1 ++ be32 g ++ bs.bytes Bucket.bytes
  | .portMod p hw c m a => be32 p ++ zeros 4 ++ inField 6 hw ++ zeros 2 ++ be32 c ++ be32 m ++ be32 a ++ zeros 4
  | .tableMod t c => b8 t ++ zeros 3 ++ be32 c
  | .mpRequest t f b => be16 t ++ be16 f ++ zeros 4 ++ (if t ∈ [0, 3, 7, 8, 11, 13] then [] else b.bytes)
  | .mpReply t f b => be16 t ++ be16 f ++ zeros 4 ++ b.bytes
  | .queueReq p => be32 p ++ zeros 4
  | .queueRep p qs => be32 p ++ zeros 4 ++ qs.bytes Queue.bytes
  | .role r g => be32 r ++ zeros 4 ++ be64 g
  | .async a b c => (a.map be32).flatten ++ (b.map be32).flatten ++ (c.map be32).flatten
  | .meterMod c f m bs => be16 c ++ be16 f ++ be32 m ++ bs.bytes Band.bytes
  | .experimenter e t d => be32 e ++ be32 t ++ d

/-- The body of a multipart message is a list where the message type wants a list. -/
def Call.WellShaped : Call → Prop
  | .mpRequest t _ b => (t = 12 → ∀ r, b ≠ .one r) ∧ b.RightLen
  | .mpReply t _ b => (t ∈ [1, 3, 4, 5, 6, 7, 9, 10, 12, 13] → ∀ r, b ≠ .one r) ∧ b.RightLen
  | _ => True

end Twink.Of13
