import Verif.Spec.Of14Calls
import Verif.Spec.Of13Layout

/-!
# The wire format of OpenFlow 1.4

Written down from the structures in section 7 of the OpenFlow 1.4.0 switch specification, byte by byte, with no
reference to the builders.  Matches, meter bands and hello elements are those of OpenFlow 1.3.
-/

namespace Twink.Of14
open Spec Of13

/-- All the tuples of a list have the property. -/
def _root_.Twink.Of13.Seq.Each (P : α → Prop) : Seq α → Prop
  | .items l => ∀ a, .tup a ∈ l → P a
  | _ => True

/-- `struct ofp_action_*`: the length includes the padding. -/
def Action.bytes : Action → Bytes
  | .header t l => be16 (t.getD 0) ++ be16 (l.getD 0)
  | .output _ _ port maxLen => be16 0 ++ be16 16 ++ be32 port ++ be16 maxLen ++ zeros 6
  | .group _ _ g => be16 22 ++ be16 8 ++ be32 g
  | .setQueue _ _ queue => be16 21 ++ be16 8 ++ be32 queue
  | .mplsTtl _ _ ttl => be16 15 ++ be16 8 ++ b8 ttl ++ zeros 3
  | .generic t _ => be16 (t.getD 0) ++ be16 8 ++ zeros 4
  | .nwTtl _ _ ttl => be16 23 ++ be16 8 ++ b8 ttl ++ zeros 3
  | .push t _ ethertype => be16 (t.getD 0) ++ be16 8 ++ be16 ethertype ++ zeros 2
  | .popMpls _ _ ethertype => be16 20 ++ be16 8 ++ be16 ethertype ++ zeros 2
  | .setField _ _ field => pad8 (be16 25 ++ be16 (up8 (4 + field.length)) ++ field)
  | .expHeader t l exp => be16 (t.getD 0) ++ be16 (l.getD 0) ++ be32 exp
  | .experimenter _ _ exp data => pad8 (be16 0xffff ++ be16 (up8 (8 + data.length)) ++ be32 exp ++ data)

/-- `struct ofp_instruction_*` -/
def Instr.bytes : Instr → Bytes
  | .header t l => be16 (t.getD 0) ++ be16 (l.getD 0)
  | .gotoTable _ _ table => be16 1 ++ be16 8 ++ b8 table ++ zeros 3
  | .writeMetadata _ _ md mask => be16 2 ++ be16 24 ++ zeros 4 ++ be64 md ++ be64 mask
  | .actions t _ s => be16 (t.getD 0) ++ be16 (8 + (s.bytes Action.bytes).length) ++ zeros 4 ++ s.bytes Action.bytes
  | .meter _ _ m => be16 6 ++ be16 8 ++ be32 m
  | .experimenter _ _ exp data => be16 0xffff ++ be16 (8 + data.length) ++ be32 exp ++ data

/-- The actions given are whole actions, which come in multiples of eight bytes. -/
def Instr.Whole : Instr → Prop
  | .actions _ _ s => 8 ∣ (s.bytes Action.bytes).length
  | _ => True

/-- `struct ofp_bucket` -/
def Bucket.bytes (b : Bucket) : Bytes :=
  pad8 (be16 (up8 (16 + (b.actions.bytes Action.bytes).length)) ++ be16 b.weight ++ be32 b.watchPort ++ be32 b.watchGroup ++ zeros 4 ++
    b.actions.bytes Action.bytes)

/-- Experimenter properties: the length excludes the padding. -/
def expBytes (exp expType : Nat) (data : Option Bytes) : Bytes :=
  pad8 (be16 0xffff ++ be16 (12 + (data.getD []).length) ++ be32 exp ++ be32 expType ++ data.getD [])

/-- A signed number as the number with the same bits (two's complement). -/
def twos (n : Int) : Nat := (n % 4294967296).toNat

/-- `struct ofp_*_prop_*` -/
def Pr.bytes : Pr → Bytes
  | .header t l => be16 (t.getD 0) ++ be16 (l.getD 0)
  | .portEthernet _ _ a b c d e f => be16 0 ++ be16 32 ++ zeros 4 ++ be32 a ++ be32 b ++ be32 c ++ be32 d ++ be32 e ++ be32 f
  | .portOptical _ _ a b c d e f g x y => be16 1 ++ be16 40 ++ zeros 4 ++ be32 a ++ be32 b ++ be32 c ++ be32 d ++ be32 e ++ be32 f ++
      be32 g ++ be16 x ++ be16 y
  | .portExp _ _ e t d => expBytes e t d
  | .eviction _ _ f => be16 2 ++ be16 8 ++ be32 f
  | .vacancy _ _ d u v => be16 3 ++ be16 8 ++ b8 d ++ b8 u ++ b8 v ++ zeros 1
  | .tableExp _ _ e t d => expBytes e t d
  | .pmEthernet _ _ a => be16 0 ++ be16 8 ++ be32 a
  | .pmOptical _ _ c f o s p => be16 1 ++ be16 24 ++ be32 c ++ be32 f ++ be32 (twos o) ++ be32 s ++ be32 p
  | .pmExp _ _ e t d => expBytes e t d
  | .psEthernet _ _ a b c d => be16 0 ++ be16 40 ++ zeros 4 ++ be64 a ++ be64 b ++ be64 c ++ be64 d
  | .psOptical _ _ a b c d e f g w x y z => be16 1 ++ be16 44 ++ zeros 4 ++ be32 a ++ be32 b ++ be32 c ++ be32 d ++ be32 e ++ be32 f ++
      be32 g ++ be16 w ++ be16 x ++ be16 y ++ be16 z
  | .psExp _ _ e t d => expBytes e t d
  | .qsExp _ _ e t d => expBytes e t d
  | .qdHeader t l => be16 (t.getD 0) ++ be16 (l.getD 0)
  | .minRate _ _ r => be16 1 ++ be16 8 ++ be16 r ++ zeros 2
  | .maxRate _ _ r => be16 2 ++ be16 8 ++ be16 r ++ zeros 2
  | .qdExp _ _ e t d => expBytes e t d
  | .bundleExp _ _ e t d => expBytes e t d
  | .reasons t _ m => be16 (t.getD 0) ++ be16 8 ++ be32 m
  | .asyncExp _ _ e t d => expBytes e t d
  | .roleExp _ _ e t d => expBytes e t d

/-- Properties the builders get right: eviction only if its length is given, experimenter properties of port statistics
only if they need no padding, no bare headers of queue properties. -/
def Pr.Right : Pr → Prop
  | .eviction _ l _ => l = some 8
  | .psExp _ _ _ _ d => 8 ∣ 12 + (d.getD []).length
  | .qdHeader .. => False
  | _ => True

/-- `struct ofp_port` -/
def PortT.bytes (p : PortT) : Bytes :=
  be32 p.portNo ++ be16 (40 + (p.properties.bytes Pr.bytes).length) ++ zeros 2 ++ p.hwAddr ++ zeros 2 ++ p.name ++
    zeros (16 - p.name.length) ++ be32 p.config ++ be32 p.state ++ p.properties.bytes Pr.bytes

/-- `struct ofp_instruction_id`, `struct ofp_action_id`: only experimenters have data. -/
def IdT.bytes (i : IdT) : Bytes :=
  if i.type = 0xffff then be16 i.type ++ be16 (4 + (i.data.getD []).length) ++ i.data.getD [] else be16 i.type ++ be16 4

/-- The numbers of tables. -/
def TableIds.bytes : TableIds → Bytes
  | .raw b => b
  | .strs l => l.flatten
  | .ints l => (l.map b8).flatten
  | _ => []

/-- `struct ofp_table_feature_prop_*`: the length excludes the padding. -/
def TfProp.bytes : TfProp → Bytes
  | .header t l => be16 (t.getD 0) ++ be16 (l.getD 0)
  | .instructions t _ s => pad8 (be16 (t.getD 0) ++ be16 (4 + (s.bytes IdT.bytes).length) ++ s.bytes IdT.bytes)
  | .tables t _ s => pad8 (be16 (t.getD 0) ++ be16 (4 + s.bytes.length) ++ s.bytes)
  | .actions t _ s => pad8 (be16 (t.getD 0) ++ be16 (4 + (s.bytes IdT.bytes).length) ++ s.bytes IdT.bytes)
  | .oxm t _ i => pad8 (be16 (t.getD 0) ++ be16 (4 + i.bytes.length) ++ i.bytes)
  | .experimenter t _ e et d => pad8 (be16 (t.getD 0) ++ be16 (12 + d.length) ++ be32 e ++ be32 et ++ d)

/-- The builder gives data to instructions of type 0xfffe too. -/
def TfProp.Right : TfProp → Prop
  | .instructions _ _ s => s.Each fun i => i.type = 0xfffe → i.data.getD [] = []
  | _ => True

/-- The bodies of multipart messages, e.g. `struct ofp_flow_stats`; the importance of flows is not among the arguments. -/
def Rec.bytes : Rec → Bytes
  | .desc a b c d e => inField 256 (a.getD []) ++ inField 256 (b.getD []) ++ inField 256 (c.getD []) ++ inField 32 (d.getD []) ++
      inField 256 (e.getD [])
  | .flowStatsReq t p g c cm mt => b8 (t.getD 0xff) ++ zeros 3 ++ be32 (p.getD 0xffffffff) ++ be32 (g.getD 0xffffffff) ++ zeros 4 ++
      be64 (c.getD 0) ++ be64 (cm.getD 0) ++ (mt.getD (.tup ⟨none, none, .none⟩)).bytes MatchT.bytes
  | .flowStats _ t ds dn p i h f c pc bc mt is =>
      be16 (48 + (mt.bytes MatchT.bytes).length + (is.bytes Instr.bytes).length) ++ b8 t ++ zeros 1 ++ be32 ds ++ be32 dn ++ be16 p ++
      be16 i ++ be16 h ++ be16 f ++ zeros 4 ++ be64 c ++ be64 pc ++ be64 bc ++ mt.bytes MatchT.bytes ++ is.bytes Instr.bytes
  | .aggregateReq t p g c cm mt => b8 (t.getD 0xff) ++ zeros 3 ++ be32 (p.getD 0xffffffff) ++ be32 (g.getD 0xffffffff) ++ zeros 4 ++
      be64 (c.getD 0) ++ be64 (cm.getD 0) ++ mt.bytes MatchT.bytes
  | .aggregate a b c => be64 a ++ be64 b ++ be32 c ++ zeros 4
  | .tableStats t a l m => b8 t ++ zeros 3 ++ be32 a ++ be64 l ++ be64 m
  | .tableDesc _ t c ps => be16 (8 + (ps.bytes Pr.bytes).length) ++ b8 t ++ zeros 1 ++ be32 c ++ ps.bytes Pr.bytes
  | .tableFeatures _ t name mm mw c me ps => be16 (64 + (ps.bytes TfProp.bytes).length) ++ b8 t ++ zeros 5 ++ inField 32 name ++
      be64 mm ++ be64 mw ++ be32 c ++ be32 me ++ ps.bytes TfProp.bytes
  | .portStatsReq p => be32 (p.getD 0xffffffff) ++ zeros 4
  | .portStats _ p ds dn cs ps => be16 (80 + (ps.bytes Pr.bytes).length) ++ zeros 2 ++ be32 p ++ be32 ds ++ be32 dn ++
      (cs.map be64).flatten ++ ps.bytes Pr.bytes
  | .queueStatsReq p q => be32 (p.getD 0xffffffff) ++ be32 (q.getD 0xffffffff)
  | .queueStats _ p q a b c ds dn ps => be16 (48 + (ps.bytes Pr.bytes).length) ++ zeros 6 ++ be32 p ++ be32 q ++ be64 a ++ be64 b ++
      be64 c ++ be32 ds ++ be32 dn ++ ps.bytes Pr.bytes
  | .queueDescReq p q => be32 (p.getD 0xffffffff) ++ be32 (q.getD 0xffffffff)
  | .queueDesc p q _ ps => be32 p ++ be32 q ++ be16 (16 + (ps.bytes Pr.bytes).length) ++ zeros 6 ++ ps.bytes Pr.bytes
  | .groupStatsReq g => be32 (g.getD 0xfffffffc) ++ zeros 4
  | .groupStats _ g r p b ds dn cs => be16 (40 + (cs.bytes pairBytes).length) ++ zeros 2 ++ be32 g ++ be32 r ++ zeros 4 ++ be64 p ++
      be64 b ++ be32 ds ++ be32 dn ++ cs.bytes pairBytes
  | .groupDesc _ t g bs => be16 (8 + (bs.bytes Bucket.bytes).length) ++ b8 t ++ zeros 1 ++ be32 g ++ bs.bytes Bucket.bytes
  | .groupFeatures t c ms as => be32 t ++ be32 c ++ ms.bytes4 ++ as.bytes4
  | .meterReq m => be32 m ++ zeros 4
  | .meterStats m _ f p b ds dn bs => be32 m ++ be16 (40 + (bs.bytes pairBytes).length) ++ zeros 6 ++ be32 f ++ be64 p ++ be64 b ++
      be32 ds ++ be32 dn ++ bs.bytes pairBytes
  | .meterConfig _ f m bs => be16 (8 + (bs.bytes Band.bytes).length) ++ be16 f ++ be32 m ++ bs.bytes Band.bytes
  | .meterFeatures m bt c mb mc => be32 m ++ be32 bt ++ be32 c ++ b8 mb ++ b8 mc ++ zeros 2
  | .flowMonitorReq m p g f t c mt => be32 m ++ be32 p ++ be32 g ++ be16 f ++ b8 t ++ b8 c ++ mt.bytes MatchT.bytes
  | .updateHeader l e => be16 l ++ be16 e
  | .updateFull _ e t r i h p c mt is =>
      be16 (24 + (mt.bytes MatchT.bytes).length + (is.bytes Instr.bytes).length) ++ be16 e ++ b8 t ++ b8 r ++ be16 i ++ be16 h ++ be16 p ++
      zeros 4 ++ be64 c ++ mt.bytes MatchT.bytes ++ is.bytes Instr.bytes
  | .updateAbbrev _ _ x => be16 8 ++ be16 4 ++ be32 x
  | .updatePaused _ e => be16 8 ++ be16 e ++ zeros 4
  | .port p => p.bytes
  | .prop p => p.bytes
  | .experimenter e t d => be32 e ++ be32 t ++ d

/-- Records the builders get right: not flow updates; ports only without properties; meter statistics only if the length
is given, and right. -/
def Rec.Right : Rec → Prop
  | .flowStats _ _ _ _ _ _ _ _ _ _ _ _ is => is.Each Instr.Whole
  | .tableDesc _ _ _ ps => ps.Each Pr.Right
  | .tableFeatures _ _ _ _ _ _ _ ps => ps.Each TfProp.Right
  | .portStats _ _ _ _ _ ps => ps.Each Pr.Right
  | .queueStats _ _ _ _ _ _ _ _ ps => ps.Each Pr.Right
  | .queueDesc _ _ _ ps => ps.Each Pr.Right
  | .meterStats _ l _ _ _ _ _ bs => l = some (40 + (bs.bytes pairBytes).length)
  | .updateFull .. => False
  | .port p => p.properties = .none ∨ p.properties = .items []
  | .prop p => p.Right
  | _ => True

/-- A multipart body. -/
def Body.bytes : Body → Bytes
  | .raw b => b
  | .one r => r.bytes
  | .many l => (l.map (Elem.bytes Rec.bytes)).flatten
  | _ => []

/-- `Rec.Right` for all records of a body. -/
def Body.Right : Body → Prop
  | .one r => r.Right
  | .many l => ∀ r, .tup r ∈ l → r.Right
  | _ => True

/-- The type in the header: the only type of the call, or else the one asked for by the header. -/
def Call.theType (c : Call) (h : HdrArg) : Nat :=
  match c.types with
  | some [t] => t
  | _ => h.type 0

/-- Everything after the header. -/
def Call.body : Call → Bytes
  | .hello es => es.bytes HelloElem.bytes
  | .error t c d => be16 t ++ be16 c ++ d.getD []
  | .errorExp c e d => be16 0xffff ++ be16 c ++ be32 e ++ d
  | .features d nb nt aux caps => be64 d ++ be32 nb ++ b8 nt ++ b8 aux ++ zeros 2 ++ be32 caps ++ be32 0
  | .config fl miss => be16 fl ++ be16 (miss.getD 0xffff)
  | .packetIn b tl r t c mt d => be32 b ++ be16 tl ++ b8 r ++ b8 t ++ be64 c ++ mt.bytes MatchT.bytes ++ zeros 2 ++ d
  | .flowRemoved c p r t ds dn i h pc bc mt => be64 c ++ be16 p ++ b8 r ++ b8 t ++ be32 ds ++ be32 dn ++ be16 i ++ be16 h ++
      be64 pc ++ be64 bc ++ mt.bytes MatchT.bytes
  | .portStatus r p => b8 r ++ zeros 7 ++ p.bytes PortT.bytes
  | .packetOut b ip as d => be32 (b.getD 0xffffffff) ++ be32 ip ++ be16 (as.bytes Action.bytes).length ++ zeros 6 ++
      as.bytes Action.bytes ++ d.getD []
  | .flowMod c cm t cmd i h p b op og f im mt is => be64 c ++ be64 cm ++ b8 t ++ b8 cmd ++ be16 i ++ be16 h ++ be16 p ++
      be32 (b.getD 0xffffffff) ++ be32 (op.getD 0xffffffff) ++ be32 (og.getD 0xffffffff) ++ be16 f ++ be16 im ++
      mt.bytes MatchT.bytes ++ is.bytes Instr.bytes
  | .groupMod c t g bs => be16 c ++ b8 t ++ zeros 1 ++ be32 g ++ bs.bytes Bucket.bytes
  | .portMod p hw c m ps => be32 p ++ zeros 4 ++ inField 6 hw ++ zeros 2 ++ be32 c ++ be32 m ++ ps.bytes Pr.bytes
  | .tableMod t c ps => b8 t ++ zeros 3 ++ be32 c ++ ps.bytes Pr.bytes
  | .tableModOf t c ps => b8 t ++ zeros 3 ++ be32 c ++ ps.bytes Pr.bytes
  | .mpRequest t f b => be16 t ++ be16 f ++ zeros 4 ++ (if t ∈ [0, 3, 7, 8, 11, 13] then [] else b.bytes)
  | .mpRequestOf t f r => be16 t ++ be16 f ++ zeros 4 ++ (if t ∈ [0, 3, 7, 8, 11, 13] then [] else r.bytes)
  | .mpReply t f b => be16 t ++ be16 f ++ zeros 4 ++ b.bytes
  | .role r g => be32 r ++ zeros 4 ++ be64 g
  | .async ps => ps.bytes Pr.bytes
  | .meterMod c f m bs => be16 c ++ be16 f ++ be32 m ++ bs.bytes Band.bytes
  | .roleStatus r rs g ps => be32 r ++ b8 rs ++ zeros 3 ++ be64 g ++ ps.bytes Pr.bytes
  | .tableStatus r t => b8 r ++ zeros 7 ++ t.bytes Rec.bytes
  | .bundleCtrl b t f ps => be32 b ++ be16 t ++ be16 f ++ ps.bytes Pr.bytes
  | .bundleAdd b f rnd h c ps =>
      be32 b ++ zeros 2 ++ be16 f ++
      (if ps.bytes Pr.bytes = [] then ofHeader 5 (c.theType h) (8 + c.body.length) (h.xid rnd) ++ c.body
       else pad8 (ofHeader 5 (c.theType h) (8 + c.body.length) (h.xid rnd) ++ c.body)) ++
      ps.bytes Pr.bytes
  | .requestForward rnd h c => ofHeader 5 (c.theType h) (8 + c.body.length) (h.xid rnd) ++ c.body
  | .experimenter e t d => be32 e ++ be32 t ++ d.getD []
  | .other d => d

/-- Calls the builders get right.  Not among them: ROLE_STATUS (wrong type), TABLE_STATUS (one byte too many), METER_MOD
unless its header is given with the right length, bundled messages that need padding.  The body of a
multipart message is a list where the message type wants a list. -/
def Call.Right (h : HdrArg) : Call → Prop
  | .flowMod _ _ _ _ _ _ _ _ _ _ _ _ _ is => is.Each Instr.Whole
  | .portMod _ _ _ _ ps => ps.Each Pr.Right
  | .tableMod _ _ ps => ps.Each Pr.Right
  | .tableModOf _ _ ps => ps.Each Pr.Right
  | .mpRequest t _ b => (t = 12 → ∀ r, b ≠ .one r) ∧ b.Right
  | .mpRequestOf _ _ r => r.Right
  | .mpReply t _ b => (t ∈ [1, 3, 4, 5, 6, 7, 9, 10, 12, 13] → ∀ r, b ≠ .one r) ∧ b.Right
  | .async ps => ps.Each Pr.Right
  | .meterMod _ _ _ bs => (∀ b, h = .raw b → 8 ≤ b.length) ∧ version h = 5 ∧ h.type 0 = 29 ∧
      givenLength h = 16 + (bs.bytes Band.bytes).length
  | .roleStatus .. => False
  | .tableStatus .. => False
  | .bundleCtrl _ _ _ ps => ps.Each Pr.Right
  | .bundleAdd _ _ _ h' c ps => c.Right h' ∧ ps.Each Pr.Right ∧ (8 ∣ c.body.length ∨ ps = .none ∨ ps = .items [])
  | .requestForward _ h' c => c.Right h'
  | _ => True

end Twink.Of14
