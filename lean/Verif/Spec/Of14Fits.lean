import Verif.Spec.Of14Layout
import Verif.Spec.Of13Fits

/-!
# Which arguments fit the fields of OpenFlow 1.4, and what is put out for them

`Fits` as in `Spec/Of13Fits`.  `out` is the wire format of `Spec/Of14Layout` with all the deviations of twink/ofp5/build.py and nothing else.
-/

namespace Twink.Of14
open Spec Of13

/-- `struct ofp_action_*` -/
def Action.Fits : Action → Prop
  | .header t l => given16 t ∧ given16 l
  | .output t _ port maxLen => isType t 0 ∧ port < 4294967296 ∧ maxLen < 65536
  | .group t _ g => isType t 22 ∧ g < 4294967296
  | .setQueue t _ queue => isType t 21 ∧ queue < 4294967296
  | .mplsTtl t _ ttl => isType t 15 ∧ ttl < 256
  | .generic t _ => isAmong t [11, 12, 16, 18, 24, 27]
  | .nwTtl t _ ttl => isType t 23 ∧ ttl < 256
  | .push t _ ethertype => isAmong t [17, 19, 26] ∧ ethertype < 65536
  | .popMpls t _ ethertype => isType t 20 ∧ ethertype < 65536
  | .setField t _ field => isType t 25 ∧ up8 (4 + field.length) < 65536
  | .expHeader t l exp => given16 t ∧ given16 l ∧ exp < 4294967296
  | .experimenter t _ exp data => isType t 0xffff ∧ exp < 4294967296 ∧ up8 (8 + data.length) < 65536

/-- `struct ofp_instruction_*` -/
def Instr.Fits : Instr → Prop
  | .header t l => given16 t ∧ given16 l
  | .gotoTable t _ table => isType t 1 ∧ table < 256
  | .writeMetadata t _ md mask => isType t 2 ∧ md < 2 ^ 64 ∧ mask < 2 ^ 64
  | .actions t _ s => isAmong t [3, 4, 5] ∧ s.Fits Action.Fits ∧ up8 (8 + (s.bytes Action.bytes).length) < 65536
  | .meter t _ m => isType t 6 ∧ m < 4294967296
  | .experimenter t _ exp data => isType t 0xffff ∧ exp < 4294967296 ∧ 8 + data.length < 65536

/-- The length of actions is rounded up, but nothing is added. build.py L205-223 -/
def Instr.out : Instr → Bytes
  | .actions t _ s => be16 (t.getD 0) ++ be16 (up8 (8 + (s.bytes Action.bytes).length)) ++ zeros 4 ++ s.bytes Action.bytes
  | i => i.bytes

/-- `struct ofp_bucket` -/
def Bucket.Fits (b : Bucket) : Prop :=
  b.weight < 65536 ∧ b.watchPort < 4294967296 ∧ b.watchGroup < 4294967296 ∧ b.actions.Fits Action.Fits ∧
    up8 (16 + (b.actions.bytes Action.bytes).length) < 65536

/-- An experimenter property. -/
def expFits (exp expType : Nat) (data : Bytes) : Prop := exp < 4294967296 ∧ expType < 4294967296 ∧ 12 + data.length < 65536

/-- `struct ofp_*_prop_*`.  Three of the experimenter properties cannot be built (build.py L141-152, L1017-1021, L1265-1270), five need their data.
The length of evictions has to be given (L421-423). -/
def Pr.Fits : Pr → Prop
  | .header t l => given16 t ∧ given16 l
  | .portEthernet t _ a b c d e f => isType t 0 ∧ ∀ n ∈ [a, b, c, d, e, f], n < 4294967296
  | .portOptical t _ a b c d e f g x y => isType t 1 ∧ (∀ n ∈ [a, b, c, d, e, f, g], n < 4294967296) ∧ x < 65536 ∧ y < 65536
  | .portExp .. => False
  | .eviction _ l f => given16 l ∧ f < 4294967296
  | .vacancy _ _ d u v => d < 256 ∧ u < 256 ∧ v < 256
  | .tableExp _ _ e t d => ∃ b, d = some b ∧ expFits e t b
  | .pmEthernet _ _ a => a < 4294967296
  | .pmOptical _ _ c f o s p => c < 4294967296 ∧ f < 4294967296 ∧ (-2147483648 ≤ o ∧ o < 2147483648) ∧ s < 4294967296 ∧ p < 4294967296
  | .pmExp _ _ e t d => ∃ b, d = some b ∧ expFits e t b
  | .psEthernet _ _ a b c d => ∀ n ∈ [a, b, c, d], n < 2 ^ 64
  | .psOptical _ _ a b c d e f g w x y z => (∀ n ∈ [a, b, c, d, e, f, g], n < 4294967296) ∧ ∀ n ∈ [w, x, y, z], n < 65536
  | .psExp _ _ e t d => expFits e t (d.getD [])
  | .qsExp _ _ e t d => ∃ b, d = some b ∧ expFits e t b
  | .qdHeader t l => given16 t ∧ given16 l
  | .minRate _ _ r => r < 65536
  | .maxRate _ _ r => r < 65536
  | .qdExp .. => False
  | .bundleExp _ _ e t d => ∃ b, d = some b ∧ expFits e t b
  | .reasons t _ m => (∃ n < 12, t = some n) ∧ m < 4294967296
  | .asyncExp .. => False
  | .roleExp _ _ e t d => expFits e t (d.getD [])

/-- Evictions have the length given, experimenter properties of port statistics are not padded, headers of queue properties are.
build.py L421-423, L937-944, L1003-1005 -/
def Pr.out : Pr → Bytes
  | .eviction _ l f => be16 2 ++ be16 (l.getD 0) ++ be32 f
  | .psExp _ _ e t d => be16 0xffff ++ be16 (12 + (d.getD []).length) ++ be32 e ++ be32 t ++ d.getD []
  | .qdHeader t l => be16 (t.getD 0) ++ be16 (l.getD 0) ++ zeros 4
  | p => p.bytes

/-- `struct ofp_port` -/
def PortT.Fits (p : PortT) : Prop :=
  p.hwAddr.length = 6 ∧ p.name.length ≤ 16 ∧ (∀ n ∈ [p.portNo, p.config, p.state], n < 4294967296) ∧ p.properties.Fits Pr.Fits ∧
    40 + (p.properties.bytes Pr.out).length < 65536

/-- The properties are counted, but left out. build.py L108-110 -/
def PortT.out (p : PortT) : Bytes :=
  be32 p.portNo ++ be16 (40 + (p.properties.bytes Pr.out).length) ++ zeros 2 ++ p.hwAddr ++ zeros 2 ++ p.name ++
    zeros (16 - p.name.length) ++ be32 p.config ++ be32 p.state

/-- In the list of instructions type 0xfffe has data too. build.py L813-821 -/
def IdT.outI (i : IdT) : Bytes :=
  if i.type = 0xfffe then be16 i.type ++ be16 (4 + (i.data.getD []).length) ++ i.data.getD [] else i.bytes

/-- The number of a table is given as a byte. build.py L824-831 -/
def TableIds.Fits : TableIds → Prop
  | .raw _ => True
  | .strs _ => True
  | .ints l => l = []
  | .none => True
  | .bad => False

/-- `struct ofp_table_feature_prop_*`; experimenter properties cannot be built (build.py L884). -/
def TfProp.Fits : TfProp → Prop
  | .header t l => given16 t ∧ given16 l
  | .instructions t _ s => isAmong t [0, 1] ∧ s.Fits (fun i => i.type < 65536 ∧ i.outI.length < 65536) ∧ 4 + (s.bytes IdT.outI).length < 65536
  | .tables t _ s => isAmong t [2, 3] ∧ s.Fits ∧ 4 + s.bytes.length < 65536
  | .actions t _ s => isAmong t [4, 5, 6, 7] ∧ s.Fits (fun i => i.type < 65536 ∧ i.bytes.length < 65536) ∧ 4 + (s.bytes IdT.bytes).length < 65536
  | .oxm t _ i => isAmong t [8, 9, 10, 11, 12, 13] ∧ i.Fits ∧ 4 + i.bytes.length < 65536
  | .experimenter .. => False

/-- See `IdT.outI`. -/
def TfProp.out : TfProp → Bytes
  | .instructions t _ s => pad8 (be16 (t.getD 0) ++ be16 (4 + (s.bytes IdT.outI).length) ++ s.bytes IdT.outI)
  | p => p.bytes

/-- The bodies of multipart messages.  Aggregate requests, requests for all queues by `None`, flow updates without contents and experimenters
cannot be built (build.py L748, L950, L980); meter statistics have to be given their length (L1097). -/
def Rec.Fits : Rec → Prop
  | .desc .. => True
  | .flowStatsReq t p g c cm mt => t.getD 0xff < 256 ∧ p.getD 0xffffffff < 4294967296 ∧ g.getD 0xffffffff < 4294967296 ∧
      c.getD 0 < 2 ^ 64 ∧ cm.getD 0 < 2 ^ 64 ∧ (mt.getD (.tup ⟨none, none, .none⟩)).Fits MatchT.Fits
  | .flowStats _ t ds dn p i h f c pc bc mt is => t < 256 ∧ ds < 4294967296 ∧ dn < 4294967296 ∧ p < 65536 ∧ i < 65536 ∧ h < 65536 ∧
      f < 65536 ∧ c < 2 ^ 64 ∧ pc < 2 ^ 64 ∧ bc < 2 ^ 64 ∧ mt.Fits MatchT.Fits ∧ is.Fits Instr.Fits ∧
      48 + (mt.bytes MatchT.bytes).length + (is.bytes Instr.out).length < 65536
  | .aggregateReq .. => False
  | .aggregate a b c => a < 2 ^ 64 ∧ b < 2 ^ 64 ∧ c < 4294967296
  | .tableStats t a l m => t < 256 ∧ a < 4294967296 ∧ l < 2 ^ 64 ∧ m < 2 ^ 64
  | .tableDesc _ t c ps => t < 256 ∧ c < 4294967296 ∧ ps.Fits Pr.Fits ∧ 8 + (ps.bytes Pr.out).length < 65536
  | .tableFeatures _ t _ mm mw c me ps => t < 256 ∧ mm < 2 ^ 64 ∧ mw < 2 ^ 64 ∧ c < 4294967296 ∧ me < 4294967296 ∧
      ps.Fits TfProp.Fits ∧ 64 + (ps.bytes TfProp.out).length < 65536
  | .portStatsReq p => p.getD 0xffffffff < 4294967296
  | .portStats _ p ds dn cs ps => p < 4294967296 ∧ ds < 4294967296 ∧ dn < 4294967296 ∧ cs.length = 8 ∧ (∀ c ∈ cs, c < 2 ^ 64) ∧
      ps.Fits Pr.Fits ∧ 80 + (ps.bytes Pr.out).length < 65536
  | .queueStatsReq p q => p.getD 0xffffffff < 4294967296 ∧ ∃ n < 4294967296, q = some n
  | .queueStats _ p q a b c ds dn ps => p < 4294967296 ∧ q < 4294967296 ∧ a < 2 ^ 64 ∧ b < 2 ^ 64 ∧ c < 2 ^ 64 ∧ ds < 4294967296 ∧
      dn < 4294967296 ∧ ps.Fits Pr.Fits ∧ 48 + (ps.bytes Pr.out).length < 65536
  | .queueDescReq p q => p.getD 0xffffffff < 4294967296 ∧ ∃ n < 4294967296, q = some n
  | .queueDesc p q _ ps => p < 4294967296 ∧ q < 4294967296 ∧ ps.Fits Pr.Fits ∧ 16 + (ps.bytes Pr.out).length < 65536
  | .groupStatsReq g => g.getD 0xfffffffc < 4294967296
  | .groupStats _ g r p b ds dn cs => g < 4294967296 ∧ r < 4294967296 ∧ p < 2 ^ 64 ∧ b < 2 ^ 64 ∧ ds < 4294967296 ∧ dn < 4294967296 ∧
      cs.Fits pairFits ∧ 40 + (cs.bytes pairBytes).length < 65536
  | .groupDesc _ t g bs => t < 256 ∧ g < 4294967296 ∧ bs.Fits Bucket.Fits ∧ 8 + (bs.bytes Bucket.bytes).length < 65536
  | .groupFeatures t c ms as => t < 4294967296 ∧ c < 4294967296 ∧ ms.Fits4 ∧ as.Fits4
  | .meterReq m => m < 4294967296
  | .meterStats m l f p b ds dn bs => m < 4294967296 ∧ given16 l ∧ f < 4294967296 ∧ p < 2 ^ 64 ∧ b < 2 ^ 64 ∧ ds < 4294967296 ∧
      dn < 4294967296 ∧ bs.Fits pairFits
  | .meterConfig _ f m bs => f < 65536 ∧ m < 4294967296 ∧ bs.Fits Band.Fits ∧ 8 + (bs.bytes Band.bytes).length < 65536
  | .meterFeatures m bt c mb mc => m < 4294967296 ∧ bt < 4294967296 ∧ c < 4294967296 ∧ mb < 256 ∧ mc < 256
  | .flowMonitorReq m p g f t c mt => m < 4294967296 ∧ p < 4294967296 ∧ g < 4294967296 ∧ f < 65536 ∧ t < 256 ∧ c < 256 ∧ mt.Fits MatchT.Fits
  | .updateHeader .. => False
  | .updateFull _ e t r i h p c mt is => e < 65536 ∧ t < 256 ∧ r < 256 ∧ i < 65536 ∧ h < 65536 ∧ p < 65536 ∧ c < 2 ^ 64 ∧
      mt.Fits MatchT.Fits ∧ is.Fits Instr.Fits ∧ 32 + (mt.bytes MatchT.bytes).length + (is.bytes Instr.out).length < 65536
  | .updateAbbrev _ _ x => x < 4294967296
  | .updatePaused _ e => e < 65536
  | .port p => p.Fits
  | .prop p => p.Fits
  | .experimenter .. => False

/-- Meter statistics have the length given, flow updates one that is eight too large (build.py L1097, L1143); the rest follows the parts. -/
def Rec.out : Rec → Bytes
  | .flowStats _ t ds dn p i h f c pc bc mt is =>
      be16 (48 + (mt.bytes MatchT.bytes).length + (is.bytes Instr.out).length) ++ b8 t ++ zeros 1 ++ be32 ds ++ be32 dn ++ be16 p ++
      be16 i ++ be16 h ++ be16 f ++ zeros 4 ++ be64 c ++ be64 pc ++ be64 bc ++ mt.bytes MatchT.bytes ++ is.bytes Instr.out
  | .tableDesc _ t c ps => be16 (8 + (ps.bytes Pr.out).length) ++ b8 t ++ zeros 1 ++ be32 c ++ ps.bytes Pr.out
  | .tableFeatures _ t name mm mw c me ps => be16 (64 + (ps.bytes TfProp.out).length) ++ b8 t ++ zeros 5 ++ inField 32 name ++
      be64 mm ++ be64 mw ++ be32 c ++ be32 me ++ ps.bytes TfProp.out
  | .portStats _ p ds dn cs ps => be16 (80 + (ps.bytes Pr.out).length) ++ zeros 2 ++ be32 p ++ be32 ds ++ be32 dn ++
      (cs.map be64).flatten ++ ps.bytes Pr.out
  | .queueStats _ p q a b c ds dn ps => be16 (48 + (ps.bytes Pr.out).length) ++ zeros 6 ++ be32 p ++ be32 q ++ be64 a ++ be64 b ++
      be64 c ++ be32 ds ++ be32 dn ++ ps.bytes Pr.out
  | .queueDesc p q _ ps => be32 p ++ be32 q ++ be16 (16 + (ps.bytes Pr.out).length) ++ zeros 6 ++ ps.bytes Pr.out
  | .meterStats m l f p b ds dn bs => be32 m ++ be16 (l.getD 0) ++ zeros 6 ++ be32 f ++ be64 p ++ be64 b ++
      be32 ds ++ be32 dn ++ bs.bytes pairBytes
  | .updateFull _ e t r i h p c mt is =>
      be16 (32 + (mt.bytes MatchT.bytes).length + (is.bytes Instr.out).length) ++ be16 e ++ b8 t ++ b8 r ++ be16 i ++ be16 h ++ be16 p ++
      zeros 4 ++ be64 c ++ mt.bytes MatchT.bytes ++ is.bytes Instr.out
  | .port p => p.out
  | .prop p => p.out
  | r => r.bytes

/-- A description given where a list is expected: its texts, one after the other. -/
def Rec.asList : Rec → Option Bytes
  | .desc (some a) (some b) (some c) (some d) (some e) => some (a ++ b ++ c ++ d ++ e)
  | _ => none

/-- The body of a request of the type `t`: not looked at, one structure, a list of structures (type 12), or bytes. -/
def Body.FitsReq (t : Nat) (b : Body) : Prop :=
  if t ∈ [0, 3, 7, 8, 11, 13] then True
  else match b with
    | .raw _ => True
    | .none => t ∈ [1, 2, 4, 5, 6, 9, 10]
    | .one r => (t ∈ [1, 2, 4, 5, 6, 9, 10] ∧ r.Fits) ∨ (t = 12 ∧ r.asList.isSome)
    | .many l => t = 12 ∧ ∀ e ∈ l, e.Fits Rec.Fits
    | .bad => False

/-- The bytes of the body. -/
def Body.outReq (t : Nat) (b : Body) : Bytes :=
  if t ∈ [0, 3, 7, 8, 11, 13] then []
  else match b with
    | .raw b => b
    | .one r => if t = 12 then r.asList.getD [] else r.out
    | .many l => (l.map (Elem.bytes Rec.out)).flatten
    | _ => []

/-- The body of a reply of the type `t`: one structure, a list of structures, or bytes. -/
def Body.FitsRep (t : Nat) : Body → Prop
  | .raw _ => t ∈ [0, 2, 8, 11, 0xffff]
  | .none => t ∈ [0, 2, 8, 11] ∨ t ∈ [1, 3, 4, 5, 6, 7, 9, 10, 12, 13]
  | .one r => (t ∈ [0, 2, 8, 11] ∧ r.Fits) ∨ (t ∈ [1, 3, 4, 5, 6, 7, 9, 10, 12, 13] ∧ r.asList.isSome)
  | .many l => t ∈ [1, 3, 4, 5, 6, 7, 9, 10, 12, 13] ∧ ∀ e ∈ l, e.Fits Rec.Fits
  | .bad => False

/-- The bytes of the body. -/
def Body.outRep (t : Nat) : Body → Bytes
  | .raw b => b
  | .one r => if t ∈ [1, 3, 4, 5, 6, 7, 9, 10, 12, 13] then r.asList.getD [] else r.out
  | .many l => (l.map (Elem.bytes Rec.out)).flatten
  | _ => []

/-- The types a call accepts: those of the message, but for ROLE_STATUS (build.py L1306). -/
def Call.takes : Call → Option (List Nat)
  | .roleStatus .. => some [24, 25]
  | c => c.types

/-- The type put into the header: the only one there is, or else the one asked for by the header. -/
def Call.outType (c : Call) (h : HdrArg) : Nat :=
  match c.takes with
  | some [t] => t
  | _ => h.type 0

/-- The `header` argument leaves open what cannot be chosen or gives it right; the type has to be given if there is a choice.
Without `types` any will do. -/
def hdrFits (types : Option (List Nat)) (rnd : Nat) : HdrArg → Prop
  | .none => (∃ t, types = some [t]) ∧ rnd < 4294967296
  | .raw b => 8 ≤ b.length ∧ u8 b 0 = 5 ∧ ∀ ts, types = some ts → u8 b 1 ∈ ts
  | .tup v t _ x => isType v 5 ∧ ((t = Option.none ∧ ∃ ty, types = some [ty]) ∨ ∃ n < 256, t = some n ∧ ∀ ts, types = some ts → n ∈ ts) ∧
      x.getD rnd < 4294967296
  | .bad => False

/-- The header before `n` bytes fits.  The one of METER_MOD is taken as it is (build.py L561-564); PORT_STATUS cannot be built (L1292). -/
def Call.FitsHead (rnd : Nat) (h : HdrArg) (n : Nat) : Call → Prop
  | .meterMod .. =>
    match h with
    | .raw _ => True
    | .tup v t l x => isType v 5 ∧ (∃ n < 256, t = some n) ∧ l.getD 8 < 65536 ∧ x.getD rnd < 4294967296
    | _ => False
  | .portStatus .. => False
  | c => hdrFits c.takes rnd h ∧ 8 + n < 65536

/-- The header before `n` bytes. -/
def Call.head (rnd : Nat) (h : HdrArg) (n : Nat) : Call → Bytes
  | .meterMod .. =>
    match h with
    | .raw b => inField 8 b
    | .tup _ t l x => ofHeader 5 (t.getD 0) (l.getD 8) (x.getD rnd)
    | _ => []
  | c => ofHeader 5 (c.outType h) (8 + n) (h.xid rnd)

/-- Everything after the header: TABLE_STATUS has one byte too many (build.py L1322), bundled messages are not padded (L1222),
and the parts are those of the package. -/
def Call.outBody : Call → Bytes
  | .flowMod c cm t cmd i h p b op og f im mt is => be64 c ++ be64 cm ++ b8 t ++ b8 cmd ++ be16 i ++ be16 h ++ be16 p ++
      be32 (b.getD 0xffffffff) ++ be32 (op.getD 0xffffffff) ++ be32 (og.getD 0xffffffff) ++ be16 f ++ be16 im ++
      mt.bytes MatchT.bytes ++ is.bytes Instr.out
  | .portMod p hw c m ps => be32 p ++ zeros 4 ++ inField 6 hw ++ zeros 2 ++ be32 c ++ be32 m ++ ps.bytes Pr.out
  | .tableMod t c ps => b8 t ++ zeros 3 ++ be32 c ++ ps.bytes Pr.out
  | .tableModOf t c ps => b8 t ++ zeros 3 ++ be32 c ++ ps.bytes Pr.out
  | .mpRequest t f b => be16 t ++ be16 f ++ zeros 4 ++ b.outReq t
  | .mpRequestOf t f r => be16 t ++ be16 f ++ zeros 4 ++ (if t ∈ [0, 3, 7, 8, 11, 13] then [] else r.out)
  | .mpReply t f b => be16 t ++ be16 f ++ zeros 4 ++ b.outRep t
  | .async ps => ps.bytes Pr.out
  | .roleStatus r rs g ps => be32 r ++ b8 rs ++ zeros 3 ++ be64 g ++ ps.bytes Pr.out
  | .tableStatus r t => be16 r ++ zeros 7 ++ t.bytes Rec.out
  | .bundleCtrl b t f ps => be32 b ++ be16 t ++ be16 f ++ ps.bytes Pr.out
  | .bundleAdd b f rnd h c ps => be32 b ++ zeros 2 ++ be16 f ++ (c.head rnd h c.outBody.length ++ c.outBody) ++ ps.bytes Pr.out
  | .requestForward rnd h c => c.head rnd h c.outBody.length ++ c.outBody
  | c => c.body

/-- Everything after the header fits. -/
def Call.FitsBody : Call → Prop
  | .hello es => es.Fits HelloElem.Fits
  | .error t c _ => t < 65536 ∧ c < 65536
  | .errorExp c e _ => c < 65536 ∧ e < 4294967296
  | .features d nb nt aux caps => d < 2 ^ 64 ∧ nb < 4294967296 ∧ nt < 256 ∧ aux < 256 ∧ caps < 4294967296
  | .config fl miss => fl < 65536 ∧ miss.getD 0xffff < 65536
  | .packetIn b tl r t c mt _ => b < 4294967296 ∧ tl < 65536 ∧ r < 256 ∧ t < 256 ∧ c < 2 ^ 64 ∧ mt.Fits MatchT.Fits
  | .flowRemoved c p r t ds dn i h pc bc mt => c < 2 ^ 64 ∧ p < 65536 ∧ r < 256 ∧ t < 256 ∧ ds < 4294967296 ∧ dn < 4294967296 ∧ i < 65536 ∧
      h < 65536 ∧ pc < 2 ^ 64 ∧ bc < 2 ^ 64 ∧ mt.Fits MatchT.Fits
  | .portStatus .. => False
  | .packetOut b ip as _ => b.getD 0xffffffff < 4294967296 ∧ ip < 4294967296 ∧ as.Fits Action.Fits
  | .flowMod c cm t cmd i h p b op og f im mt is => c < 2 ^ 64 ∧ cm < 2 ^ 64 ∧ t < 256 ∧ cmd < 256 ∧ i < 65536 ∧ h < 65536 ∧ p < 65536 ∧
      b.getD 0xffffffff < 4294967296 ∧ op.getD 0xffffffff < 4294967296 ∧ og.getD 0xffffffff < 4294967296 ∧ f < 65536 ∧ im < 65536 ∧
      mt.Fits MatchT.Fits ∧ is.Fits Instr.Fits
  | .groupMod c t g bs => c < 65536 ∧ t < 256 ∧ g < 4294967296 ∧ bs.Fits Bucket.Fits
  | .portMod p _ c m ps => p < 4294967296 ∧ c < 4294967296 ∧ m < 4294967296 ∧ ps.Fits Pr.Fits
  | .tableMod t c ps => t < 256 ∧ c < 4294967296 ∧ ∃ b, ps = .raw b
  | .tableModOf t c ps => t < 256 ∧ c < 4294967296 ∧ ps.Fits Pr.Fits
  | .mpRequest t f b => t < 65536 ∧ f < 65536 ∧ b.FitsReq t
  | .mpRequestOf t f r => t < 65536 ∧ f < 65536 ∧ r.Fits
  | .mpReply t f b => f < 65536 ∧ b.FitsRep t
  | .role r g => r < 4294967296 ∧ g < 2 ^ 64
  | .async ps => ps.Fits Pr.Fits
  | .meterMod c f m bs => c < 65536 ∧ f < 65536 ∧ m < 4294967296 ∧ bs.Fits Band.Fits
  | .roleStatus r rs g ps => r < 4294967296 ∧ rs < 256 ∧ g < 2 ^ 64 ∧ ps.Fits Pr.Fits
  | .tableStatus r t => r < 65536 ∧ t.Fits Rec.Fits
  | .bundleCtrl b t f ps => b < 4294967296 ∧ t < 65536 ∧ f < 65536 ∧ ps.Fits Pr.Fits
  | .bundleAdd b f rnd h c ps => b < 4294967296 ∧ f < 65536 ∧ (c.FitsHead rnd h c.outBody.length ∧ c.FitsBody) ∧ ps.Fits Pr.Fits
  | .requestForward rnd h c => c.FitsHead rnd h c.outBody.length ∧ c.FitsBody
  | .experimenter e t _ => e < 4294967296 ∧ t < 4294967296
  | .other _ => True

/-- The call fits. -/
def Call.Fits (rnd : Nat) (h : HdrArg) (c : Call) : Prop := c.FitsHead rnd h c.outBody.length ∧ c.FitsBody

/-- The message put out. -/
def Call.out (rnd : Nat) (h : HdrArg) (c : Call) : Bytes := c.head rnd h c.outBody.length ++ c.outBody

end Twink.Of14
