import Verif.Spec.Of13Layout

/-!
# Which arguments fit the fields of OpenFlow 1.3

For every structure of `Spec/Of13Layout`: the numbers are smaller than their fields allow, the types given are the types of the structure,
sequences hold structures that fit, and lengths can be written down.
-/

namespace Twink.Of13
open Spec

/-- A structure given as bytes always fits, one given as tuple if its parts do. -/
def Elem.Fits (P : α → Prop) : Elem α → Prop
  | .raw _ => True
  | .tup a => P a
  | .bad => False

/-- Bytes, `None`, or a list of structures that fit. -/
def Seq.Fits (P : α → Prop) : Seq α → Prop
  | .raw _ => True
  | .items l => ∀ e ∈ l, e.Fits P
  | .none => True
  | .bad => False

/-- The type is left open or is the one of the structure. -/
def isType (t : Option Nat) (ty : Nat) : Prop := t = none ∨ t = some ty

/-- The type is given and one of those of the structure. -/
def isAmong (t : Option Nat) (ts : List Nat) : Prop := ∃ n ∈ ts, t = some n

/-- A number of 16 bits is given. -/
def given16 (t : Option Nat) : Prop := ∃ n, n < 65536 ∧ t = some n

/-- `struct ofp_match` -/
def MatchT.Fits (m : MatchT) : Prop :=
  m.type.getD 1 < 65536 ∧ m.oxm.Fits (fun _ => False) ∧ 4 + m.fields.length < 65536

/-- `struct ofp_action_*` -/
def Action.Fits : Action → Prop
  | .header t l => given16 t ∧ given16 l
  | .output t _ port maxLen => isType t 0 ∧ port < 4294967296 ∧ maxLen < 65536
  | .group t _ g => isType t 22 ∧ g < 4294967296
  | .setQueue t _ queue => isType t 21 ∧ queue < 4294967296
  | .mplsTtl t _ ttl => isType t 15 ∧ ttl < 256
  | .nwTtl t _ ttl => isType t 23 ∧ ttl < 256
  | .push t _ ethertype => isAmong t [17, 19, 26] ∧ ethertype < 65536
  | .popMpls t _ ethertype => isType t 20 ∧ ethertype < 65536
  | .setField t _ field => isType t 25 ∧ up8 (4 + field.length) < 65536
  | .experimenter t _ exp data => isType t 0xffff ∧ exp < 4294967296 ∧ up8 (8 + data.length) < 65536

/-- `struct ofp_instruction_*` -/
def Instr.Fits : Instr → Prop
  | .header t l => given16 t ∧ given16 l
  | .gotoTable t _ table => isType t 1 ∧ table < 256
  | .writeMetadata t _ md mask => isType t 2 ∧ md < 2 ^ 64 ∧ mask < 2 ^ 64
  | .actions t _ s => isAmong t [3, 4, 5] ∧ s.Fits Action.Fits ∧ 8 + (s.bytes Action.bytes).length < 65536
  | .meter t _ m => isType t 6 ∧ m < 4294967296
  | .experimenter t _ exp data => isType t 0xffff ∧ exp < 4294967296 ∧ 8 + data.length < 65536

/-- `struct ofp_bucket` -/
def Bucket.Fits (b : Bucket) : Prop :=
  b.weight < 65536 ∧ b.watchPort < 4294967296 ∧ b.watchGroup < 4294967296 ∧ b.actions.Fits Action.Fits ∧
    up8 (16 + (b.actions.bytes Action.bytes).length) < 65536

/-- `struct ofp_meter_band_*` -/
def Band.Fits : Band → Prop
  | .header t l rate burst => given16 t ∧ given16 l ∧ rate < 4294967296 ∧ burst < 4294967296
  | .drop t _ rate burst => isType t 1 ∧ rate < 4294967296 ∧ burst < 4294967296
  | .dscp t _ rate burst prec => isType t 2 ∧ rate < 4294967296 ∧ burst < 4294967296 ∧ prec < 256
  | .experimenter t _ rate burst exp data =>
    isType t 0xffff ∧ rate < 4294967296 ∧ burst < 4294967296 ∧ exp < 4294967296 ∧ 16 + data.length < 65536

/-- A name is a byte string of at most sixteen ASCII characters. -/
def Text.Fits : Text → Prop
  | .str b => b.length ≤ 16 ∧ ∀ c ∈ b, c < 128
  | .uni _ => False

/-- `struct ofp_port` -/
def PortT.Fits (p : PortT) : Prop :=
  p.hwAddr.length = 6 ∧ p.name.Fits ∧
    ∀ n ∈ [p.portNo, p.config, p.state, p.curr, p.advertised, p.supported, p.peer, p.currSpeed, p.maxSpeed], n < 4294967296

/-- The header of a queue property of the type `t`. -/
def PropHdr.Fits (t : Nat) : PropHdr → Prop
  | .none => True
  | .raw b => 4 ≤ b.length ∧ u16 b 0 = t
  | .tup p _ => isType p t
  | .bad => False

/-- `struct ofp_queue_prop_*` -/
def QProp.Fits : QProp → Prop
  | .header p l => given16 p ∧ l.getD 8 < 65536
  | .minRate h rate => h.Fits 1 ∧ rate < 65536
  | .maxRate h rate => h.Fits 2 ∧ rate < 65536
  | .experimenter h exp data => h.Fits 0xffff ∧ exp < 4294967296 ∧ 16 + data.length < 65536

/-- `struct ofp_packet_queue` -/
def Queue.Fits (q : Queue) : Prop :=
  q.queueId < 4294967296 ∧ q.port < 4294967296 ∧ q.properties.Fits QProp.Fits ∧ 16 + (q.properties.bytes QProp.bytes).length < 65536

/-- 32-bit numbers. -/
def Ints.Fits : Ints → Prop
  | .list l => ∀ n ∈ l, n < 4294967296
  | .raw _ => True
  | .none => True
  | .bad => False

/-- Four 32-bit numbers. -/
def Ints.Fits4 : Ints → Prop
  | .list l => l.length = 4 ∧ ∀ n ∈ l, n < 4294967296
  | .raw b => b.length = 16
  | .none => True
  | .bad => False

/-- `struct ofp_hello_elem_*` -/
def HelloElem.Fits : HelloElem → Prop
  | .header t l => given16 t ∧ given16 l
  | .versionBitmap t _ b => isType t 1 ∧ b.Fits ∧ 4 + b.bytes.length < 65536

/-- `struct ofp_table_feature_prop_*`, with the property types of the package; there are none of experimenters (build.py L836). -/
def TfProp.Fits : TfProp → Prop
  | .header t l => given16 t ∧ given16 l
  | .instructions t _ s => isAmong t [0, 1] ∧ s.Fits Instr.Fits ∧ 4 + (s.bytes Instr.bytes).length < 65536
  | .nextTables t _ s => isAmong t [2, 3] ∧ s.Fits (fun _ => False) ∧ 4 + (s.bytes fun _ => []).length < 65536
  | .actions t _ s => isAmong t [4, 5, 6, 7] ∧ s.Fits Action.Fits ∧ 4 + (s.bytes Action.bytes).length < 65536
  | .oxm t _ i => isAmong t [8, 9, 10, 11, 12, 13] ∧ i.Fits ∧ 4 + i.bytes.length < 65536
  | .experimenter .. => False

/-- Two counters. -/
def pairFits (p : Nat × Nat) : Prop := p.1 < 2 ^ 64 ∧ p.2 < 2 ^ 64

/-- The bodies of multipart messages.  Requests for aggregate statistics, requests for statistics of all queues of a port
by `None`, and bodies of experimenters cannot be built (build.py L734, L861); meter statistics have to be given their length (L945). -/
def Rec.Fits : Rec → Prop
  | .desc .. => True
  | .flowStatsReq t p g c cm mt => t.getD 0xff < 256 ∧ p.getD 0xffffffff < 4294967296 ∧ g.getD 0xffffffff < 4294967296 ∧
      c.getD 0 < 2 ^ 64 ∧ cm.getD 0 < 2 ^ 64 ∧ (mt.getD (.tup ⟨none, none, .none⟩)).Fits MatchT.Fits
  | .flowStats _ t ds dn p i h f c pc bc mt is => t < 256 ∧ ds < 4294967296 ∧ dn < 4294967296 ∧ p < 65536 ∧ i < 65536 ∧ h < 65536 ∧
      f < 65536 ∧ c < 2 ^ 64 ∧ pc < 2 ^ 64 ∧ bc < 2 ^ 64 ∧ mt.Fits MatchT.Fits ∧ is.Fits Instr.Fits ∧
      48 + (mt.bytes MatchT.bytes).length + (is.bytes Instr.bytes).length < 65536
  | .aggregateReq .. => False
  | .aggregate a b c => a < 2 ^ 64 ∧ b < 2 ^ 64 ∧ c < 4294967296
  | .tableStats t a l m => t < 256 ∧ a < 4294967296 ∧ l < 2 ^ 64 ∧ m < 2 ^ 64
  | .tableFeatures _ t _ mm mw c me ps => t < 256 ∧ mm < 2 ^ 64 ∧ mw < 2 ^ 64 ∧ c < 4294967296 ∧ me < 4294967296 ∧
      ps.Fits TfProp.Fits ∧ 64 + (ps.bytes TfProp.bytes).length < 65536
  | .portStatsReq p => p.getD 0xffffffff < 4294967296
  | .portStats p cs ds dn => p < 4294967296 ∧ cs.length = 12 ∧ (∀ c ∈ cs, c < 2 ^ 64) ∧ ds < 4294967296 ∧ dn < 4294967296
  | .queueStatsReq p q => p.getD 0xffffffff < 4294967296 ∧ ∃ n, n < 4294967296 ∧ q = some n
  | .queueStats p q a b c ds dn => p < 4294967296 ∧ q < 4294967296 ∧ a < 2 ^ 64 ∧ b < 2 ^ 64 ∧ c < 2 ^ 64 ∧ ds < 4294967296 ∧ dn < 4294967296
  | .groupStatsReq g => g.getD 0xfffffffc < 4294967296
  | .groupStats _ g r p b ds dn cs => g < 4294967296 ∧ r < 4294967296 ∧ p < 2 ^ 64 ∧ b < 2 ^ 64 ∧ ds < 4294967296 ∧ dn < 4294967296 ∧
      cs.Fits pairFits ∧ 40 + (cs.bytes pairBytes).length < 65536
  | .groupDesc _ t g bs => t < 256 ∧ g < 4294967296 ∧ bs.Fits Bucket.Fits ∧ 8 + (bs.bytes Bucket.bytes).length < 65536
  | .groupFeatures t c ms as => t < 4294967296 ∧ c < 4294967296 ∧ ms.Fits4 ∧ as.Fits4
  | .meterReq m => m < 4294967296
  | .meterStats m l f p b ds dn bs => m < 4294967296 ∧ given16 l ∧ f < 4294967296 ∧ p < 2 ^ 64 ∧ b < 2 ^ 64 ∧ ds < 4294967296 ∧
      dn < 4294967296 ∧ bs.Fits pairFits
  | .meterConfig _ f m bs => f < 65536 ∧ m < 4294967296 ∧ bs.Fits Band.Fits ∧ 8 + (bs.bytes Band.bytes).length < 65536
  | .meterFeatures m bt c mb mc => m < 4294967296 ∧ bt < 4294967296 ∧ c < 4294967296 ∧ mb < 256 ∧ mc < 256
  | .port p => p.Fits
  | .experimenter .. => False

/-- The `header` argument leaves open what cannot be chosen or gives it right; the type has to be given if there is a choice. -/
def HdrArg.Fits (types : List Nat) (rnd : Nat) : HdrArg → Prop
  | .none => types.length = 1 ∧ rnd < 4294967296
  | .raw b => 8 ≤ b.length ∧ u8 b 0 = 4 ∧ u8 b 1 ∈ types
  | .tup v t _ x => isType v 4 ∧ ((t = Option.none ∧ types.length = 1) ∨ isAmong t types) ∧ x.getD rnd < 4294967296
  | .bad => False

/-- A description given where a list is expected: `some` number of bytes it takes there. -/
def Rec.asList : Rec → Option Nat
  | .desc (some a) (some b) (some c) (some d) (some e) => some (a.length + b.length + c.length + d.length + e.length)
  | _ => none

/-- The body of a request of the type `t`: not looked at, one structure, a list of structures (type 12), or bytes. -/
def Body.FitsReq (t : Nat) (b : Body) : Prop :=
  if t ∈ [0, 3, 7, 8, 11, 13] then True
  else match b with
    | .raw _ => True
    | .none => t ∈ [1, 2, 4, 5, 6, 9, 10]
    | .one r => (t ∈ [1, 2, 4, 5, 6, 9, 10] ∧ r.Fits) ∨ (t = 12 ∧ r.asList.isSome)
    | .many l => t = 12 ∧ ∀ e ∈ l, e.Fits Rec.Fits
    | .bad => False

/-- The body of a reply of the type `t`: one structure, a list of structures, or bytes. -/
def Body.FitsRep (t : Nat) : Body → Prop
  | .raw _ => t ∈ [0, 2, 8, 11, 0xffff]
  | .none => t ∈ [0, 2, 8, 11] ∨ t ∈ [1, 3, 4, 5, 6, 7, 9, 10, 12, 13]
  | .one r => (t ∈ [0, 2, 8, 11] ∧ r.Fits) ∨ (t ∈ [1, 3, 4, 5, 6, 7, 9, 10, 12, 13] ∧ r.asList.isSome)
  | .many l => t ∈ [1, 3, 4, 5, 6, 7, 9, 10, 12, 13] ∧ ∀ e ∈ l, e.Fits Rec.Fits
  | .bad => False

/-- The number of bytes after the header: those of the layout, but for the descriptions of `Rec.asList`. -/
def Call.size : Call → Nat
  | .mpRequest 12 _ (.one r) => 8 + r.asList.getD 0
  | .mpReply t f (.one r) => if t ∈ [1, 3, 4, 5, 6, 7, 9, 10, 12, 13] then 8 + r.asList.getD 0 else (Call.body (.mpReply t f (.one r))).length
  | c => c.body.length

/-- Everything after the header fits. -/
def Call.FitsBody : Call → Prop
  | .hello es => es.Fits HelloElem.Fits
  | .error t c _ => t < 65536 ∧ c < 65536
  | .features d nb nt aux caps => d < 2 ^ 64 ∧ nb < 4294967296 ∧ nt < 256 ∧ aux < 256 ∧ caps < 4294967296
  | .config fl miss => fl < 65536 ∧ miss.getD 0xffff < 65536
  | .packetIn b tl r t c mt _ => b < 4294967296 ∧ tl < 65536 ∧ r < 256 ∧ t < 256 ∧ c < 2 ^ 64 ∧ mt.Fits MatchT.Fits
  | .flowRemoved c p r t ds dn i h pc bc mt => c < 2 ^ 64 ∧ p < 65536 ∧ r < 256 ∧ t < 256 ∧ ds < 4294967296 ∧ dn < 4294967296 ∧ i < 65536 ∧
      h < 65536 ∧ pc < 2 ^ 64 ∧ bc < 2 ^ 64 ∧ mt.Fits MatchT.Fits
  | .portStatus r p => r < 256 ∧ p.Fits PortT.Fits
  | .packetOut b ip as _ => b.getD 0xffffffff < 4294967296 ∧ ip < 4294967296 ∧ as.Fits Action.Fits
  | .flowMod c cm t cmd i h p b op og f mt is => c < 2 ^ 64 ∧ cm < 2 ^ 64 ∧ t < 256 ∧ cmd < 256 ∧ i < 65536 ∧ h < 65536 ∧ p < 65536 ∧
      b.getD 0xffffffff < 4294967296 ∧ op.getD 0xffffffff < 4294967296 ∧ og.getD 0xffffffff < 4294967296 ∧ f < 65536 ∧
      mt.Fits MatchT.Fits ∧ is.Fits Instr.Fits
  | .groupMod c t g bs => c < 65536 ∧ t < 256 ∧ g < 4294967296 ∧ bs.Fits Bucket.Fits
  | .portMod p _ c m a => p < 4294967296 ∧ c < 4294967296 ∧ m < 4294967296 ∧ a < 4294967296
  | .tableMod t c => t < 256 ∧ c < 4294967296
  | .mpRequest t f b => t < 65536 ∧ f < 65536 ∧ b.FitsReq t
  | .mpReply t f b => f < 65536 ∧ b.FitsRep t
  | .queueReq p => p < 4294967296
  | .queueRep p qs => p < 4294967296 ∧ qs.Fits Queue.Fits
  | .role r g => r < 4294967296 ∧ g < 2 ^ 64
  | .async a b c => (a ++ b ++ c).length = 6 ∧ ∀ n ∈ a ++ b ++ c, n < 4294967296
  | .meterMod c f m bs => c < 65536 ∧ f < 65536 ∧ m < 4294967296 ∧ bs.Fits Band.Fits
  | .experimenter e t _ => e < 4294967296 ∧ t < 4294967296

end Twink.Of13
