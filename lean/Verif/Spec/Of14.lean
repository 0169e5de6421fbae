import Verif.Model.Of14Types
import Verif.Spec.Of13

/-!
# Specification of the OpenFlow 1.4 codec

What the parser should give back for what a builder was given, and how many bytes that is.  Nothing here refers to
the builders or to the parser.
-/

namespace Twink.Of14
open Spec Of13

/-- Number of bytes of an action. -/
def Action.size : Action → Nat
  | .header .. => 4
  | .output .. => 16
  | .setField _ _ f => up8 (4 + f.length)
  | .experimenter _ _ _ d => up8 (8 + d.length)
  | _ => 8

/-- The action as it comes back: with its type number and length, and the variable parts of set-field and
experimenter actions filled up to a multiple of eight bytes. -/
def Action.wire : Action → Action
  | .header t l => .header t l
  | .output _ _ p m => .output (some 0) (some 16) p m
  | .group _ _ g => .group (some 22) (some 8) g
  | .setQueue _ _ q => .setQueue (some 21) (some 8) q
  | .mplsTtl _ _ n => .mplsTtl (some 15) (some 8) n
  | .generic t _ => .generic t (some 8)
  | .nwTtl _ _ n => .nwTtl (some 23) (some 8) n
  | .push t _ e => .push t (some 8) e
  | .popMpls _ _ e => .popMpls (some 20) (some 8) e
  | .setField _ _ f => .setField (some 25) (some (up8 (4 + f.length))) (fill8 4 f)
  | .expHeader t l x => .expHeader t l x
  | .experimenter _ _ x d => .experimenter (some 0xffff) (some (up8 (8 + d.length))) x (fill8 8 d)

/-- The action kinds which the library can both build and parse: all but set-MPLS-TTL and the bare headers. -/
def Action.Parseable : Action → Prop
  | .header .. => False
  | .expHeader .. => False
  | .mplsTtl .. => False
  | _ => True

/-- No variable part needs padding. -/
def Action.Aligned : Action → Prop
  | .setField _ _ f => (4 + f.length) % 8 = 0
  | .experimenter _ _ _ d => d.length % 8 = 0
  | _ => True

/-- The action with its type number and length filled in, everything else as given. -/
def Action.filled : Action → Action
  | .setField _ _ f => .setField (some 25) (some (4 + f.length)) f
  | .experimenter _ _ x d => .experimenter (some 0xffff) (some (8 + d.length)) x d
  | a => a.wire

/-- Sum of the sizes of the actions. -/
def actionsSize (s : Seq Action) : Nat := (s.values.map Action.size).sum

/-- The list of actions as it comes back. -/
def wireActions (s : Seq Action) : Seq Action := tups (s.values.map Action.wire)

/-- The instruction as it comes back. -/
def Instr.wire : Instr → Instr
  | .header t l => .header t l
  | .gotoTable _ _ n => .gotoTable (some 1) (some 8) n
  | .writeMetadata _ _ d m => .writeMetadata (some 2) (some 24) d m
  | .actions t _ s => .actions t (some (8 + actionsSize s)) (wireActions s)
  | .meter _ _ n => .meter (some 6) (some 8) n
  | .experimenter _ _ x d => .experimenter (some 0xffff) (some (8 + d.length)) x d

/-- Instructions which the library can both build and parse: not the bare header; actions given as tuples that can
be parsed. -/
def Instr.Parseable : Instr → Prop
  | .header .. => False
  | .actions _ _ s => s.All Action.Parseable
  | _ => True

/-- Number of bytes of an instruction. -/
def Instr.size : Instr → Nat
  | .header .. => 4
  | .writeMetadata .. => 24
  | .actions _ _ s => 8 + actionsSize s
  | .experimenter _ _ _ d => 8 + d.length
  | _ => 8

/-- All actions of the instruction are aligned. -/
def Instr.Aligned : Instr → Prop
  | .actions _ _ s => s.All Action.Aligned
  | _ => True

/-- The instruction with type numbers and lengths filled in (also in its actions), everything else as given. -/
def Instr.filled : Instr → Instr
  | .actions t _ s => .actions t (some (8 + actionsSize s)) (tups (s.values.map Action.filled))
  | i => i.wire

/-- Sum of the sizes of the instructions. -/
def instrsSize (s : Seq Instr) : Nat := (s.values.map Instr.size).sum

/-- The bucket as it comes back. -/
def Bucket.wire (b : Bucket) : Bucket :=
  ⟨some (16 + actionsSize b.actions), b.weight, b.watchPort, b.watchGroup, wireActions b.actions⟩

/-- Buckets which the library can both build and parse. -/
def Bucket.Parseable (b : Bucket) : Prop := b.actions.All Action.Parseable

/-- Number of bytes of a bucket. -/
def Bucket.size (b : Bucket) : Nat := 16 + actionsSize b.actions

/-- The bucket with its length and the types and lengths of its actions filled in, everything else as given. -/
def Bucket.filled (b : Bucket) : Bucket :=
  { b with len := some (16 + actionsSize b.actions), actions := tups (b.actions.values.map Action.filled) }

/-! ### properties -/

/-- The property as it comes back. -/
def Pr.wire : Pr → Pr
  | .header t l => .header t l
  | .portEthernet _ _ a b c d e f => .portEthernet (some 0) (some 32) a b c d e f
  | .portOptical _ _ a b c d e f g h i => .portOptical (some 1) (some 40) a b c d e f g h i
  | .portExp _ _ x y d => .portExp (some 0xffff) (some (12 + (d.getD []).length)) x y (some (d.getD []))
  | .eviction _ l f => .eviction (some 2) l f
  | .vacancy _ _ a b c => .vacancy (some 3) (some 8) a b c
  | .tableExp _ _ x y d => .tableExp (some 0xffff) (some (12 + (d.getD []).length)) x y (some (d.getD []))
  | .pmEthernet _ _ a => .pmEthernet (some 0) (some 8) a
  | .pmOptical _ _ a b c d e => .pmOptical (some 1) (some 24) a b c d e
  | .pmExp _ _ x y d => .pmExp (some 0xffff) (some (12 + (d.getD []).length)) x y (some (d.getD []))
  | .psEthernet _ _ a b c d => .psEthernet (some 0) (some 40) a b c d
  | .psOptical _ _ a b c d e f g h i j k => .psOptical (some 1) (some 44) a b c d e f g h i j k
  | .psExp _ _ x y d => .psExp (some 0xffff) (some (12 + (d.getD []).length)) x y (some (d.getD []))
  | .qsExp _ _ x y d => .qsExp (some 0xffff) (some (12 + (d.getD []).length)) x y (some (d.getD []))
  | .qdHeader t l => .qdHeader t l
  | .minRate _ _ r => .minRate (some 1) (some 8) r
  | .maxRate _ _ r => .maxRate (some 2) (some 8) r
  | .qdExp _ _ x y d => .qdExp (some 0xffff) (some (12 + (d.getD []).length)) x y (some (d.getD []))
  | .bundleExp _ _ x y d => .bundleExp (some 0xffff) (some (12 + (d.getD []).length)) x y (some (d.getD []))
  | .reasons t _ m => .reasons t (some 8) m
  | .asyncExp t _ x y d => .asyncExp t (some (12 + (d.getD []).length)) x y (some (d.getD []))
  | .roleExp _ _ x y d => .roleExp (some 0xffff) (some (12 + (d.getD []).length)) x y (some (d.getD []))

/-- The data of an experimenter property. -/
def Pr.data : Pr → Bytes
  | .portExp _ _ _ _ d => d.getD []
  | .tableExp _ _ _ _ d => d.getD []
  | .pmExp _ _ _ _ d => d.getD []
  | .psExp _ _ _ _ d => d.getD []
  | .qsExp _ _ _ _ d => d.getD []
  | .qdExp _ _ _ _ d => d.getD []
  | .bundleExp _ _ _ _ d => d.getD []
  | .asyncExp _ _ _ _ d => d.getD []
  | .roleExp _ _ _ _ d => d.getD []
  | _ => []

/-- Number of bytes of a property, which is filled up to a multiple of eight. -/
def Pr.size : Pr → Nat
  | .header .. => 4
  | .portEthernet .. => 32
  | .portOptical .. => 40
  | .eviction .. => 8
  | .vacancy .. => 8
  | .pmEthernet .. => 8
  | .pmOptical .. => 24
  | .psEthernet .. => 40
  | .psOptical .. => 44
  | .qdHeader .. => 8
  | .minRate .. => 8
  | .maxRate .. => 8
  | .reasons .. => 8
  | p => up8 (12 + p.data.length)

/-- Table properties which the library can both build and parse. -/
def Pr.ForTable : Pr → Prop
  | .eviction .. => True
  | .vacancy .. => True
  | .tableExp .. => True
  | _ => False

/-- Queue properties which the library can both build and parse. -/
def Pr.ForQueue : Pr → Prop
  | .minRate .. => True
  | .maxRate .. => True
  | _ => False

/-- Asynchronous configuration properties which the library can both build and parse: not those of type 8 and 9
(`OFPACPT_TABLE_STATUS_*`). -/
def Pr.ForAsync : Pr → Prop
  | .reasons t _ _ => t ≠ some 8 ∧ t ≠ some 9
  | _ => False

/-- Port modification properties which the library can both build and parse. -/
def Pr.ForPortMod : Pr → Prop
  | .pmEthernet .. => True
  | .pmOptical .. => True
  | _ => False

/-- Port statistics properties which the library can both build and parse: the data of an experimenter need no padding. -/
def Pr.ForPortStats : Pr → Prop
  | .psEthernet .. => True
  | .psOptical .. => True
  | .psExp _ _ _ _ d => (12 + (d.getD []).length) % 8 = 0
  | _ => False

/-- Queue statistics properties. -/
def Pr.ForQueueStats : Pr → Prop
  | .qsExp .. => True
  | _ => False

/-- Port description properties which the library can both build and parse. -/
def Pr.ForPort : Pr → Prop
  | .portEthernet .. => True
  | .portOptical .. => True
  | _ => False

/-- Sum of the sizes of the properties. -/
def propsSize (s : Seq Pr) : Nat := (s.values.map Pr.size).sum

/-! ### multipart records -/

/-- An instruction id as it comes back. -/
def IdT.wire (i : IdT) : IdT := ⟨i.type, some 4, some []⟩

/-- Instruction ids without experimenter data. -/
def IdT.Plain (i : IdT) : Prop := (i.type = 0xfffe ∨ i.type = 0xffff) → i.data.getD [] = []

/-- No table numbers. -/
def TableIds.Empty : TableIds → Prop
  | .raw b => b = []
  | .strs l => l = []
  | .ints l => l = []
  | .none => True
  | .bad => False

/-- The table feature property as it comes back. -/
def TfProp.wire : TfProp → TfProp
  | .header t l => .header t l
  | .instructions t _ ids => .instructions t (some (4 + 4 * ids.values.length)) (tups (ids.values.map IdT.wire))
  | .tables t _ _ => .tables t (some 4) (.ints [])
  | .actions t _ ids => .actions t (some (4 + 4 * ids.values.length)) (tups (ids.values.map IdT.wire))
  | .oxm t _ ids => .oxm t (some (4 + 4 * ids.values.length)) (.list ids.values)
  | .experimenter t _ x y d => .experimenter t (some (12 + d.length)) x y d

/-- Table feature properties which the library can both build and parse: instructions without experimenter data, no
next tables, OXM ids. -/
def TfProp.Parseable : TfProp → Prop
  | .instructions _ _ ids => ids.All IdT.Plain
  | .tables _ _ ids => ids.Empty
  | .oxm _ _ ids => ids = .none ∨ ∃ l, ids = .list l
  | _ => False

/-- Number of bytes of a table feature property. -/
def TfProp.size : TfProp → Nat
  | .instructions _ _ ids => up8 (4 + 4 * ids.values.length)
  | .oxm _ _ ids => up8 (4 + 4 * ids.values.length)
  | _ => 8

/-- Number of bytes of a match argument. -/
def matchSize : Elem MatchT → Nat
  | .tup m => m.size
  | _ => 0

/-- The match of a request that gives none. -/
def anyMatch (mt : Option (Elem MatchT)) : Elem MatchT := mt.getD (.tup ⟨none, none, .none⟩)

/-- The multipart record as it comes back. -/
def Rec.wire : Rec → Rec
  | .desc a b c d e => .desc (some (inField 256 (a.getD []))) (some (inField 256 (b.getD [])))
      (some (inField 256 (c.getD []))) (some (inField 32 (d.getD []))) (some (inField 256 (e.getD [])))
  | .flowStatsReq t p g c cm mt => .flowStatsReq (some (t.getD 0xff)) (some (p.getD 0xffffffff))
      (some (g.getD 0xffffffff)) (some (c.getD 0)) (some (cm.getD 0)) (some (wireMatch (anyMatch mt)))
  | .flowStats _ t ds dn p i h f c pc bc mt is =>
      .flowStats (some (48 + matchSize mt + instrsSize is)) t ds dn p i h f c pc bc
        (wireMatch mt) (tups (is.values.map Instr.wire))
  | .tableFeatures _ t n mm mw c e ps => .tableFeatures (some (64 + (ps.values.map TfProp.size).sum)) t
      (n.takeWhile (· != 0)) mm mw c e (tups (ps.values.map TfProp.wire))
  | .portStatsReq p => .portStatsReq (some (p.getD 0xffffffff))
  | .queueStatsReq p q => .queueStatsReq (some (p.getD 0xffffffff)) q
  | .queueDescReq p q => .queueDescReq (some (p.getD 0xffffffff)) q
  | .queueDesc p q _ ps => .queueDesc p q (some (16 + propsSize ps)) (tups (ps.values.map Pr.wire))
  | .groupStatsReq g => .groupStatsReq (some (g.getD 0xfffffffc))
  | .groupStats _ g r p b ds dn cs => .groupStats (some (40 + 16 * cs.values.length)) g r p b ds dn (tups cs.values)
  | .groupDesc _ t g bs => .groupDesc (some (8 + (bs.values.map Bucket.size).sum)) t g (tups (bs.values.map Bucket.wire))
  | .groupFeatures t c ms as => .groupFeatures t c ms.four as.four
  | .meterStats m _ f p b ds dn bs => .meterStats m (some (40 + 16 * bs.values.length)) f p b ds dn (tups bs.values)
  | .meterConfig _ f m bs => .meterConfig (some (8 + 16 * bs.values.length)) f m (tups (bs.values.map Band.wire))
  | .flowMonitorReq a b c d e f mt => .flowMonitorReq a b c d e f (wireMatch mt)
  | .updateAbbrev _ _ x => .updateAbbrev (some 8) (some 4) x
  | .updatePaused _ e => .updatePaused (some 8) e
  | r => r

/-- Multipart records which the library can both build and parse.  `meter_stats` does not compute its length. -/
def Rec.Parseable : Rec → Prop
  | .desc .. => True
  | .flowStatsReq _ _ _ _ _ mt => mt = none ∨ ∃ m, mt = some (.tup m)
  | .flowStats _ _ _ _ _ _ _ _ _ _ _ mt is => (∃ m, mt = .tup m) ∧ is.All Instr.Parseable
  | .aggregate .. => True
  | .tableFeatures _ _ n _ _ _ _ ps => n.length ≤ 32 ∧ ps.All TfProp.Parseable
  | .portStatsReq .. => True
  | .queueStatsReq .. => True
  | .queueDescReq .. => True
  | .queueDesc _ _ _ ps => ps.All Pr.ForQueue
  | .groupStatsReq .. => True
  | .groupStats _ _ _ _ _ _ _ cs => cs.All (fun _ => True)
  | .groupDesc _ _ _ bs => bs.All Bucket.Parseable
  | .groupFeatures _ _ ms as => (ms = .none ∨ ∃ l, ms = .list l) ∧ (as = .none ∨ ∃ l, as = .list l)
  | .meterReq .. => True
  | .meterStats _ len _ _ _ _ _ bs => bs.All (fun _ => True) ∧ len = some (40 + 16 * bs.values.length)
  | .meterConfig _ _ _ bs => bs.All Band.Parseable
  | .meterFeatures .. => True
  | .flowMonitorReq _ _ _ _ _ _ mt => ∃ m, mt = .tup m
  | .updateAbbrev .. => True
  | .updatePaused .. => True
  | _ => False

/-- Number of bytes of a parseable multipart record. -/
def Rec.size : Rec → Nat
  | .desc .. => 1056
  | .flowStatsReq _ _ _ _ _ mt => 32 + matchSize (anyMatch mt)
  | .flowStats _ _ _ _ _ _ _ _ _ _ _ mt is => 48 + matchSize mt + instrsSize is
  | .aggregate .. => 24
  | .tableFeatures _ _ _ _ _ _ _ ps => 64 + (ps.values.map TfProp.size).sum
  | .queueDesc _ _ _ ps => 16 + propsSize ps
  | .groupStats _ _ _ _ _ _ _ cs => 40 + 16 * cs.values.length
  | .groupDesc _ _ _ bs => 8 + (bs.values.map Bucket.size).sum
  | .groupFeatures .. => 40
  | .meterStats _ _ _ _ _ _ _ bs => 40 + 16 * bs.values.length
  | .meterConfig _ _ _ bs => 8 + 16 * bs.values.length
  | .meterFeatures .. => 16
  | .flowMonitorReq _ _ _ _ _ _ mt => 16 + matchSize mt
  | _ => 8

/-- The multipart reply type to which a record belongs. -/
def Rec.replyType : Rec → Option Nat
  | .desc .. => some 0
  | .flowStats .. => some 1
  | .aggregate .. => some 2
  | .tableStats .. => some 3
  | .portStats .. => some 4
  | .queueStats .. => some 5
  | .groupStats .. => some 6
  | .groupDesc .. => some 7
  | .groupFeatures .. => some 8
  | .meterStats .. => some 9
  | .meterConfig .. => some 10
  | .meterFeatures .. => some 11
  | .tableFeatures .. => some 12
  | .port .. => some 13
  | .tableDesc .. => some 14
  | .queueDesc .. => some 15
  | .updateFull .. => some 16
  | .updateAbbrev .. => some 16
  | .updatePaused .. => some 16
  | .experimenter .. => some 0xffff
  | _ => none

/-- The multipart request type to which a record belongs. -/
def Rec.requestType : Rec → Option Nat
  | .flowStatsReq .. => some 1
  | .aggregateReq .. => some 2
  | .portStatsReq .. => some 4
  | .queueStatsReq .. => some 5
  | .groupStatsReq .. => some 6
  | .queueDescReq .. => some 15
  | .flowMonitorReq .. => some 16
  | _ => none

/-- The version requested by the header argument. -/
def version : HdrArg → Nat
  | .raw b => u8 b 0
  | .tup (some v) _ _ _ => v
  | _ => 5

/-- The length in the header argument. -/
def givenLength : HdrArg → Nat
  | .raw b => u16 b 2
  | .tup _ _ l _ => l.getD 8
  | _ => 0

end Twink.Of14
