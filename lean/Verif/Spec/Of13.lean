import Verif.Model.Of13Types
import Verif.Spec.Hello

/-!
# Specification of the OpenFlow 1.3 codec

What the parser should give back for what a builder was given.  Nothing here refers to the builders or
to the parser: the functions only say which values the tuple on the wire has (its type number, its
length in bytes, its fields).
-/

namespace Twink.Of13
open Spec

/-- Round up to a multiple of eight. -/
def up8 (n : Nat) : Nat := if n % 8 = 0 then n else n + (8 - n % 8)

/-- Fill up with NULs such that `extra` more bytes in front make a multiple of eight. -/
def fill8 (extra : Nat) (b : Bytes) : Bytes := b ++ List.replicate (up8 (extra + b.length) - (extra + b.length)) 0

/-- The tuples in a sequence argument. -/
def Seq.values : Seq α → List α
  | .items l => l.filterMap (fun | .tup a => Option.some a | _ => Option.none)
  | _ => []

/-- A sequence argument that is a list of tuples satisfying `P` (or `None`). -/
def Seq.All (P : α → Prop) : Seq α → Prop
  | .items l => ∀ e ∈ l, ∃ a, e = .tup a ∧ P a
  | .none => True
  | _ => False

/-- Number of bytes of an action. -/
def Action.size : Action → Nat
  | .output .. => 16
  | .setField _ _ f => up8 (4 + f.length)
  | .experimenter _ _ _ d => up8 (8 + d.length)
  | _ => 8

/-- The action as it comes back: with its type number and length, and the variable parts of set-field
and experimenter actions filled up to a multiple of eight bytes. -/
def Action.wire : Action → Action
  | .header t l => .header t l
  | .output _ _ p m => .output (some 0) (some 16) p m
  | .group _ _ g => .group (some 22) (some 8) g
  | .setQueue _ _ q => .setQueue (some 21) (some 8) q
  | .mplsTtl _ _ n => .mplsTtl (some 15) (some 8) n
  | .nwTtl _ _ n => .nwTtl (some 23) (some 8) n
  | .push t _ e => .push t (some 8) e
  | .popMpls _ _ e => .popMpls (some 20) (some 8) e
  | .setField _ _ f => .setField (some 25) (some (up8 (4 + f.length))) (fill8 4 f)
  | .experimenter _ _ x d => .experimenter (some 0xffff) (some (up8 (8 + d.length))) x (fill8 8 d)

/-- The types of actions that consist of type, length and padding only. -/
def plainTypes : List Nat := [11, 12, 16, 18, 24, 27]

/-- The action kinds which the library can both build and parse: all but set-MPLS-TTL; a bare action
header only with a type that has no further fields (or an unknown one). -/
def Action.Parseable : Action → Prop
  | .header t _ => ∀ n ∈ [0, 15, 17, 19, 20, 21, 22, 23, 25, 26, 0xffff], t ≠ some n
  | .mplsTtl .. => False
  | _ => True

/-- No variable part needs padding. -/
def Action.Aligned : Action → Prop
  | .setField _ _ f => (4 + f.length) % 8 = 0
  | .experimenter _ _ _ d => d.length % 8 = 0
  | _ => True

/-- The action with its type number and length filled in, everything else as given. -/
def Action.filled : Action → Action
  | .setField _ _ f => .setField (some 25) (some (4 + f.length)) f
  | .experimenter _ _ x d => .experimenter (some 0xffff) (some (8 + d.length)) x d
  | a => a.wire

/-- Sum of the sizes of the actions. -/
def actionsSize (s : Seq Action) : Nat := (s.values.map Action.size).sum

/-- The list of actions as it comes back. -/
def wireActions (s : Seq Action) : Seq Action := tups (s.values.map Action.wire)

/-- The instruction as it comes back. -/
def Instr.wire : Instr → Instr
  | .header t l => .header t l
  | .gotoTable _ _ n => .gotoTable (some 1) (some 8) n
  | .writeMetadata _ _ d m => .writeMetadata (some 2) (some 24) d m
  | .actions t _ s => .actions t (some (8 + actionsSize s)) (wireActions s)
  | .meter _ _ n => .meter (some 6) (some 8) n
  | .experimenter _ _ x d => .experimenter (some 0xffff) (some (8 + d.length)) x d

/-- Instructions which the library can both build and parse: not the bare header (it is used for table
features only), actions given as tuples that can be parsed. -/
def Instr.Parseable : Instr → Prop
  | .header .. => False
  | .actions _ _ s => s.All Action.Parseable
  | _ => True

/-- The match as it comes back: type number, true length, its fields as bytes. -/
def MatchT.wire (m : MatchT) (fields : Bytes) : MatchT := ⟨some (m.type.getD 1), some (4 + fields.length), .raw fields⟩

/-- The bytes of the OXM fields of a match given as bytes, as a list of byte strings, or as `None`. -/
def MatchT.fields (m : MatchT) : Bytes :=
  match m.oxm with
  | .raw b => b
  | .items l => (l.map (fun | .raw b => b | _ => [])).flatten
  | _ => []

/-- The bucket as it comes back. -/
def Bucket.wire (b : Bucket) : Bucket :=
  ⟨some (16 + actionsSize b.actions), b.weight, b.watchPort, b.watchGroup, wireActions b.actions⟩

/-- The meter band as it comes back. -/
def Band.wire : Band → Band
  | .header t l r b => .header t l r b
  | .drop _ _ r b => .drop (some 1) (some 16) r b
  | .dscp _ _ r b p => .dscp (some 2) (some 16) r b p
  | .experimenter _ _ r b x d => .experimenter (some 0xffff) (some (16 + d.length)) r b x d

/-- Bands which the library can both build and parse. -/
def Band.Parseable : Band → Prop
  | .drop .. => True
  | .dscp .. => True
  | _ => False

/-- The transaction id requested by the header argument; `rnd` is the one drawn if none is given. -/
def HdrArg.xid (rnd : Nat) : HdrArg → Nat
  | .raw b => u32 b 4
  | .tup _ _ _ x => x.getD rnd
  | _ => rnd

/-- The message type requested by the header argument, `dflt` if it leaves it open. -/
def HdrArg.type (dflt : Nat) : HdrArg → Nat
  | .raw b => u8 b 1
  | .tup _ (some t) _ _ => t
  | _ => dflt

/-- A text as the parser gives it: decoded, up to the first NUL. -/
def Text.wire : Text → Text
  | .str b => .uni (b.takeWhile (· != 0))
  | .uni b => .uni (b.takeWhile (· != 0))

/-- The port as it comes back: its name as Unicode text, up to the first NUL. -/
def PortT.wire (p : PortT) : PortT := { p with name := p.name.wire }

/-- The packet queue as it comes back, if it has no properties. -/
def Queue.wire (q : Queue) : Queue := ⟨q.queueId, q.port, some 16, .items []⟩

/-- Queues which the library can both build and parse: without properties. -/
def Queue.Parseable (q : Queue) : Prop := q.properties = .none ∨ q.properties = .items []

/-- The numbers in a list argument. -/
def Ints.values : Ints → List Nat
  | .list l => l
  | _ => []

/-- The hello element as it comes back. -/
def HelloElem.wire : HelloElem → HelloElem
  | .header t l => .header t l
  | .versionBitmap _ _ b => .versionBitmap (some 1) (some (4 + 4 * b.values.length)) (.list b.values)

/-- Hello elements which the library can both build and parse: bitmaps given as numbers or `None`. -/
def HelloElem.Parseable : HelloElem → Prop
  | .header .. => False
  | .versionBitmap _ _ b => b = .none ∨ ∃ l, b = .list l

/-- Number of bytes of a hello element. -/
def HelloElem.size : HelloElem → Nat
  | .header .. => 4
  | .versionBitmap _ _ b => up8 (4 + 4 * b.values.length)

/-- Number of bytes of an instruction. -/
def Instr.size : Instr → Nat
  | .header .. => 4
  | .writeMetadata .. => 24
  | .actions _ _ s => 8 + actionsSize s
  | .experimenter _ _ _ d => 8 + d.length
  | _ => 8

/-- Sum of the sizes of the instructions. -/
def instrsSize (s : Seq Instr) : Nat := (s.values.map Instr.size).sum

/-- Number of bytes of a match. -/
def MatchT.size (m : MatchT) : Nat := up8 (4 + m.fields.length)

/-- Buckets which the library can both build and parse. -/
def Bucket.Parseable (b : Bucket) : Prop := b.actions.All Action.Parseable

/-- Number of bytes of a bucket. -/
def Bucket.size (b : Bucket) : Nat := 16 + actionsSize b.actions

/-- A byte string in a field of `n` bytes: cut, or filled up with NULs. -/
def inField (n : Nat) (b : Bytes) : Bytes := b.take n ++ List.replicate (n - b.length) 0

/-- Four numbers, zeros by default. -/
def Ints.four : Ints → Ints
  | .list l => .list l
  | _ => .list [0, 0, 0, 0]

/-- A match argument as it comes back. -/
def wireMatch : Elem MatchT → Elem MatchT
  | .tup m => .tup (m.wire m.fields)
  | e => e

/-- The multipart record as it comes back. -/
def Rec.wire : Rec → Rec
  | .desc a b c d e => .desc (some (inField 256 (a.getD []))) (some (inField 256 (b.getD [])))
      (some (inField 256 (c.getD []))) (some (inField 32 (d.getD []))) (some (inField 256 (e.getD [])))
  | .flowStatsReq t p g c cm mt => .flowStatsReq (some (t.getD 0xff)) (some (p.getD 0xffffffff))
      (some (g.getD 0xffffffff)) (some (c.getD 0)) (some (cm.getD 0))
      (some (wireMatch (mt.getD (.tup ⟨none, none, .none⟩))))
  | .flowStats _ t ds dn p i h f c pc bc mt is =>
      .flowStats (some (48 + (match mt with | .tup m => m.size | _ => 0) + instrsSize is)) t ds dn p i h f c pc bc
        (wireMatch mt) (tups (is.values.map Instr.wire))
  | .portStatsReq p => .portStatsReq (some (p.getD 0xffffffff))
  | .queueStatsReq p q => .queueStatsReq (some (p.getD 0xffffffff)) q
  | .groupStatsReq g => .groupStatsReq (some (g.getD 0xfffffffc))
  | .groupStats _ g r p b ds dn cs => .groupStats (some (40 + 16 * cs.values.length)) g r p b ds dn (tups cs.values)
  | .groupDesc _ t g bs => .groupDesc (some (8 + (bs.values.map Bucket.size).sum)) t g (tups (bs.values.map Bucket.wire))
  | .groupFeatures t c ms as => .groupFeatures t c ms.four as.four
  | .meterStats m _ f p b ds dn bs => .meterStats m (some (40 + 16 * bs.values.length)) f p b ds dn (tups bs.values)
  | .meterConfig _ f m bs => .meterConfig (some (8 + 16 * bs.values.length)) f m (tups (bs.values.map Band.wire))
  | .port p => .port p.wire
  | r => r

/-- Multipart records which the library can both build and parse.  `meter_stats` does not compute its
length. -/
def Rec.Parseable : Rec → Prop
  | .flowStatsReq _ _ _ _ _ mt => mt = none ∨ ∃ m, mt = some (.tup m)
  | .flowStats _ _ _ _ _ _ _ _ _ _ _ mt is => (∃ m, mt = .tup m) ∧ is.All Instr.Parseable
  | .groupStats _ _ _ _ _ _ _ cs => cs.All (fun _ => True)
  | .groupDesc _ _ _ bs => bs.All Bucket.Parseable
  | .groupFeatures _ _ ms as => (ms = .none ∨ ∃ l, ms = .list l) ∧ (as = .none ∨ ∃ l, as = .list l)
  | .meterStats _ len _ _ _ _ _ bs => bs.All (fun _ => True) ∧ len = some (40 + 16 * bs.values.length)
  | .meterConfig _ _ _ bs => bs.All Band.Parseable
  | .aggregateReq .. => False
  | .tableFeatures .. => False
  | .portStats .. => False
  | .experimenter .. => False
  | _ => True

/-- The multipart reply type to which a record belongs. -/
def Rec.replyType : Rec → Option Nat
  | .desc .. => some 0
  | .flowStats .. => some 1
  | .aggregate .. => some 2
  | .tableStats .. => some 3
  | .portStats .. => some 4
  | .queueStats .. => some 5
  | .groupStats .. => some 6
  | .groupDesc .. => some 7
  | .groupFeatures .. => some 8
  | .meterStats .. => some 9
  | .meterConfig .. => some 10
  | .meterFeatures .. => some 11
  | .tableFeatures .. => some 12
  | .port .. => some 13
  | .experimenter .. => some 0xffff
  | _ => none

/-- The multipart request types to which a record belongs. -/
def Rec.requestTypes : Rec → List Nat
  | .flowStatsReq .. => [1]
  | .aggregateReq .. => [2]
  | .portStatsReq .. => [4]
  | .queueStatsReq .. => [5]
  | .groupStatsReq .. => [6]
  | .meterReq .. => [9, 10]
  | _ => []

/-- All actions of the instruction are aligned. -/
def Instr.Aligned : Instr → Prop
  | .actions _ _ s => s.All Action.Aligned
  | _ => True

/-- The instruction with type numbers and lengths filled in (also in its actions), everything else as given. -/
def Instr.filled : Instr → Instr
  | .actions t _ s => .actions t (some (8 + actionsSize s)) (tups (s.values.map Action.filled))
  | i => i.wire

/-- The bucket with its length and the types and lengths of its actions filled in, everything else as given. -/
def Bucket.filled (b : Bucket) : Bucket :=
  { b with len := some (16 + actionsSize b.actions), actions := tups (b.actions.values.map Action.filled) }

/-- At offset `o` stands what looks like a set-field action (25), an experimenter action or an experimenter
instruction (0xffff) whose length field is zero. -/
def ZeroLength (m : Bytes) (o : Nat) : Prop :=
  o + 4 ≤ m.length ∧ (u16 m o = 25 ∨ u16 m o = 0xffff) ∧ u16 m (o + 2) = 0

/-- At offset `o` stands what looks like an experimenter meter band. -/
def ExperimenterBand (m : Bytes) (o : Nat) : Prop := o + 16 ≤ m.length ∧ u16 m o = 0xffff

end Twink.Of13
