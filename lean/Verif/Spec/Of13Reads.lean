import Verif.Model.Of13Types
import Verif.Spec.Reads

/-!
# Which OpenFlow 1.3 message stands in a buffer

One rule for each structure, with the offsets of the fields as in the tables of the OpenFlow 1.3 specification; the value is the
named tuple of twink/ofp4.  A structure at `o` with end `e` is `…At m o value e`.

Where the code departs from the standard, the rule says what the code reads, and the comment says so: port statistics (3 bytes of padding
instead of 4), set-field actions (the field with its padding), data up to the length given even if the buffer ends before,
and structures that have no rule at all: actions that set the MPLS time to live, queue properties, table features, PORT_MOD and EXPERIMENTER.
-/

namespace Twink.Of13.Reads
open Spec Twink.Reads

section
variable (m : Bytes)

/-- `struct ofp_header` -/
def hdrAt (o : Nat) : Hdr := ⟨u8 m o, u8 m (o + 1), u16 m (o + 2), u32 m (o + 4)⟩

/-- The end of a message according to its header. -/
def msgEnd (o : Nat) : Nat := o + u16 m (o + 2)

/-- A header of version 4 (OpenFlow 1.3) and type `t` stands at `o`, and `n` bytes or more are there. -/
def HeadAt (o t n : Nat) : Prop := o + 8 ≤ m.length ∧ o + n ≤ m.length ∧ u8 m o = 4 ∧ u8 m (o + 1) = t

/-- `struct ofp_port` -/
inductive PortAt (o : Nat) : PortT → Nat → Prop
  | mk {name : Bytes} : o + 64 ≤ m.length → UpToNul (part m (o + 16) (o + 32)) name → Utf8 name →
    PortAt o ⟨u32 m o, part m (o + 8) (o + 14), .uni name, u32 m (o + 32), u32 m (o + 36), u32 m (o + 40), u32 m (o + 44), u32 m (o + 48),
      u32 m (o + 52), u32 m (o + 56), u32 m (o + 60)⟩ (o + 64)

/-- `struct ofp_packet_queue`, without properties -/
inductive QueueAt (o : Nat) : Queue → Nat → Prop
  | mk : o + 16 ≤ m.length → u16 m (o + 8) = 16 → QueueAt o ⟨u32 m o, u32 m (o + 4), some 16, .items []⟩ (o + 16)

/-- `struct ofp_match`: the fields, and padding to a multiple of eight -/
inductive MatchAt (o : Nat) : MatchT → Nat → Prop
  | mk : o + 4 ≤ m.length →
    MatchAt o ⟨some (u16 m o), some (u16 m (o + 2)), .raw (part m (o + 4) (o + u16 m (o + 2)))⟩ (o + up8 (u16 m (o + 2)))

/-- The action structures; those that have no fields are read as `ofp_action_header`, and so are unknown ones. -/
inductive ActionAt (o : Nat) : Action → Nat → Prop
  | output : o + 16 ≤ m.length → u16 m o = 0 →
    ActionAt o (.output (some 0) (some (u16 m (o + 2))) (u32 m (o + 4)) (u16 m (o + 8))) (o + 16)
  | group : o + 8 ≤ m.length → u16 m o = 22 → ActionAt o (.group (some 22) (some (u16 m (o + 2))) (u32 m (o + 4))) (o + 8)
  | setQueue : o + 8 ≤ m.length → u16 m o = 21 → ActionAt o (.setQueue (some 21) (some (u16 m (o + 2))) (u32 m (o + 4))) (o + 8)
  | nwTtl : o + 8 ≤ m.length → u16 m o = 23 → ActionAt o (.nwTtl (some 23) (some (u16 m (o + 2))) (u8 m (o + 4))) (o + 8)
  | push : o + 8 ≤ m.length → u16 m o ∈ [17, 19, 26] →
    ActionAt o (.push (some (u16 m o)) (some (u16 m (o + 2))) (u16 m (o + 4))) (o + 8)
  | popMpls : o + 8 ≤ m.length → u16 m o = 20 → ActionAt o (.popMpls (some 20) (some (u16 m (o + 2))) (u16 m (o + 4))) (o + 8)
  | setField : o + 8 ≤ m.length → u16 m o = 25 →
    ActionAt o (.setField (some 25) (some (u16 m (o + 2))) (part m (o + 4) (o + u16 m (o + 2)))) (o + u16 m (o + 2))
  | experimenter : o + 8 ≤ m.length → u16 m o = 65535 →
    ActionAt o (.experimenter (some 65535) (some (u16 m (o + 2))) (u32 m (o + 4)) (part m (o + 8) (o + u16 m (o + 2)))) (o + u16 m (o + 2))
  | plain : o + 8 ≤ m.length → u16 m o ∉ [0, 15, 17, 19, 20, 21, 22, 23, 25, 26, 65535] →
    ActionAt o (.header (some (u16 m o)) (some (u16 m (o + 2)))) (o + 8)

/-- The instruction structures -/
inductive InstrAt (o : Nat) : Instr → Nat → Prop
  | gotoTable : o + 8 ≤ m.length → u16 m o = 1 → InstrAt o (.gotoTable (some 1) (some (u16 m (o + 2))) (u8 m (o + 4))) (o + 8)
  | writeMetadata : o + 24 ≤ m.length → u16 m o = 2 →
    InstrAt o (.writeMetadata (some 2) (some (u16 m (o + 2))) (u64 m (o + 8)) (u64 m (o + 16))) (o + 24)
  | actions {l : List Action} : o + 8 ≤ m.length → u16 m o ∈ [3, 4, 5] →
    Row (ActionAt m) (o + u16 m (o + 2)) (o + 8) l (o + u16 m (o + 2)) →
    InstrAt o (.actions (some (u16 m o)) (some (u16 m (o + 2))) (tups l)) (o + u16 m (o + 2))
  | meter : o + 8 ≤ m.length → u16 m o = 6 → InstrAt o (.meter (some 6) (some (u16 m (o + 2))) (u32 m (o + 4))) (o + 8)
  | experimenter : o + 8 ≤ m.length → u16 m o = 65535 →
    InstrAt o (.experimenter (some 65535) (some (u16 m (o + 2))) (u32 m (o + 4)) (part m (o + 8) (o + u16 m (o + 2)))) (o + u16 m (o + 2))

/-- `struct ofp_bucket` -/
inductive BucketAt (o : Nat) : Bucket → Nat → Prop
  | mk {l : List Action} {e : Nat} : o + 16 ≤ m.length → Row (ActionAt m) (o + u16 m o) (o + 16) l e →
    BucketAt o ⟨some (u16 m o), u16 m (o + 2), u32 m (o + 4), u32 m (o + 8), tups l⟩ e

/-- The meter band structures; an experimenter's one is read as often as one likes (its end is its beginning), its data are the whole band. -/
inductive BandAt (o : Nat) : Band → Nat → Prop
  | drop : o + 16 ≤ m.length → u16 m o = 1 →
    BandAt o (.drop (some 1) (some (u16 m (o + 2))) (u32 m (o + 4)) (u32 m (o + 8))) (o + 16)
  | dscp : o + 16 ≤ m.length → u16 m o = 2 →
    BandAt o (.dscp (some 2) (some (u16 m (o + 2))) (u32 m (o + 4)) (u32 m (o + 8)) (u8 m (o + 12))) (o + 16)
  | experimenter : o + 16 ≤ m.length → u16 m o = 65535 →
    BandAt o (.experimenter (some 65535) (some (u16 m (o + 2))) (u32 m (o + 4)) (u32 m (o + 8)) (u32 m (o + 12))
      (part m o (o + u16 m (o + 2)))) o

/-- `struct ofp_hello_elem_versionbitmap`, the only element known -/
inductive ElemAt (o : Nat) : HelloElem → Nat → Prop
  | versionBitmap : o + 4 * (u16 m (o + 2) / 4) ≤ m.length → o + 4 ≤ m.length → u16 m o = 1 → 4 ≤ u16 m (o + 2) →
    ElemAt o (.versionBitmap (some 1) (some (u16 m (o + 2))) (.list ((List.range (u16 m (o + 2) / 4 - 1)).map fun i => u32 m (o + 4 + 4 * i))))
      (o + 4 * (u16 m (o + 2) / 4) + (up8 (u16 m (o + 2)) - u16 m (o + 2)))

/-- Two counters -/
inductive PairAt (o : Nat) : Nat × Nat → Nat → Prop
  | mk : o + 16 ≤ m.length → PairAt o (u64 m o, u64 m (o + 8)) (o + 16)

/-! ### bodies of multipart messages -/

/-- `struct ofp_flow_stats` -/
inductive FlowStatsAt (o : Nat) : Rec → Nat → Prop
  | mk {mt : MatchT} {e : Nat} {l : List Instr} : o + 48 ≤ m.length → MatchAt m (o + 48) mt e → Row (InstrAt m) (o + u16 m o) e l (o + u16 m o) →
    FlowStatsAt o (.flowStats (some (u16 m o)) (u8 m (o + 2)) (u32 m (o + 4)) (u32 m (o + 8)) (u16 m (o + 12)) (u16 m (o + 14)) (u16 m (o + 16))
      (u16 m (o + 18)) (u64 m (o + 24)) (u64 m (o + 32)) (u64 m (o + 40)) (.tup mt) (tups l)) (o + u16 m o)

/-- `struct ofp_aggregate_stats_reply` -/
inductive AggregateAt (o : Nat) : Rec → Nat → Prop
  | mk : o + 24 ≤ m.length → AggregateAt o (.aggregate (u64 m o) (u64 m (o + 8)) (u32 m (o + 16))) (o + 24)

/-- `struct ofp_table_stats` -/
inductive TableStatsAt (o : Nat) : Rec → Nat → Prop
  | mk : o + 24 ≤ m.length → TableStatsAt o (.tableStats (u8 m o) (u32 m (o + 4)) (u64 m (o + 8)) (u64 m (o + 16))) (o + 24)

/-- `struct ofp_port_stats`; the code takes three bytes of padding instead of four. -/
inductive PortStatsAt (o : Nat) : Rec → Nat → Prop
  | mk : o + 111 ≤ m.length →
    PortStatsAt o (.portStats (u32 m o) ((List.range 12).map fun i => u64 m (o + 7 + 8 * i)) (u32 m (o + 103)) (u32 m (o + 107))) (o + 111)

/-- `struct ofp_queue_stats` -/
inductive QueueStatsAt (o : Nat) : Rec → Nat → Prop
  | mk : o + 40 ≤ m.length → QueueStatsAt o (.queueStats (u32 m o) (u32 m (o + 4)) (u64 m (o + 8)) (u64 m (o + 16)) (u64 m (o + 24))
      (u32 m (o + 32)) (u32 m (o + 36))) (o + 40)

/-- `struct ofp_group_stats` -/
inductive GroupStatsAt (o : Nat) : Rec → Nat → Prop
  | mk {l : List (Nat × Nat)} : o + 40 ≤ m.length → Row (PairAt m) (o + u16 m o) (o + 40) l (o + u16 m o) →
    GroupStatsAt o (.groupStats (some (u16 m o)) (u32 m (o + 4)) (u32 m (o + 8)) (u64 m (o + 16)) (u64 m (o + 24)) (u32 m (o + 32))
      (u32 m (o + 36)) (tups l)) (o + u16 m o)

/-- `struct ofp_group_desc` -/
inductive GroupDescAt (o : Nat) : Rec → Nat → Prop
  | mk {l : List Bucket} : o + 8 ≤ m.length → Row (BucketAt m) (o + u16 m o) (o + 8) l (o + u16 m o) →
    GroupDescAt o (.groupDesc (some (u16 m o)) (u8 m (o + 2)) (u32 m (o + 4)) (tups l)) (o + u16 m o)

/-- `struct ofp_meter_stats` -/
inductive MeterStatsAt (o : Nat) : Rec → Nat → Prop
  | mk {l : List (Nat × Nat)} : o + 40 ≤ m.length → Row (PairAt m) (o + u16 m (o + 4)) (o + 40) l (o + u16 m (o + 4)) →
    MeterStatsAt o (.meterStats (u32 m o) (some (u16 m (o + 4))) (u32 m (o + 12)) (u64 m (o + 16)) (u64 m (o + 24)) (u32 m (o + 32))
      (u32 m (o + 36)) (tups l)) (o + u16 m (o + 4))

/-- `struct ofp_meter_config` -/
inductive MeterConfigAt (o : Nat) : Rec → Nat → Prop
  | mk {l : List Band} : o + 8 ≤ m.length → Row (BandAt m) (o + u16 m o) (o + 8) l (o + u16 m o) →
    MeterConfigAt o (.meterConfig (some (u16 m o)) (u16 m (o + 2)) (u32 m (o + 4)) (tups l)) (o + u16 m o)

/-- `struct ofp_port` as a record -/
inductive PortRecAt (o : Nat) : Rec → Nat → Prop
  | mk {p : PortT} {e : Nat} : PortAt m o p e → PortRecAt o (.port p) e

/-- Records that fill the room up to `limit` -/
def Records (At : Nat → Rec → Nat → Prop) (limit o : Nat) (b : Body) : Prop :=
  ∃ l : List Rec, Row At limit o l limit ∧ b = .many (l.map .tup)

/-- The bodies of requests.  There is no rule for features of tables, but for their absence: nothing stands before `limit`. -/
inductive RequestAt (limit o : Nat) : Nat → Body → Prop
  | nothing {t : Nat} : t ∈ [0, 3, 7, 8, 11, 13] → RequestAt limit o t (.raw [])
  | flow {mt : MatchT} {e : Nat} : o + 32 ≤ m.length → MatchAt m (o + 32) mt e →
    RequestAt limit o 1 (.one (.flowStatsReq (some (u8 m o)) (some (u32 m (o + 4))) (some (u32 m (o + 8))) (some (u64 m (o + 16)))
      (some (u64 m (o + 24))) (some (.tup mt))))
  | aggregate {mt : MatchT} {e : Nat} : o + 32 ≤ m.length → MatchAt m (o + 32) mt e →
    RequestAt limit o 2 (.one (.aggregateReq (some (u8 m o)) (some (u32 m (o + 4))) (some (u32 m (o + 8))) (some (u64 m (o + 16)))
      (some (u64 m (o + 24))) (some (.tup mt))))
  | port : o + 8 ≤ m.length → RequestAt limit o 4 (.one (.portStatsReq (some (u32 m o))))
  | queue : o + 8 ≤ m.length → RequestAt limit o 5 (.one (.queueStatsReq (some (u32 m o)) (some (u32 m (o + 4)))))
  | group : o + 8 ≤ m.length → RequestAt limit o 6 (.one (.groupStatsReq (some (u32 m o))))
  | meter {t : Nat} : t = 9 ∨ t = 10 → o + 8 ≤ m.length → RequestAt limit o t (.one (.meterReq (u32 m o)))
  | tables : limit ≤ o → RequestAt limit o 12 (.many [])
  | experimenter : RequestAt limit o 65535 (.raw (part m o limit))

/-- The bodies of replies -/
inductive ReplyAt (limit o : Nat) : Nat → Body → Prop
  | desc : o + 1056 ≤ m.length → ReplyAt limit o 0 (.one (.desc (some (part m o (o + 256))) (some (part m (o + 256) (o + 512)))
      (some (part m (o + 512) (o + 768))) (some (part m (o + 768) (o + 800))) (some (part m (o + 800) (o + 1056)))))
  | flow {b : Body} : Records (FlowStatsAt m) limit o b → ReplyAt limit o 1 b
  | aggregate {b : Body} : Records (AggregateAt m) limit o b → ReplyAt limit o 2 b
  | table {b : Body} : Records (TableStatsAt m) limit o b → ReplyAt limit o 3 b
  | port {b : Body} : Records (PortStatsAt m) limit o b → ReplyAt limit o 4 b
  | queue {b : Body} : Records (QueueStatsAt m) limit o b → ReplyAt limit o 5 b
  | group {b : Body} : Records (GroupStatsAt m) limit o b → ReplyAt limit o 6 b
  | groupDesc {b : Body} : Records (GroupDescAt m) limit o b → ReplyAt limit o 7 b
  | groupFeatures : o + 40 ≤ m.length → ReplyAt limit o 8 (.one (.groupFeatures (u32 m o) (u32 m (o + 4))
      (.list [u32 m (o + 8), u32 m (o + 12), u32 m (o + 16), u32 m (o + 20)])
      (.list [u32 m (o + 24), u32 m (o + 28), u32 m (o + 32), u32 m (o + 36)])))
  | meter {b : Body} : Records (MeterStatsAt m) limit o b → ReplyAt limit o 9 b
  | meterConfig {b : Body} : Records (MeterConfigAt m) limit o b → ReplyAt limit o 10 b
  | meterFeatures : o + 16 ≤ m.length → ReplyAt limit o 11 (.one (.meterFeatures (u32 m o) (u32 m (o + 4)) (u32 m (o + 8)) (u8 m (o + 12)) (u8 m (o + 13))))
  | tables : o = limit → ReplyAt limit o 12 (.many [])
  | ports {b : Body} : Records (PortRecAt m) limit o b → ReplyAt limit o 13 b
  | experimenter : o + 8 ≤ m.length → ReplyAt limit o 65535 (.one (.experimenter (u32 m o) (u32 m (o + 4)) (part m (o + 8) limit)))

/-! ### messages -/

/-- The types with a rule of their own, or with none (4 and 16). -/
def knownTypes : List Nat := [0, 1, 4, 6, 8, 9, 10, 11, 12, 13, 14, 15, 16, 17, 18, 19, 22, 23, 24, 27, 28, 29]

/-- Messages -/
inductive MsgAt (o : Nat) : Msg → Prop
  | hello {l : List HelloElem} : HeadAt m o 0 8 → Row (ElemAt m) (msgEnd m o) (o + 8) l (msgEnd m o) → MsgAt o (.hello (hdrAt m o) l)
  | error : HeadAt m o 1 12 → MsgAt o (.error (hdrAt m o) (u16 m (o + 8)) (u16 m (o + 10)) (part m (o + 12) (msgEnd m o)))
  | features : HeadAt m o 6 32 →
    MsgAt o (.features (hdrAt m o) (u64 m (o + 8)) (u32 m (o + 16)) (u8 m (o + 20)) (u8 m (o + 21)) (u32 m (o + 24)))
  | config {t : Nat} : t = 8 ∨ t = 9 → HeadAt m o t 12 → MsgAt o (.config (hdrAt m o) (u16 m (o + 8)) (u16 m (o + 10)))
  | packetIn {mt : MatchT} {e : Nat} : HeadAt m o 10 24 → MatchAt m (o + 24) mt e → e + 2 ≤ m.length →
    MsgAt o (.packetIn (hdrAt m o) (u32 m (o + 8)) (u16 m (o + 12)) (u8 m (o + 14)) (u8 m (o + 15)) (u64 m (o + 16)) mt
      (part m (e + 2) (msgEnd m o)))
  | flowRemoved {mt : MatchT} {e : Nat} : HeadAt m o 11 48 → MatchAt m (o + 48) mt e →
    MsgAt o (.flowRemoved (hdrAt m o) (u64 m (o + 8)) (u16 m (o + 16)) (u8 m (o + 18)) (u8 m (o + 19)) (u32 m (o + 20)) (u32 m (o + 24))
      (u16 m (o + 28)) (u16 m (o + 30)) (u64 m (o + 32)) (u64 m (o + 40)) mt)
  | portStatus {p : PortT} {e : Nat} : HeadAt m o 12 16 → PortAt m (o + 16) p e → MsgAt o (.portStatus (hdrAt m o) (u8 m (o + 8)) p)
  | packetOut {l : List Action} {e : Nat} : HeadAt m o 13 24 → Row (ActionAt m) (o + 24 + u16 m (o + 16)) (o + 24) l e →
    MsgAt o (.packetOut (hdrAt m o) (u32 m (o + 8)) (u32 m (o + 12)) (u16 m (o + 16)) l (part m e (msgEnd m o)))
  | flowMod {mt : MatchT} {e : Nat} {l : List Instr} : HeadAt m o 14 48 → MatchAt m (o + 48) mt e →
    Row (InstrAt m) (msgEnd m o) e l (msgEnd m o) →
    MsgAt o (.flowMod (hdrAt m o) (u64 m (o + 8)) (u64 m (o + 16)) (u8 m (o + 24)) (u8 m (o + 25)) (u16 m (o + 26)) (u16 m (o + 28))
      (u16 m (o + 30)) (u32 m (o + 32)) (u32 m (o + 36)) (u32 m (o + 40)) (u16 m (o + 44)) mt l)
  | groupMod {l : List Bucket} {e : Nat} : HeadAt m o 15 16 → Row (BucketAt m) (msgEnd m o) (o + 16) l e →
    MsgAt o (.groupMod (hdrAt m o) (u16 m (o + 8)) (u8 m (o + 10)) (u32 m (o + 12)) l)
  | tableMod : HeadAt m o 17 16 → MsgAt o (.tableMod (hdrAt m o) (u8 m (o + 8)) (u32 m (o + 12)))
  | mpRequest {b : Body} : HeadAt m o 18 16 → RequestAt m (msgEnd m o) (o + 16) (u16 m (o + 8)) b →
    MsgAt o (.mpRequest (hdrAt m o) (u16 m (o + 8)) (u16 m (o + 10)) b)
  | mpReply {b : Body} : HeadAt m o 19 16 → ReplyAt m (msgEnd m o) (o + 16) (u16 m (o + 8)) b →
    MsgAt o (.mpReply (hdrAt m o) (u16 m (o + 8)) (u16 m (o + 10)) b)
  | queueReq : HeadAt m o 22 16 → MsgAt o (.queueReq (hdrAt m o) (u32 m (o + 8)))
  | queueRep {l : List Queue} : HeadAt m o 23 16 → Row (QueueAt m) (msgEnd m o) (o + 16) l (msgEnd m o) →
    MsgAt o (.queueRep (hdrAt m o) (u32 m (o + 8)) l)
  | role : HeadAt m o 24 24 → MsgAt o (.role (hdrAt m o) (u32 m (o + 8)) (u64 m (o + 16)))
  | async {t : Nat} : t = 27 ∨ t = 28 → HeadAt m o t 32 →
    MsgAt o (.async (hdrAt m o) (u32 m (o + 8), u32 m (o + 12)) (u32 m (o + 16), u32 m (o + 20)) (u32 m (o + 24), u32 m (o + 28)))
  | meterMod {l : List Band} {e : Nat} : HeadAt m o 29 16 → Row (BandAt m) (msgEnd m o) (o + 16) l e →
    MsgAt o (.meterMod (hdrAt m o) (u16 m (o + 8)) (u16 m (o + 10)) (u32 m (o + 12)) l)
  | other {t : Nat} : t ∉ knownTypes → HeadAt m o t 8 → MsgAt o (.other (hdrAt m o) (part m (o + 8) (msgEnd m o)))

/-! ### what is never read to the end -/

/-- Actions -/
def ActionsNever (limit o : Nat) : Prop := Endless (ActionAt m) (fun _ => False) limit o

/-- An instruction with such actions -/
def InstrNever (o : Nat) : Prop := o + 8 ≤ m.length ∧ u16 m o ∈ [3, 4, 5] ∧ ActionsNever m (o + u16 m (o + 2)) (o + 8)

/-- Instructions -/
def InstrsNever (limit o : Nat) : Prop := Endless (InstrAt m) (InstrNever m) limit o

/-- A bucket with such actions -/
def BucketNever (o : Nat) : Prop := o + 16 ≤ m.length ∧ ActionsNever m (o + u16 m o) (o + 16)

/-- Buckets -/
def BucketsNever (limit o : Nat) : Prop := Endless (BucketAt m) (BucketNever m) limit o

/-- Meter bands -/
def BandsNever (limit o : Nat) : Prop := Endless (BandAt m) (fun _ => False) limit o

/-- Flow statistics with such instructions -/
def FlowStatsNever (o : Nat) : Prop := o + 48 ≤ m.length ∧ ∃ mt e, MatchAt m (o + 48) mt e ∧ InstrsNever m (o + u16 m o) e

/-- A description of a group with such buckets -/
def GroupDescNever (o : Nat) : Prop := o + 8 ≤ m.length ∧ BucketsNever m (o + u16 m o) (o + 8)

/-- A configuration of a meter with such bands -/
def MeterConfigNever (o : Nat) : Prop := o + 8 ≤ m.length ∧ BandsNever m (o + u16 m o) (o + 8)

/-- Messages -/
inductive MsgNever (o : Nat) : Prop
  | packetOut : HeadAt m o 13 24 → ActionsNever m (o + 24 + u16 m (o + 16)) (o + 24) → MsgNever o
  | flowMod {mt : MatchT} {e : Nat} : HeadAt m o 14 48 → MatchAt m (o + 48) mt e → InstrsNever m (msgEnd m o) e → MsgNever o
  | groupMod : HeadAt m o 15 16 → BucketsNever m (msgEnd m o) (o + 16) → MsgNever o
  | meterMod : HeadAt m o 29 16 → BandsNever m (msgEnd m o) (o + 16) → MsgNever o
  | flowStats : HeadAt m o 19 16 → u16 m (o + 8) = 1 → Endless (FlowStatsAt m) (FlowStatsNever m) (msgEnd m o) (o + 16) → MsgNever o
  | groupDesc : HeadAt m o 19 16 → u16 m (o + 8) = 7 → Endless (GroupDescAt m) (GroupDescNever m) (msgEnd m o) (o + 16) → MsgNever o
  | meterConfig : HeadAt m o 19 16 → u16 m (o + 8) = 10 → Endless (MeterConfigAt m) (MeterConfigNever m) (msgEnd m o) (o + 16) → MsgNever o

end
end Twink.Of13.Reads
