import Verif.Model.Of14Types
import Verif.Spec.Of13Reads

/-!
# Which OpenFlow 1.4 message stands in a buffer

As `Spec/Of13Reads`, for OpenFlow 1.4 and the named tuples of twink/ofp5.  The match, meter bands, elements of hello and counters are the ones
of OpenFlow 1.3.  Messages nest, so that a message has an end too, where the parser goes on.

Where the code departs from the standard, the rule says what the code reads, and the comment says so.  There is no rule at all for
actions that set the MPLS time to live, records of table and port and queue statistics and table descriptions, features with lists of actions,
requests about meters, TABLE_STATUS, bundles with properties, ROLE_STATUS with properties, ports without properties.
-/

namespace Twink.Of14.Reads
open Spec Twink.Reads
open Of13 (Hdr MatchT Band HelloElem tups)
open Of13.Reads (hdrAt msgEnd MatchAt BandAt ElemAt PairAt)

section
variable (m : Bytes)

/-- A header of version 5 (OpenFlow 1.4) and type `t` stands at `o`, and `n` bytes or more are there. -/
def HeadAt (o t n : Nat) : Prop := o + 8 ≤ m.length ∧ o + n ≤ m.length ∧ u8 m o = 5 ∧ u8 m (o + 1) = t

/-- A number of 32 bits in two's complement -/
def i32 (o : Nat) : Int := if u32 m o < 2 ^ 31 then u32 m o else (u32 m o : Int) - 2 ^ 32

/-! ### properties -/

/-- Properties of ports; that of an experimenter is not filled up to a multiple of eight. -/
inductive PortPropAt (o : Nat) : Pr → Nat → Prop
  | ethernet : o + 32 ≤ m.length → u16 m o = 0 →
    PortPropAt o (.portEthernet (some 0) (some (u16 m (o + 2))) (u32 m (o + 8)) (u32 m (o + 12)) (u32 m (o + 16)) (u32 m (o + 20))
      (u32 m (o + 24)) (u32 m (o + 28))) (o + 32)
  | optical : o + 40 ≤ m.length → u16 m o = 1 →
    PortPropAt o (.portOptical (some 1) (some (u16 m (o + 2))) (u32 m (o + 8)) (u32 m (o + 12)) (u32 m (o + 16)) (u32 m (o + 20))
      (u32 m (o + 24)) (u32 m (o + 28)) (u32 m (o + 32)) (u16 m (o + 36)) (u16 m (o + 38))) (o + 40)
  | experimenter : o + 12 ≤ m.length → u16 m o = 65535 →
    PortPropAt o (.portExp (some 65535) (some (u16 m (o + 2))) (u32 m (o + 4)) (u32 m (o + 8)) (some (part m (o + 12) (o + u16 m (o + 2)))))
      (o + u16 m (o + 2))

/-- `struct ofp_port`: what is read is its first property, and nothing without one. -/
inductive PortAt (o : Nat) : Pr → Nat → Prop
  | mk {p : Pr} {e : Nat} : o + 40 ≤ m.length → 40 < u16 m (o + 4) → PortPropAt m (o + 40) p e → PortAt o p e

/-- Properties of tables -/
inductive TablePropAt (o : Nat) : Pr → Nat → Prop
  | eviction : o + 8 ≤ m.length → u16 m o = 2 → TablePropAt o (.eviction (some 2) (some (u16 m (o + 2))) (u32 m (o + 4))) (o + 8)
  | vacancy : o + 8 ≤ m.length → u16 m o = 3 →
    TablePropAt o (.vacancy (some 3) (some (u16 m (o + 2))) (u8 m (o + 4)) (u8 m (o + 5)) (u8 m (o + 6))) (o + 8)
  | experimenter : o + 12 ≤ m.length → u16 m o = 65535 →
    TablePropAt o (.tableExp (some 65535) (some (u16 m (o + 2))) (u32 m (o + 4)) (u32 m (o + 8)) (some (part m (o + 12) (o + u16 m (o + 2)))))
      (o + up8 (u16 m (o + 2)))

/-- Properties in port modifications; the data of an experimenter's are the whole property; of an unknown one nothing is read, so that
it ends where it begins. -/
inductive PortModPropAt (o : Nat) : Pr → Nat → Prop
  | ethernet : o + 8 ≤ m.length → u16 m o = 0 → PortModPropAt o (.pmEthernet (some 0) (some (u16 m (o + 2))) (u32 m (o + 4))) (o + 8)
  | optical : o + 24 ≤ m.length → u16 m o = 1 →
    PortModPropAt o (.pmOptical (some 1) (some (u16 m (o + 2))) (u32 m (o + 4)) (u32 m (o + 8)) (i32 m (o + 12)) (u32 m (o + 16)) (u32 m (o + 20)))
      (o + 24)
  | experimenter : o + 12 ≤ m.length → u16 m o = 65535 →
    PortModPropAt o (.pmExp (some 65535) (some (u16 m (o + 2))) (u32 m (o + 4)) (u32 m (o + 8)) (some (part m o (o + u16 m (o + 2)))))
      (o + up8 (u16 m (o + 2)))
  | unknown : o + 4 ≤ m.length → u16 m o ∉ [0, 1, 65535] → PortModPropAt o (.header (some (u16 m o)) none) o

/-- Properties of port statistics -/
inductive PortStatsPropAt (o : Nat) : Pr → Nat → Prop
  | ethernet : o + 40 ≤ m.length → u16 m o = 0 →
    PortStatsPropAt o (.psEthernet (some 0) (some (u16 m (o + 2))) (u64 m (o + 8)) (u64 m (o + 16)) (u64 m (o + 24)) (u64 m (o + 32))) (o + 40)
  | optical : o + 44 ≤ m.length → u16 m o = 1 →
    PortStatsPropAt o (.psOptical (some 1) (some (u16 m (o + 2))) (u32 m (o + 8)) (u32 m (o + 12)) (u32 m (o + 16)) (u32 m (o + 20))
      (u32 m (o + 24)) (u32 m (o + 28)) (u32 m (o + 32)) (u16 m (o + 36)) (u16 m (o + 38)) (u16 m (o + 40)) (u16 m (o + 42))) (o + 44)
  | experimenter : o + 12 ≤ m.length → u16 m o = 65535 →
    PortStatsPropAt o (.psExp (some 65535) (some (u16 m (o + 2))) (u32 m (o + 4)) (u32 m (o + 8)) (some (part m (o + 12) (o + u16 m (o + 2)))))
      (o + up8 (u16 m (o + 2)))

/-- Properties of queue statistics -/
inductive QueueStatsPropAt (o : Nat) : Pr → Nat → Prop
  | experimenter : o + 12 ≤ m.length → u16 m o = 65535 →
    QueueStatsPropAt o (.qsExp (some 65535) (some (u16 m (o + 2))) (u32 m (o + 4)) (u32 m (o + 8)) (some (part m (o + 12) (o + u16 m (o + 2)))))
      (o + up8 (u16 m (o + 2)))

/-- Properties of queues -/
inductive QueuePropAt (o : Nat) : Pr → Nat → Prop
  | minRate : o + 8 ≤ m.length → u16 m o = 1 → QueuePropAt o (.minRate (some 1) (some (u16 m (o + 2))) (u16 m (o + 4))) (o + 8)
  | maxRate : o + 8 ≤ m.length → u16 m o = 2 → QueuePropAt o (.maxRate (some 2) (some (u16 m (o + 2))) (u16 m (o + 4))) (o + 8)
  | experimenter : o + 12 ≤ m.length → u16 m o = 65535 →
    QueuePropAt o (.qdExp (some 65535) (some (u16 m (o + 2))) (u32 m (o + 4)) (u32 m (o + 8)) (some (part m (o + 12) (o + u16 m (o + 2)))))
      (o + up8 (u16 m (o + 2)))

/-- Properties of asynchronous configurations -/
inductive AsyncPropAt (o : Nat) : Pr → Nat → Prop
  | reasons : o + 8 ≤ m.length → u16 m o ∈ [0, 1, 2, 3, 4, 5, 6, 7, 10, 11] →
    AsyncPropAt o (.reasons (some (u16 m o)) (some (u16 m (o + 2))) (u32 m (o + 4))) (o + 8)

/-- `struct ofp_instruction_id`: the next one begins four bytes later, whatever the length. -/
inductive IdAt (o : Nat) : IdT → Nat → Prop
  | mk : o + 4 ≤ m.length → IdAt o ⟨u16 m o, some (u16 m (o + 2)), some (part m (o + 4) (o + u16 m (o + 2)))⟩ (o + 4)

/-- Properties of table features.  Numbers of tables are read from the beginning of the property instead of from behind its
header, and not passed over; nor are an experimenter's data.  Lists of actions are not read. -/
inductive FeatureAt (o : Nat) : TfProp → Nat → Prop
  | instructions {l : List IdT} : o + 4 ≤ m.length → u16 m o ∈ [0, 1] → Row (IdAt m) (o + u16 m (o + 2)) (o + 4) l (o + u16 m (o + 2)) →
    FeatureAt o (.instructions (some (u16 m o)) (some (u16 m (o + 2))) (tups l)) (o + up8 (u16 m (o + 2)))
  | tables : o + 4 ≤ m.length → u16 m o ∈ [2, 3, 14] → 4 ≤ u16 m (o + 2) → o + (u16 m (o + 2) - 4) ≤ m.length →
    FeatureAt o (.tables (some (u16 m o)) (some (u16 m (o + 2))) (.ints ((List.range (u16 m (o + 2) - 4)).map fun i => u8 m (o + i))))
      (o + 4 + (up8 (u16 m (o + 2)) - u16 m (o + 2)))
  | oxm : o + 4 ≤ m.length → u16 m o ∈ [8, 9, 10, 11, 12, 13] → 4 ≤ u16 m (o + 2) → o + 4 * (u16 m (o + 2) / 4) ≤ m.length →
    FeatureAt o (.oxm (some (u16 m o)) (some (u16 m (o + 2))) (.list ((List.range (u16 m (o + 2) / 4 - 1)).map fun i => u32 m (o + 4 + 4 * i))))
      (o + 4 * (u16 m (o + 2) / 4) + (up8 (u16 m (o + 2)) - u16 m (o + 2)))
  | experimenter : o + 12 ≤ m.length → u16 m o ∈ [65534, 65535] →
    FeatureAt o (.experimenter (some (u16 m o)) (some (u16 m (o + 2))) (u32 m (o + 4)) (u32 m (o + 8)) (part m (o + 12) (o + u16 m (o + 2))))
      (o + 12 + (up8 (u16 m (o + 2)) - u16 m (o + 2)))

/-! ### actions and instructions -/

/-- The action structures -/
inductive ActionAt (o : Nat) : Action → Nat → Prop
  | output : o + 16 ≤ m.length → u16 m o = 0 →
    ActionAt o (.output (some 0) (some (u16 m (o + 2))) (u32 m (o + 4)) (u16 m (o + 8))) (o + 16)
  | group : o + 8 ≤ m.length → u16 m o = 22 → ActionAt o (.group (some 22) (some (u16 m (o + 2))) (u32 m (o + 4))) (o + 8)
  | setQueue : o + 8 ≤ m.length → u16 m o = 21 → ActionAt o (.setQueue (some 21) (some (u16 m (o + 2))) (u32 m (o + 4))) (o + 8)
  | nwTtl : o + 8 ≤ m.length → u16 m o = 23 → ActionAt o (.nwTtl (some 23) (some (u16 m (o + 2))) (u8 m (o + 4))) (o + 8)
  | push : o + 8 ≤ m.length → u16 m o ∈ [17, 19, 26] →
    ActionAt o (.push (some (u16 m o)) (some (u16 m (o + 2))) (u16 m (o + 4))) (o + 8)
  | popMpls : o + 8 ≤ m.length → u16 m o = 20 → ActionAt o (.popMpls (some 20) (some (u16 m (o + 2))) (u16 m (o + 4))) (o + 8)
  | setField : o + 4 ≤ m.length → u16 m o = 25 →
    ActionAt o (.setField (some 25) (some (u16 m (o + 2))) (part m (o + 4) (o + u16 m (o + 2)))) (o + u16 m (o + 2))
  | experimenter : o + 8 ≤ m.length → u16 m o = 65535 →
    ActionAt o (.experimenter (some 65535) (some (u16 m (o + 2))) (u32 m (o + 4)) (part m (o + 8) (o + u16 m (o + 2)))) (o + u16 m (o + 2))
  | plain : o + 8 ≤ m.length → u16 m o ∈ [11, 12, 16, 18, 24, 27] →
    ActionAt o (.generic (some (u16 m o)) (some (u16 m (o + 2)))) (o + 8)

/-- The instruction structures -/
inductive InstrAt (o : Nat) : Instr → Nat → Prop
  | gotoTable : o + 8 ≤ m.length → u16 m o = 1 → InstrAt o (.gotoTable (some 1) (some (u16 m (o + 2))) (u8 m (o + 4))) (o + 8)
  | writeMetadata : o + 24 ≤ m.length → u16 m o = 2 →
    InstrAt o (.writeMetadata (some 2) (some (u16 m (o + 2))) (u64 m (o + 8)) (u64 m (o + 16))) (o + 24)
  | actions {l : List Action} : o + 8 ≤ m.length → u16 m o ∈ [3, 4, 5] →
    Row (ActionAt m) (o + u16 m (o + 2)) (o + 8) l (o + u16 m (o + 2)) →
    InstrAt o (.actions (some (u16 m o)) (some (u16 m (o + 2))) (tups l)) (o + u16 m (o + 2))
  | meter : o + 8 ≤ m.length → u16 m o = 6 → InstrAt o (.meter (some 6) (some (u16 m (o + 2))) (u32 m (o + 4))) (o + 8)
  | experimenter : o + 8 ≤ m.length → u16 m o = 65535 →
    InstrAt o (.experimenter (some 65535) (some (u16 m (o + 2))) (u32 m (o + 4)) (part m (o + 8) (o + u16 m (o + 2)))) (o + u16 m (o + 2))

/-- `struct ofp_bucket` -/
inductive BucketAt (o : Nat) : Bucket → Nat → Prop
  | mk {l : List Action} {e : Nat} : o + 16 ≤ m.length → Row (ActionAt m) (o + u16 m o) (o + 16) l e →
    BucketAt o ⟨some (u16 m o), u16 m (o + 2), u32 m (o + 4), u32 m (o + 8), tups l⟩ e

/-! ### bodies of multipart messages -/

/-- `struct ofp_flow_stats` -/
inductive FlowStatsAt (o : Nat) : Rec → Nat → Prop
  | mk {mt : MatchT} {e : Nat} {l : List Instr} : o + 48 ≤ m.length → MatchAt m (o + 48) mt e → Row (InstrAt m) (o + u16 m o) e l (o + u16 m o) →
    FlowStatsAt o (.flowStats (some (u16 m o)) (u8 m (o + 2)) (u32 m (o + 4)) (u32 m (o + 8)) (u16 m (o + 12)) (u16 m (o + 14)) (u16 m (o + 16))
      (u16 m (o + 18)) (u64 m (o + 24)) (u64 m (o + 32)) (u64 m (o + 40)) (.tup mt) (tups l)) (o + u16 m o)

/-- `struct ofp_aggregate_stats_reply` -/
inductive AggregateAt (o : Nat) : Rec → Nat → Prop
  | mk : o + 24 ≤ m.length → AggregateAt o (.aggregate (u64 m o) (u64 m (o + 8)) (u32 m (o + 16))) (o + 24)

/-- `struct ofp_table_features` -/
inductive TableFeaturesAt (o : Nat) : Rec → Nat → Prop
  | mk {name : Bytes} {l : List TfProp} {e : Nat} : o + 64 ≤ m.length → UpToNul (part m (o + 8) (o + 40)) name →
    Row (FeatureAt m) (o + u16 m o) (o + 64) l e →
    TableFeaturesAt o (.tableFeatures (some (u16 m o)) (u8 m (o + 2)) name (u64 m (o + 40)) (u64 m (o + 48)) (u32 m (o + 56)) (u32 m (o + 60))
      (tups l)) e

/-- `struct ofp_queue_desc` -/
inductive QueueDescAt (o : Nat) : Rec → Nat → Prop
  | mk {l : List Pr} {e : Nat} : o + 16 ≤ m.length → Row (QueuePropAt m) (o + u16 m (o + 8)) (o + 16) l e →
    QueueDescAt o (.queueDesc (u32 m o) (u32 m (o + 4)) (some (u16 m (o + 8))) (tups l)) e

/-- `struct ofp_group_stats` -/
inductive GroupStatsAt (o : Nat) : Rec → Nat → Prop
  | mk {l : List (Nat × Nat)} : o + 40 ≤ m.length → Row (PairAt m) (o + u16 m o) (o + 40) l (o + u16 m o) →
    GroupStatsAt o (.groupStats (some (u16 m o)) (u32 m (o + 4)) (u32 m (o + 8)) (u64 m (o + 16)) (u64 m (o + 24)) (u32 m (o + 32))
      (u32 m (o + 36)) (tups l)) (o + u16 m o)

/-- `struct ofp_group_desc` -/
inductive GroupDescAt (o : Nat) : Rec → Nat → Prop
  | mk {l : List Bucket} : o + 8 ≤ m.length → Row (BucketAt m) (o + u16 m o) (o + 8) l (o + u16 m o) →
    GroupDescAt o (.groupDesc (some (u16 m o)) (u8 m (o + 2)) (u32 m (o + 4)) (tups l)) (o + u16 m o)

/-- `struct ofp_meter_stats` -/
inductive MeterStatsAt (o : Nat) : Rec → Nat → Prop
  | mk {l : List (Nat × Nat)} : o + 40 ≤ m.length → Row (PairAt m) (o + u16 m (o + 4)) (o + 40) l (o + u16 m (o + 4)) →
    MeterStatsAt o (.meterStats (u32 m o) (some (u16 m (o + 4))) (u32 m (o + 12)) (u64 m (o + 16)) (u64 m (o + 24)) (u32 m (o + 32))
      (u32 m (o + 36)) (tups l)) (o + u16 m (o + 4))

/-- `struct ofp_meter_config` -/
inductive MeterConfigAt (o : Nat) : Rec → Nat → Prop
  | mk {l : List Band} : o + 8 ≤ m.length → Row (BandAt m) (o + u16 m o) (o + 8) l (o + u16 m o) →
    MeterConfigAt o (.meterConfig (some (u16 m o)) (u16 m (o + 2)) (u32 m (o + 4)) (tups l)) (o + u16 m o)

/-- `struct ofp_flow_update_header`, whatever the update -/
inductive UpdateAt (o : Nat) : Rec → Nat → Prop
  | mk : o + 4 ≤ m.length → UpdateAt o (.updateHeader (u16 m o) (u16 m (o + 2))) (o + 4)

/-- A port as a record -/
inductive PortRecAt (o : Nat) : Rec → Nat → Prop
  | mk {p : Pr} {e : Nat} : PortAt m o p e → PortRecAt o (.prop p) e

/-- Records that fill the room up to `limit` -/
def Records (At : Nat → Rec → Nat → Prop) (limit o : Nat) (b : Body) : Prop :=
  ∃ l : List Rec, Row At limit o l limit ∧ b = .many (l.map .tup)

/-- The bodies of requests -/
inductive RequestAt (limit o : Nat) : Nat → Body → Nat → Prop
  | nothing {t : Nat} : t ∈ [0, 3, 7, 8, 11, 13, 14] → RequestAt limit o t (.raw []) o
  | flow {mt : MatchT} {e : Nat} : o + 32 ≤ m.length → MatchAt m (o + 32) mt e →
    RequestAt limit o 1 (.one (.flowStatsReq (some (u8 m o)) (some (u32 m (o + 4))) (some (u32 m (o + 8))) (some (u64 m (o + 16)))
      (some (u64 m (o + 24))) (some (.tup mt)))) e
  | aggregate {mt : MatchT} {e : Nat} : o + 32 ≤ m.length → MatchAt m (o + 32) mt e →
    RequestAt limit o 2 (.one (.aggregateReq (some (u8 m o)) (some (u32 m (o + 4))) (some (u32 m (o + 8))) (some (u64 m (o + 16)))
      (some (u64 m (o + 24))) (.tup mt))) e
  | port : o + 8 ≤ m.length → RequestAt limit o 4 (.one (.portStatsReq (some (u32 m o)))) (o + 8)
  | queue : o + 8 ≤ m.length → RequestAt limit o 5 (.one (.queueStatsReq (some (u32 m o)) (some (u32 m (o + 4))))) (o + 8)
  | group : o + 8 ≤ m.length → RequestAt limit o 6 (.one (.groupStatsReq (some (u32 m o)))) (o + 8)
  | tables {l : List Rec} {e : Nat} : Row (TableFeaturesAt m) limit o l e → RequestAt limit o 12 (.many (l.map .tup)) e
  | queueDesc : o + 8 ≤ m.length → RequestAt limit o 15 (.one (.queueDescReq (some (u32 m o)) (some (u32 m (o + 4))))) (o + 8)
  | monitor {mt : MatchT} {e : Nat} : o + 16 ≤ m.length → MatchAt m (o + 16) mt e →
    RequestAt limit o 16 (.one (.flowMonitorReq (u32 m o) (u32 m (o + 4)) (u32 m (o + 8)) (u16 m (o + 12)) (u8 m (o + 14)) (u8 m (o + 15)) (.tup mt))) e
  | experimenter : RequestAt limit o 65535 (.raw (part m o limit)) limit

/-- The bodies of replies.  Of records that are never read there may be none. -/
inductive ReplyAt (limit o : Nat) : Nat → Body → Nat → Prop
  | desc : o + 1056 ≤ m.length → ReplyAt limit o 0 (.one (.desc (some (part m o (o + 256))) (some (part m (o + 256) (o + 512)))
      (some (part m (o + 512) (o + 768))) (some (part m (o + 768) (o + 800))) (some (part m (o + 800) (o + 1056))))) (o + 1056)
  | flow {b : Body} : Records (FlowStatsAt m) limit o b → ReplyAt limit o 1 b limit
  | aggregate {b : Body} : Records (AggregateAt m) limit o b → ReplyAt limit o 2 b limit
  | none {t : Nat} : t ∈ [3, 4, 5, 14] → o = limit → ReplyAt limit o t (.many []) limit
  | group {b : Body} : Records (GroupStatsAt m) limit o b → ReplyAt limit o 6 b limit
  | groupDesc {b : Body} : Records (GroupDescAt m) limit o b → ReplyAt limit o 7 b limit
  | groupFeatures : o + 40 ≤ m.length → ReplyAt limit o 8 (.one (.groupFeatures (u32 m o) (u32 m (o + 4))
      (.list [u32 m (o + 8), u32 m (o + 12), u32 m (o + 16), u32 m (o + 20)])
      (.list [u32 m (o + 24), u32 m (o + 28), u32 m (o + 32), u32 m (o + 36)]))) (o + 40)
  | meter {b : Body} : Records (MeterStatsAt m) limit o b → ReplyAt limit o 9 b limit
  | meterConfig {b : Body} : Records (MeterConfigAt m) limit o b → ReplyAt limit o 10 b limit
  | meterFeatures : o + 16 ≤ m.length →
    ReplyAt limit o 11 (.one (.meterFeatures (u32 m o) (u32 m (o + 4)) (u32 m (o + 8)) (u8 m (o + 12)) (u8 m (o + 13)))) (o + 16)
  | tables {b : Body} : Records (TableFeaturesAt m) limit o b → ReplyAt limit o 12 b limit
  | ports {b : Body} : Records (PortRecAt m) limit o b → ReplyAt limit o 13 b limit
  | queueDesc {b : Body} : Records (QueueDescAt m) limit o b → ReplyAt limit o 15 b limit
  | updates {b : Body} : Records (UpdateAt m) limit o b → ReplyAt limit o 16 b limit
  | experimenter : o + 8 ≤ m.length → ReplyAt limit o 65535 (.one (.experimenter (u32 m o) (u32 m (o + 4)) (part m (o + 8) limit))) limit

/-! ### messages -/

/-- The types with a rule of their own, or with none (31). -/
def knownTypes : List Nat := [0, 1, 4, 6, 8, 9, 10, 11, 12, 13, 14, 15, 16, 17, 18, 19, 27, 28, 29, 30, 31, 32, 33, 34]

/-- Messages.  Port modifications and role status messages have their fields in the place of the header. -/
inductive MsgAt : Nat → Msg → Nat → Prop
  | hello {o : Nat} {l : List HelloElem} : HeadAt m o 0 8 → Row (ElemAt m) (msgEnd m o) (o + 8) l (msgEnd m o) →
    MsgAt o (.hello (hdrAt m o) l) (msgEnd m o)
  | error {o : Nat} : HeadAt m o 1 12 → MsgAt o (.error (hdrAt m o) (u16 m (o + 8)) (u16 m (o + 10)) (part m (o + 12) (msgEnd m o))) (msgEnd m o)
  | experimenter {o : Nat} : HeadAt m o 4 16 →
    MsgAt o (.experimenter (hdrAt m o) (u32 m (o + 8)) (u32 m (o + 12)) (part m (o + 16) (msgEnd m o))) (msgEnd m o)
  | features {o : Nat} : HeadAt m o 6 32 →
    MsgAt o (.features (hdrAt m o) (u64 m (o + 8)) (u32 m (o + 16)) (u8 m (o + 20)) (u8 m (o + 21)) (u32 m (o + 24))) (o + 32)
  | config {o t : Nat} : t = 8 ∨ t = 9 → HeadAt m o t 12 → MsgAt o (.config (hdrAt m o) (u16 m (o + 8)) (u16 m (o + 10))) (o + 12)
  | packetIn {o : Nat} {mt : MatchT} {e : Nat} : HeadAt m o 10 24 → MatchAt m (o + 24) mt e → e + 2 ≤ m.length →
    MsgAt o (.packetIn (hdrAt m o) (u32 m (o + 8)) (u16 m (o + 12)) (u8 m (o + 14)) (u8 m (o + 15)) (u64 m (o + 16)) mt
      (part m (e + 2) (msgEnd m o))) (msgEnd m o)
  | flowRemoved {o : Nat} {mt : MatchT} {e : Nat} : HeadAt m o 11 48 → MatchAt m (o + 48) mt e →
    MsgAt o (.flowRemoved (hdrAt m o) (u64 m (o + 8)) (u16 m (o + 16)) (u8 m (o + 18)) (u8 m (o + 19)) (u32 m (o + 20)) (u32 m (o + 24))
      (u16 m (o + 28)) (u16 m (o + 30)) (u64 m (o + 32)) (u64 m (o + 40)) mt) e
  | portStatus {o : Nat} {p : Pr} {e : Nat} : HeadAt m o 12 16 → PortAt m (o + 16) p e →
    MsgAt o (.portStatus (hdrAt m o) (u8 m (o + 8)) p) e
  | packetOut {o : Nat} {l : List Action} {e : Nat} : HeadAt m o 13 24 → Row (ActionAt m) (o + 24 + u16 m (o + 16)) (o + 24) l e →
    MsgAt o (.packetOut (hdrAt m o) (u32 m (o + 8)) (u32 m (o + 12)) (u16 m (o + 16)) l (part m e (msgEnd m o))) (msgEnd m o)
  | flowMod {o : Nat} {mt : MatchT} {e : Nat} {l : List Instr} : HeadAt m o 14 48 → MatchAt m (o + 48) mt e →
    Row (InstrAt m) (msgEnd m o) e l (msgEnd m o) →
    MsgAt o (.flowMod (hdrAt m o) (u64 m (o + 8)) (u64 m (o + 16)) (u8 m (o + 24)) (u8 m (o + 25)) (u16 m (o + 26)) (u16 m (o + 28))
      (u16 m (o + 30)) (u32 m (o + 32)) (u32 m (o + 36)) (u32 m (o + 40)) (u16 m (o + 44)) (u16 m (o + 46)) mt l) (msgEnd m o)
  | groupMod {o : Nat} {l : List Bucket} {e : Nat} : HeadAt m o 15 16 → Row (BucketAt m) (msgEnd m o) (o + 16) l e →
    MsgAt o (.groupMod (hdrAt m o) (u16 m (o + 8)) (u8 m (o + 10)) (u32 m (o + 12)) l) e
  | portMod {o : Nat} {l : List Pr} {e : Nat} : HeadAt m o 16 24 → Row (PortModPropAt m) (msgEnd m o) (o + 8) l e →
    MsgAt o (.portMod (hdrAt m o) (u32 m o) (part m (o + 8) (o + 14)) (u32 m (o + 16)) (u32 m (o + 20)) l) e
  | tableMod {o : Nat} {l : List Pr} {e : Nat} : HeadAt m o 17 16 → Row (TablePropAt m) (msgEnd m o) (o + 16) l e →
    MsgAt o (.tableMod (hdrAt m o) (u8 m (o + 8)) (u32 m (o + 12)) l) e
  | mpRequest {o : Nat} {b : Body} {e : Nat} : HeadAt m o 18 16 → RequestAt m (msgEnd m o) (o + 16) (u16 m (o + 8)) b e →
    MsgAt o (.mpRequest (hdrAt m o) (u16 m (o + 8)) (u16 m (o + 10)) b) e
  | mpReply {o : Nat} {b : Body} {e : Nat} : HeadAt m o 19 16 → ReplyAt m (msgEnd m o) (o + 16) (u16 m (o + 8)) b e →
    MsgAt o (.mpReply (hdrAt m o) (u16 m (o + 8)) (u16 m (o + 10)) b) e
  | async {o t : Nat} {l : List Pr} {e : Nat} : t = 27 ∨ t = 28 → HeadAt m o t 8 → Row (AsyncPropAt m) (msgEnd m o) (o + 8) l e →
    MsgAt o (.async (hdrAt m o) l) e
  | meterMod {o : Nat} {l : List Band} {e : Nat} : HeadAt m o 29 16 → Row (BandAt m) (msgEnd m o) (o + 16) l e →
    MsgAt o (.meterMod (hdrAt m o) (u16 m (o + 8)) (u16 m (o + 10)) (u32 m (o + 12)) l) e
  | roleStatus {o : Nat} : HeadAt m o 30 16 → msgEnd m o ≤ o + 8 →
    MsgAt o (.roleStatus (hdrAt m o) (u32 m o) (u8 m (o + 4)) (u64 m (o + 8)) []) (o + 8)
  | requestForward {o : Nat} {r : Msg} {e : Nat} : HeadAt m o 32 8 → MsgAt (o + 8) r e → MsgAt o (.requestForward (hdrAt m o) r) e
  | bundleCtrl {o : Nat} : HeadAt m o 33 16 → msgEnd m o ≤ o + 16 →
    MsgAt o (.bundleCtrl (hdrAt m o) (u32 m (o + 8)) (u16 m (o + 12)) (u16 m (o + 14)) []) (o + 16)
  | bundleAdd {o : Nat} {r : Msg} {e : Nat} : HeadAt m o 34 16 → MsgAt (o + 16) r e → msgEnd m o ≤ e →
    MsgAt o (.bundleAdd (hdrAt m o) (u32 m (o + 8)) (u16 m (o + 14)) r []) e
  | other {o t : Nat} : t ∉ knownTypes → HeadAt m o t 8 → MsgAt o (.other (hdrAt m o) (part m (o + 8) (msgEnd m o))) (msgEnd m o)

/-! ### what is never read to the end -/

/-- Actions -/
def ActionsNever (limit o : Nat) : Prop := Endless (ActionAt m) (fun _ => False) limit o

/-- An instruction with such actions -/
def InstrNever (o : Nat) : Prop := o + 8 ≤ m.length ∧ u16 m o ∈ [3, 4, 5] ∧ ActionsNever m (o + u16 m (o + 2)) (o + 8)

/-- Instructions -/
def InstrsNever (limit o : Nat) : Prop := Endless (InstrAt m) (InstrNever m) limit o

/-- A bucket with such actions -/
def BucketNever (o : Nat) : Prop := o + 16 ≤ m.length ∧ ActionsNever m (o + u16 m o) (o + 16)

/-- Buckets -/
def BucketsNever (limit o : Nat) : Prop := Endless (BucketAt m) (BucketNever m) limit o

/-- Meter bands -/
def BandsNever (limit o : Nat) : Prop := Endless (BandAt m) (fun _ => False) limit o

/-- Flow statistics with such instructions -/
def FlowStatsNever (o : Nat) : Prop := o + 48 ≤ m.length ∧ ∃ mt e, MatchAt m (o + 48) mt e ∧ InstrsNever m (o + u16 m o) e

/-- Port statistics: a record with properties that are read to the end is refused. -/
def PortStatsNever (o : Nat) : Prop := o + 120 ≤ m.length ∧ Endless (PortStatsPropAt m) (fun _ => False) (o + u16 m o) (o + 120)

/-- Queue statistics: a record with properties that are read to the end is refused. -/
def QueueStatsNever (o : Nat) : Prop := o + 48 ≤ m.length ∧ Endless (QueueStatsPropAt m) (fun _ => False) (o + u16 m o) (o + 48)

/-- Descriptions of queues -/
def QueueDescNever (o : Nat) : Prop := o + 16 ≤ m.length ∧ Endless (QueuePropAt m) (fun _ => False) (o + u16 m (o + 8)) (o + 16)

/-- A description of a group with such buckets -/
def GroupDescNever (o : Nat) : Prop := o + 8 ≤ m.length ∧ BucketsNever m (o + u16 m o) (o + 8)

/-- A configuration of a meter with such bands -/
def MeterConfigNever (o : Nat) : Prop := o + 8 ≤ m.length ∧ BandsNever m (o + u16 m o) (o + 8)

/-- The bodies of replies -/
inductive ReplyNever (limit o : Nat) : Nat → Prop
  | flow : Endless (FlowStatsAt m) (FlowStatsNever m) limit o → ReplyNever limit o 1
  | port : o < limit → PortStatsNever m o → ReplyNever limit o 4
  | queue : o < limit → QueueStatsNever m o → ReplyNever limit o 5
  | groupDesc : Endless (GroupDescAt m) (GroupDescNever m) limit o → ReplyNever limit o 7
  | meterConfig : Endless (MeterConfigAt m) (MeterConfigNever m) limit o → ReplyNever limit o 10
  | queueDesc : Endless (QueueDescAt m) (QueueDescNever m) limit o → ReplyNever limit o 15

/-- Messages -/
inductive MsgNever : Nat → Prop
  | packetOut {o : Nat} : HeadAt m o 13 24 → ActionsNever m (o + 24 + u16 m (o + 16)) (o + 24) → MsgNever o
  | flowMod {o : Nat} {mt : MatchT} {e : Nat} : HeadAt m o 14 48 → MatchAt m (o + 48) mt e → InstrsNever m (msgEnd m o) e → MsgNever o
  | groupMod {o : Nat} : HeadAt m o 15 16 → BucketsNever m (msgEnd m o) (o + 16) → MsgNever o
  | portMod {o : Nat} : HeadAt m o 16 24 → Endless (PortModPropAt m) (fun _ => False) (msgEnd m o) (o + 8) → MsgNever o
  | tableMod {o : Nat} : HeadAt m o 17 16 → Endless (TablePropAt m) (fun _ => False) (msgEnd m o) (o + 16) → MsgNever o
  | mpReply {o : Nat} : HeadAt m o 19 16 → ReplyNever m (msgEnd m o) (o + 16) (u16 m (o + 8)) → MsgNever o
  | meterMod {o : Nat} : HeadAt m o 29 16 → BandsNever m (msgEnd m o) (o + 16) → MsgNever o
  | roleStatus {o : Nat} : HeadAt m o 30 16 → o + 8 < msgEnd m o → u16 m (o + 8) = 65535 → MsgNever o
  | requestForward {o : Nat} : HeadAt m o 32 8 → MsgNever (o + 8) → MsgNever o
  | bundleAdd {o : Nat} : HeadAt m o 34 16 → MsgNever (o + 16) → MsgNever o

end
end Twink.Of14.Reads
