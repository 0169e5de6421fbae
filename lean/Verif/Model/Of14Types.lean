import Verif.Model.Of13Types

/-!
# OpenFlow 1.4 codec: Python values

The named tuples of twink/ofp5/build.py and twink/ofp5/parse.py.  The conventions are those of
`Verif.Model.Of13Types`, whose generic parts (`Elem`, `Seq`, `Hdr`, `HdrArg`, `TypeArg`, `Ints`) and tuples with
the same fields in both modules (`MatchT`, `Band`, `HelloElem`) are used here too: `_obj` (ofp5/build.py L11-17),
`_align` (L29-30), the `isinstance` cascades, and the builders and parsers of these three are the same text up to
`str`/`bytes`, which are one type in Python 2.
-/

namespace Twink.Of14
open Of13

/-- The action tuples. ofp5/build.py L252-387, parse.py L262-347 -/
inductive Action where
  | header (type len : Option Nat)
  | output (type len : Option Nat) (port maxLen : Nat)
  | group (type len : Option Nat) (groupId : Nat)
  | setQueue (type len : Option Nat) (queueId : Nat)
  | mplsTtl (type len : Option Nat) (ttl : Nat)
  | generic (type len : Option Nat)
  | nwTtl (type len : Option Nat) (ttl : Nat)
  | push (type len : Option Nat) (ethertype : Nat)
  | popMpls (type len : Option Nat) (ethertype : Nat)
  | setField (type len : Option Nat) (field : Bytes)
  | expHeader (type len : Option Nat) (exp : Nat)
  | experimenter (type len : Option Nat) (exp : Nat) (data : Bytes)
  deriving DecidableEq, Repr

/-- The instruction tuples. ofp5/build.py L177-249, parse.py L189-259 -/
inductive Instr where
  | header (type len : Option Nat)
  | gotoTable (type len : Option Nat) (table : Nat)
  | writeMetadata (type len : Option Nat) (metadata mask : Nat)
  | actions (type len : Option Nat) (actions : Seq Action)
  | meter (type len : Option Nat) (meter : Nat)
  | experimenter (type len : Option Nat) (exp : Nat) (data : Bytes)
  deriving DecidableEq, Repr

/-- `ofp_bucket`. ofp5/build.py L492-510, parse.py L461-472 -/
structure Bucket where
  len : Option Nat
  weight : Nat
  watchPort : Nat
  watchGroup : Nat
  actions : Seq Action
  deriving DecidableEq, Repr

/-- The property tuples of ports, tables, queues, bundles, asynchronous configuration and roles.  They are one
type because `_obj` rebuilds a tuple by its class name wherever it stands.  Experimenter data may be `None`. -/
inductive Pr where
  /-- `ofp_*_prop_header(type,length)` except the one of queue descriptions -/
  | header (type length : Option Nat)
  /-- `ofp_port_desc_prop_ethernet`. build.py L117-125, parse.py L148-151 -/
  | portEthernet (type length : Option Nat) (curr advertised supported peer currSpeed maxSpeed : Nat)
  /-- `ofp_port_desc_prop_optical`. build.py L127-139, parse.py L153-158 -/
  | portOptical (type length : Option Nat) (supported txMin txMax txGrid rxMin rxMax rxGrid txPwrMin txPwrMax : Nat)
  /-- `ofp_port_desc_prop_experimenter`. build.py L141-152, parse.py L160-170 -/
  | portExp (type length : Option Nat) (exp expType : Nat) (data : Option Bytes)
  /-- `ofp_table_mod_prop_eviction`. build.py L421-423, parse.py L405-407 -/
  | eviction (type length : Option Nat) (flags : Nat)
  /-- `ofp_table_mod_prop_vacancy`. build.py L425-428, parse.py L409-412 -/
  | vacancy (type length : Option Nat) (down up vacancy : Nat)
  /-- `ofp_table_mod_prop_experimenter`. build.py L430-436, parse.py L414-424 -/
  | tableExp (type length : Option Nat) (exp expType : Nat) (data : Option Bytes)
  /-- `ofp_port_mod_prop_ethernet`. build.py L531-534, parse.py L499-501 -/
  | pmEthernet (type length : Option Nat) (advertise : Nat)
  /-- `ofp_port_mod_prop_optical`, whose offset is signed. build.py L536-539, parse.py L503-506 -/
  | pmOptical (type length : Option Nat) (configure freq : Nat) (offset : Int) (span pwr : Nat)
  /-- `ofp_port_mod_prop_experimenter`. build.py L541-547, parse.py L508-518 -/
  | pmExp (type length : Option Nat) (exp expType : Nat) (data : Option Bytes)
  /-- `ofp_port_stats_prop_ethernet`. build.py L918-922, parse.py L898-901 -/
  | psEthernet (type length : Option Nat) (frame over crc collisions : Nat)
  /-- `ofp_port_stats_prop_optical`: seven 32-bit and four 16-bit numbers. build.py L924-935, parse.py L903-909 -/
  | psOptical (type length : Option Nat) (flags txFreq txOffset txSpan rxFreq rxOffset rxSpan : Nat)
      (txPwr rxPwr bias temperature : Nat)
  /-- `ofp_port_stats_prop_experimenter`. build.py L937-944, parse.py L911-920 -/
  | psExp (type length : Option Nat) (exp expType : Nat) (data : Option Bytes)
  /-- `ofp_queue_stats_prop_experimenter`. build.py L971-974, parse.py L953-962 -/
  | qsExp (type length : Option Nat) (exp expType : Nat) (data : Option Bytes)
  /-- `ofp_queue_desc_prop_header`. build.py L1003-1005 -/
  | qdHeader (type length : Option Nat)
  /-- `ofp_queue_desc_prop_min_rate`. build.py L1007-1010, parse.py L994-996 -/
  | minRate (type length : Option Nat) (rate : Nat)
  /-- `ofp_queue_desc_prop_max_rate`. build.py L1012-1015, parse.py L998-1000 -/
  | maxRate (type length : Option Nat) (rate : Nat)
  /-- `ofp_queue_desc_prop_experimenter`. build.py L1017-1021, parse.py L1002-1011 -/
  | qdExp (type length : Option Nat) (exp expType : Nat) (data : Option Bytes)
  /-- `ofp_bundle_prop_experimenter`. build.py L1229-1235, parse.py L1247-1258 -/
  | bundleExp (type length : Option Nat) (exp expType : Nat) (data : Option Bytes)
  /-- `ofp_async_config_prop_reasons`. build.py L1255-1263, parse.py L1300-1302 -/
  | reasons (type length : Option Nat) (mask : Nat)
  /-- `ofp_async_config_prop_experimenter`. build.py L1265-1270, parse.py L1288-1298 -/
  | asyncExp (type length : Option Nat) (exp expType : Nat) (data : Option Bytes)
  /-- `ofp_role_prop_experimenter`. build.py L1312-1318, parse.py L1382-1390 -/
  | roleExp (type length : Option Nat) (exp expType : Nat) (data : Option Bytes)
  deriving DecidableEq, Repr

/-- `ofp_port(port_no, length, hw_addr, name, config, state, properties)`. build.py L87-110 -/
structure PortT where
  portNo : Nat
  length : Option Nat
  hwAddr : Bytes
  name : Bytes
  config : Nat
  state : Nat
  properties : Seq Pr
  deriving DecidableEq, Repr

/-- `ofp_instruction_id`, `ofp_action_id`: type, len, exp_data. build.py L813-821, L856-864 -/
structure IdT where
  type : Nat
  len : Option Nat
  data : Option Bytes
  deriving DecidableEq, Repr

/-- The table numbers of a table feature property: the builder joins byte strings, the parser returns integers. -/
inductive TableIds where
  | raw (b : Bytes)
  | strs (l : List Bytes)
  | ints (l : List Nat)
  | none
  | bad
  deriving DecidableEq, Repr

/-- The table feature property tuples. build.py L794-890, parse.py L783-860 -/
inductive TfProp where
  | header (type length : Option Nat)
  | instructions (type length : Option Nat) (ids : Seq IdT)
  | tables (type length : Option Nat) (ids : TableIds)
  | actions (type length : Option Nat) (ids : Seq IdT)
  | oxm (type length : Option Nat) (ids : Ints)
  | experimenter (type length : Option Nat) (exp expType : Nat) (data : Bytes)
  deriving DecidableEq, Repr

/-- The body tuples of multipart messages. build.py L677-1160, parse.py L672-1167 -/
inductive Rec where
  | desc (mfr hw sw serial dp : Option Bytes)
  | flowStatsReq (table outPort outGroup cookie cookieMask : Option Nat) (mt : Option (Elem MatchT))
  | flowStats (length : Option Nat)
      (table durSec durNsec priority idle hard flags cookie packets bytes : Nat)
      (mt : Elem MatchT) (instrs : Seq Instr)
  | aggregateReq (table outPort outGroup cookie cookieMask : Option Nat) (mt : Elem MatchT)
  | aggregate (packets bytes flows : Nat)
  | tableStats (table active lookup matched : Nat)
  | tableDesc (length : Option Nat) (table config : Nat) (props : Seq Pr)
  | tableFeatures (length : Option Nat) (table : Nat) (name : Bytes)
      (mdMatch mdWrite capabilities maxEntries : Nat) (props : Seq TfProp)
  | portStatsReq (port : Option Nat)
  /-- length, port_no, duration_sec, duration_nsec, the eight counters, properties -/
  | portStats (length : Option Nat) (port durSec durNsec : Nat) (counters : List Nat) (props : Seq Pr)
  | queueStatsReq (port queue : Option Nat)
  | queueStats (length : Option Nat) (port queue txBytes txPackets txErrors durSec durNsec : Nat) (props : Seq Pr)
  | queueDescReq (port queue : Option Nat)
  | queueDesc (port queue : Nat) (len : Option Nat) (props : Seq Pr)
  | groupStatsReq (group : Option Nat)
  | groupStats (length : Option Nat) (group refCount packets bytes durSec durNsec : Nat)
      (counters : Seq (Nat × Nat))
  | groupDesc (length : Option Nat) (type group : Nat) (buckets : Seq Bucket)
  | groupFeatures (types capabilities : Nat) (maxGroups actions : Ints)
  | meterReq (meter : Nat)
  | meterStats (meter : Nat) (len : Option Nat) (flows packets bytes durSec durNsec : Nat)
      (bands : Seq (Nat × Nat))
  | meterConfig (length : Option Nat) (flags meter : Nat) (bands : Seq Band)
  | meterFeatures (maxMeter bandTypes capabilities maxBands maxColor : Nat)
  | flowMonitorReq (monitor outPort outGroup flags table command : Nat) (mt : Elem MatchT)
  | updateHeader (length event : Nat)
  | updateFull (length : Option Nat) (event table reason idle hard priority cookie : Nat) (mt : Elem MatchT)
      (instrs : Seq Instr)
  | updateAbbrev (length event : Option Nat) (xid : Nat)
  | updatePaused (length : Option Nat) (event : Nat)
  | port (p : PortT)
  /-- what the parser returns instead of a port -/
  | prop (p : Pr)
  | experimenter (exp expType : Nat) (data : Bytes)
  deriving DecidableEq, Repr

/-- The `body` of a multipart message. -/
inductive Body where
  | none
  | raw (b : Bytes)
  | one (r : Rec)
  | many (l : List (Elem Rec))
  | bad
  deriving DecidableEq, Repr

/-- What `parse` returns. parse.py L43-99.  (`ofp_table_status` never returns, and the description in
`ofp_port_status` is always a property, see the parser.) -/
inductive Msg where
  | hello (h : Hdr) (elements : List HelloElem)
  | error (h : Hdr) (type code : Nat) (data : Bytes)
  | errorExp (h : Hdr) (type expCode exp : Nat) (data : Bytes)
  | features (h : Hdr) (datapathId nBuffers nTables auxiliaryId capabilities : Nat)
  | config (h : Hdr) (flags missSendLen : Nat)
  | packetIn (h : Hdr) (bufferId totalLen reason table cookie : Nat) (mt : MatchT) (data : Bytes)
  | flowRemoved (h : Hdr) (cookie priority reason table durSec durNsec idle hard packets bytes : Nat)
      (mt : MatchT)
  | portStatus (h : Hdr) (reason : Nat) (desc : Pr)
  | packetOut (h : Hdr) (bufferId inPort actionsLen : Nat) (actions : List Action) (data : Bytes)
  | flowMod (h : Hdr) (cookie cookieMask table command idle hard priority bufferId outPort outGroup
      flags importance : Nat) (mt : MatchT) (instrs : List Instr)
  | groupMod (h : Hdr) (command type group : Nat) (buckets : List Bucket)
  | portMod (h : Hdr) (port : Nat) (hwAddr : Bytes) (config mask : Nat) (props : List Pr)
  | tableMod (h : Hdr) (table config : Nat) (props : List Pr)
  | mpRequest (h : Hdr) (type flags : Nat) (body : Body)
  | mpReply (h : Hdr) (type flags : Nat) (body : Body)
  | experimenter (h : Hdr) (exp expType : Nat) (data : Bytes)
  | role (h : Hdr) (role generation : Nat)
  | async (h : Hdr) (props : List Pr)
  | meterMod (h : Hdr) (command flags meter : Nat) (bands : List Band)
  | roleStatus (h : Hdr) (role reason generation : Nat) (props : List Pr)
  | bundleCtrl (h : Hdr) (bundle type flags : Nat) (props : List Pr)
  | bundleAdd (h : Hdr) (bundle flags : Nat) (message : Msg) (props : List Pr)
  | requestForward (h : Hdr) (request : Msg)
  | other (h : Hdr) (data : Bytes)
  deriving DecidableEq, Repr

end Twink.Of14
