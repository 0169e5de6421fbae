import Verif.Model.Of13Types

/-!
# OpenFlow 1.3 builders, twink/ofp4/build.py

Function by function.  `rnd` is the value drawn by `default_xid()` (L14), used where no xid is given.
`_pack` (L24-27) is `pack`.  Constants are written as numbers, see twink/ofp4/__init__.py.
-/

namespace Twink.Of13
open Fmt

/-- An integer argument that may be `None`: packing `None` raises struct.error. -/
def packOpt (f : Fmt) (t : Option Nat) (k : Nat → List Val) : Py Bytes :=
  match t with
  | some n => pack f (k n)
  | none => .error .structError

/-- `ofp_header(version, type, length, xid)`. build.py L38-49 -/
def ofpHeader (rnd : Nat) (version type length xid : Option Nat) : Py Bytes := do
  pyAssert (version.getD 4 = 4)
  packOpt hdrFmt type (fun t => [.int (version.getD 4), .int t, .int (length.getD 8), .int (xid.getD rnd)])

/-- The first part of `ofp_`: version, type and xid out of the `header` and `type` arguments.
build.py L53-84 -/
def hdrFields (rnd : Nat) (header : HdrArg) (type : TypeArg) : Py (Option Nat × Option Nat × Option Nat) :=
  match header with
  | .raw b => do
    match ← unpackFrom hdrFmt b 0 with
    | [.int v, .int t, .int _, .int x] =>
      match type with
      | .one ty => do pyAssert (t = ty); .ok (some v, some t, some x)
      | .among ts => do pyAssert (t ∈ ts); .ok (some v, some t, some x)
      | .any => .ok (some v, some t, some x)
    | _ => .error .valueError
  | .tup v t _ x =>
    match type with
    | .one ty =>
      match t with
      | none => .ok (v, some ty, x)
      | some t => do pyAssert (t = ty); .ok (v, some t, x)
    | .among ts =>
      match t with
      | none => .error .assertion
      | some t => do pyAssert (t ∈ ts); .ok (v, some t, x)
    | .any =>
      match t with
      | none => .error .assertion
      | some t => .ok (v, some t, x)
  | .none =>
    match type with
    | .one ty => .ok (some 4, some ty, some rnd)
    | _ => .error .valueError
  | .bad => .error .valueError

/-- `ofp_(header, data, type)`. build.py L52-88 -/
def ofp_ (rnd : Nat) (header : HdrArg) (data : Bytes) (type : TypeArg) : Py Bytes := do
  let (v, t, x) ← hdrFields rnd header type
  let h ← ofpHeader rnd v t (some (8 + data.length)) x
  .ok (h ++ data)

/-- `name.encode("UTF-8")` for a Python 2 `str`: it is decoded as ASCII first. -/
def encodeName : Text → Py Bytes
  | .str b => if b.all (· < 128) then .ok b else .error .valueError
  | .uni _ => .error .assertion     -- not a `str`, and fails `isinstance(name, bytes)` in L98

/-- `"I4x6s2x16s8I"` -/
def portFmt : Fmt := [I, X 4, S 6, X 2, S 16, I, I, I, I, I, I, I, I]

/-- `ofp_port`. build.py L92-114 -/
def buildPort (p : PortT) : Py Bytes := do
  let name ← encodeName p.name
  pyAssert (p.hwAddr.length = 6)
  pyAssert (name.length ≤ 16)
  let msg ← pack portFmt [.int p.portNo, .str p.hwAddr, .str name, .int p.config, .int p.state,
    .int p.curr, .int p.advertised, .int p.supported, .int p.peer, .int p.currSpeed, .int p.maxSpeed]
  pyAssert (msg.length = 64)
  .ok msg

/-- `ofp_queue_prop_header`. build.py L136-143 -/
def buildQPropHdr (property len : Option Nat) : Py Bytes := do
  let msg ← packOpt [H, H, X 4] property (fun p => [.int p, .int (len.getD 8)])
  pyAssert (msg.length = 8)
  .ok msg

/-- `ofp_queue_prop_(prop_header, data, type)` for an integer `type`. build.py L145-176 -/
def buildQProp_ (h : PropHdr) (data : Bytes) (type : Nat) : Py Bytes := do
  let property ← (match h with
    | .raw b => do
      match ← unpackFrom [H, H] b 0 with
      | [.int p, .int _] => do pyAssert (p = type); .ok (some p)
      | _ => .error .valueError
    | .tup none _ => .ok (some type)
    | .tup (some p) _ => do pyAssert (p = type); .ok (some p)
    | .none => .ok (some type)
    | .bad => .error .valueError : Py (Option Nat))
  let hd ← buildQPropHdr property (some (data.length + 8))
  .ok (hd ++ data)

/-- The queue properties. build.py L136-196 -/
def buildQProp : QProp → Py Bytes
  | .header p l => buildQPropHdr p l
  | .minRate h rate => do
    let msg ← buildQProp_ h (← pack [H, X 6] [.int rate]) 1
    pyAssert (msg.length = 16)
    .ok msg
  | .maxRate h rate => do
    let msg ← buildQProp_ h (← pack [H, X 6] [.int rate]) 2
    pyAssert (msg.length = 16)
    .ok msg
  | .experimenter h exp data => do
    buildQProp_ h ((← pack [I, X 4] [.int exp]) ++ data) 0xffff

/-- `ofp_packet_queue`. build.py L117-134 -/
def buildQueue (q : Queue) : Py Bytes := do
  let props ← seqBytes buildQProp q.properties
  let desc ← pack [I, I, H, X 6] [.int q.queueId, .int q.port, .int (16 + props.length)]
  pyAssert (desc.length = 16)
  .ok (desc ++ props)

/-- The elements of a list that may hold byte strings only: a tuple raises an exception. -/
def noTuple : Unit → Py Bytes := fun _ => .error .typeError

/-- `ofp_match`. build.py L199-218.  The last `else` (L211-212) does not raise, `_len` then fails with
a TypeError. -/
def buildMatch (m : MatchT) : Py Bytes := do
  let fields ← (match m.oxm with
    | .bad => .error .typeError
    | s => seqBytes noTuple s : Py Bytes)
  let length := 4 + fields.length
  let h ← pack [H, H] [.int (m.type.getD 1), .int length]
  let msg := h ++ fields ++ nul (align length - length)
  pyAssert (msg.length % 8 = 0)
  .ok msg

/-- The actions. build.py L296-422 -/
def buildAction : Action → Py Bytes
  | .header t l =>                                                  -- L296-297
    match t, l with
    | some t, some l => pack [H, H, X 4] [.int t, .int l]
    | _, _ => .error .structError
  | .output t _ port maxLen => do                                   -- L299-314
    pyAssert (t.getD 0 = 0)
    let msg ← pack [H, H, I, H, X 6] [.int (t.getD 0), .int 16, .int port, .int maxLen]
    pyAssert (msg.length = 16)
    .ok msg
  | .group t _ group => do                                          -- L316-328
    pyAssert (t.getD 22 = 22)
    let msg ← pack [H, H, I] [.int (t.getD 22), .int 8, .int group]
    pyAssert (msg.length = 8)
    .ok msg
  | .setQueue t _ queue => do                                       -- L330-342
    pyAssert (t.getD 21 = 21)
    let msg ← pack [H, H, I] [.int (t.getD 21), .int 8, .int queue]
    pyAssert (msg.length = 8)
    .ok msg
  | .mplsTtl t _ ttl => do                                          -- L344-356
    pyAssert (t.getD 15 = 15)
    let msg ← pack [H, H, B, X 3] [.int (t.getD 15), .int 8, .int ttl]
    pyAssert (msg.length = 8)
    .ok msg
  | .nwTtl t _ ttl => do                                            -- L358-370
    pyAssert (t.getD 23 = 23)
    let msg ← pack [H, H, B, X 3] [.int (t.getD 23), .int 8, .int ttl]
    pyAssert (msg.length = 8)
    .ok msg
  | .push t _ ethertype =>                                          -- L372-384
    match t with
    | none => .error .assertion
    | some t => do
      pyAssert (t = 17 ∨ t = 19 ∨ t = 26)
      let msg ← pack [H, H, H, X 2] [.int t, .int 8, .int ethertype]
      pyAssert (msg.length = 8)
      .ok msg
  | .popMpls t _ ethertype => do                                    -- L386-398
    pyAssert (t.getD 20 = 20)
    let msg ← pack [H, H, H, X 2] [.int (t.getD 20), .int 8, .int ethertype]
    pyAssert (msg.length = 8)
    .ok msg
  | .setField t _ field => do                                       -- L400-410
    pyAssert (t.getD 25 = 25)
    let filled := 4 + field.length
    let h ← pack [H, H] [.int (t.getD 25), .int (align filled)]
    .ok (h ++ field ++ nul (align filled - filled))
  | .experimenter t _ exp data => do                                -- L412-422
    pyAssert (t.getD 0xffff = 0xffff)
    let filled := 8 + data.length
    let h ← pack [H, H, I] [.int (t.getD 0xffff), .int (align filled), .int exp]
    .ok (h ++ data ++ nul (align filled - filled))

/-- The instructions. build.py L221-293 -/
def buildInstr : Instr → Py Bytes
  | .header t l =>                                                  -- L221-222
    match t, l with
    | some t, some l => pack [H, H] [.int t, .int l]
    | _, _ => .error .structError
  | .gotoTable t _ table => do                                      -- L224-234
    pyAssert (t.getD 1 = 1)
    let msg ← pack [H, H, B, X 3] [.int (t.getD 1), .int 8, .int table]
    pyAssert (msg.length = 8)
    .ok msg
  | .writeMetadata t _ md mask => do                                -- L236-247
    pyAssert (t.getD 2 = 2)
    let msg ← pack [H, H, X 4, Q, Q] [.int (t.getD 2), .int 24, .int md, .int mask]
    pyAssert (msg.length = 24)
    .ok msg
  | .actions t _ actions => do                                      -- L249-267
    let acts ← seqBytes buildAction actions
    match t with
    | none => .error .assertion
    | some t => do
      pyAssert (t = 3 ∨ t = 4 ∨ t = 5)
      let h ← pack [H, H, X 4] [.int t, .int (8 + acts.length)]
      .ok (h ++ acts)
  | .meter t _ meter => do                                          -- L269-278
    pyAssert (t.getD 6 = 6)
    pack [H, H, I] [.int (t.getD 6), .int 8, .int meter]
  | .experimenter t _ exp data => do                                -- L280-293
    pyAssert (t.getD 0xffff = 0xffff)
    let h ← pack [H, H, I] [.int (t.getD 0xffff), .int (8 + data.length), .int exp]
    .ok (h ++ data)

/-- `ofp_switch_features`. build.py L425-434 -/
def buildFeatures (rnd : Nat) (h : HdrArg) (dpid nBuffers nTables aux caps : Nat) : Py Bytes := do
  let d ← pack [Q, I, B, B, X 2, I, I] [.int dpid, .int nBuffers, .int nTables, .int aux, .int caps, .int 0]
  let msg ← ofp_ rnd h d (.one 6)
  pyAssert (msg.length = 32)
  .ok msg

/-- `ofp_switch_config`. build.py L437-444 -/
def buildConfig (rnd : Nat) (h : HdrArg) (flags : Nat) (miss : Option Nat) : Py Bytes := do
  let d ← pack [H, H] [.int flags, .int (miss.getD 0xffff)]
  let msg ← ofp_ rnd h d (.among [9, 8])
  pyAssert (msg.length = 12)
  .ok msg

/-- `ofp_table_mod`. build.py L447-452 -/
def buildTableMod (rnd : Nat) (h : HdrArg) (table config : Nat) : Py Bytes := do
  let d ← pack [B, X 3, I] [.int table, .int config]
  let msg ← ofp_ rnd h d (.one 17)
  pyAssert (msg.length = 16)
  .ok msg

/-- `"QQBB3H3IH2x"` -/
def flowModFmt : Fmt := [Q, Q, B, B, H, H, H, I, I, I, H, X 2]

/-- `ofp_flow_mod`. build.py L455-486 -/
def buildFlowMod (rnd : Nat) (h : HdrArg) (cookie cookieMask table command idle hard priority : Nat)
    (bufferId outPort outGroup : Option Nat) (flags : Nat) (mt : Elem MatchT) (instrs : Seq Instr) :
    Py Bytes := do
  let is ← seqBytes buildInstr instrs
  let d ← pack flowModFmt [.int cookie, .int cookieMask, .int table, .int command, .int idle, .int hard,
    .int priority, .int (bufferId.getD 0xffffffff), .int (outPort.getD 0xffffffff),
    .int (outGroup.getD 0xffffffff), .int flags]
  let m ← obj buildMatch mt
  ofp_ rnd h (d ++ m ++ is) (.one 14)

/-- `ofp_bucket`. build.py L508-526 -/
def buildBucket (b : Bucket) : Py Bytes := do
  let acts ← seqBytes buildAction b.actions
  let filled := 16 + acts.length
  let h ← pack [H, H, I, I, X 4] [.int (align filled), .int b.weight, .int b.watchPort, .int b.watchGroup]
  .ok (h ++ acts ++ nul (align filled - filled))

/-- `ofp_group_mod`. build.py L489-506 -/
def buildGroupMod (rnd : Nat) (h : HdrArg) (command type group : Nat) (buckets : Seq Bucket) :
    Py Bytes := do
  let bs ← seqBytes buildBucket buckets
  let d ← pack [H, B, X 1, I] [.int command, .int type, .int group]
  ofp_ rnd h (d ++ bs) (.one 15)

/-- `"I4x6s2xIII4x"` -/
def portModFmt : Fmt := [I, X 4, S 6, X 2, I, I, I, X 4]

/-- `ofp_port_mod`. build.py L529-534 -/
def buildPortMod (rnd : Nat) (h : HdrArg) (port : Nat) (hwAddr : Bytes) (config mask advertise : Nat) :
    Py Bytes := do
  let d ← pack portModFmt [.int port, .str hwAddr, .int config, .int mask, .int advertise]
  let msg ← ofp_ rnd h d (.one 16)
  pyAssert (msg.length = 40)
  .ok msg

/-- The meter bands. build.py L553-605 -/
def buildBand : Band → Py Bytes
  | .header t l rate burst =>                                       -- L553-556
    match t, l with
    | some t, some l => do
      let msg ← pack [H, H, I, I] [.int t, .int l, .int rate, .int burst]
      pyAssert (msg.length = 12)
      .ok msg
    | _, _ => .error .structError
  | .drop t _ rate burst => do                                      -- L558-571
    pyAssert (t.getD 1 = 1)
    let msg ← pack [H, H, I, I, X 4] [.int (t.getD 1), .int 16, .int rate, .int burst]
    pyAssert (msg.length = 16)
    .ok msg
  | .dscp t _ rate burst prec => do                                 -- L573-587
    pyAssert (t.getD 2 = 2)
    let msg ← pack [H, H, I, I, B, X 3] [.int (t.getD 2), .int 16, .int rate, .int burst, .int prec]
    pyAssert (msg.length = 16)
    .ok msg
  | .experimenter t _ rate burst exp data => do                     -- L589-605
    pyAssert (t.getD 0xffff = 0xffff)
    let h ← pack [H, H, I, I, I]
      [.int (t.getD 0xffff), .int (16 + data.length), .int rate, .int burst, .int exp]
    .ok (h ++ data)

/-- `ofp_meter_mod`. build.py L538-551 -/
def buildMeterMod (rnd : Nat) (h : HdrArg) (command flags meter : Nat) (bands : Seq Band) : Py Bytes := do
  let bs ← seqBytes buildBand bands
  let d ← pack [H, H, I] [.int command, .int flags, .int meter]
  ofp_ rnd h (d ++ bs) (.one 29)

/-- `_pack("<n>I", *l)` or given bytes, as in L818-826: `None` is `b""`. -/
def intsBytes : Ints → Py Bytes
  | .list l => pack (List.replicate l.length I) (l.map .int)
  | .raw b => .ok b
  | .none => .ok []
  | .bad => .error .valueError

/-- The common end of the table feature properties: header, body, padding. e.g. build.py L779-783 -/
def tfProp (t : Option Nat) (types : List Nat) (ids : Bytes) : Py Bytes :=
  match t with
  | none => .error .assertion
  | some t => do
    pyAssert (t ∈ types)
    let length := 4 + ids.length
    let h ← pack [H, H] [.int t, .int length]
    .ok (h ++ ids ++ nul (align length - length))

/-- The table feature properties. build.py L766-842 -/
def buildTfProp : TfProp → Py Bytes
  | .header t l =>                                                  -- L766-767
    match t, l with
    | some t, some l => pack [H, H] [.int t, .int l]
    | _, _ => .error .structError
  | .instructions t _ ids => do tfProp t [0, 1] (← seqBytes buildInstr ids)       -- L769-783
  | .nextTables t _ ids => do tfProp t [2, 3] (← seqBytes noTuple ids)            -- L785-799
  | .actions t _ ids => do tfProp t [4, 5, 6, 7] (← seqBytes buildAction ids)     -- L801-816
  | .oxm t _ ids => do tfProp t [8, 9, 10, 11, 12, 13] (← intsBytes ids)          -- L818-833
  | .experimenter _ _ _ _ _ => .error .nameError                    -- L836: `isinsntace`

/-- `_pack("4I", *l)` or 16 given bytes or zeros. build.py L910-926 -/
def fourInts : Ints → Py Bytes
  | .list l => pack [I, I, I, I] (l.map .int)
  | .raw b => do pyAssert (b.length = 16); .ok b
  | .none => .ok (nul 16)
  | .bad => .error .valueError

/-- `"HBxII4H4x3Q"` -/
def flowStatsFmt : Fmt := [H, B, X 1, I, I, H, H, H, H, X 4, Q, Q, Q]

/-- `"B3xII4xQQ"` -/
def flowStatsReqFmt : Fmt := [B, X 3, I, I, X 4, Q, Q]

/-- `"HB5x32sQQII"` -/
def tableFeaturesFmt : Fmt := [H, B, X 5, S 32, Q, Q, I, I]

/-- `"I4x12Q2I"` -/
def portStatsFmt : Fmt := [I, X 4] ++ List.replicate 12 Q ++ [I, I]

/-- `"H2xII4xQQII"` -/
def groupStatsFmt : Fmt := [H, X 2, I, I, X 4, Q, Q, I, I]

/-- `"IH6xIQQII"` -/
def meterStatsFmt : Fmt := [I, H, X 6, I, Q, Q, I, I]

/-- `ofp_bucket_counter` (L890-891), `ofp_meter_band_stats` (L948-949) -/
def buildPair (p : Nat × Nat) : Py Bytes := pack [Q, Q] [.int p.1, .int p.2]

/-- The records in multipart bodies. build.py L663-972 -/
def buildRec : Rec → Py Bytes
  | .desc mfr hw sw serial dp => do                                 -- L663-681
    let msg ← pack [S 256, S 256, S 256, S 32, S 256] [.str (mfr.getD []), .str (hw.getD []),
      .str (sw.getD []), .str (serial.getD []), .str (dp.getD [])]
    pyAssert (msg.length = 1056)
    .ok msg
  | .flowStatsReq table outPort outGroup cookie cookieMask mt => do   -- L684-699
    let mt ← (match mt with
      | none => do .ok (Elem.raw (← buildMatch ⟨none, none, .items []⟩))
      | some e => .ok e : Py (Elem MatchT))
    let desc ← pack flowStatsReqFmt [.int (table.getD 0xff), .int (outPort.getD 0xffffffff),
      .int (outGroup.getD 0xffffffff), .int (cookie.getD 0), .int (cookieMask.getD 0)]
    pyAssert (desc.length = 32)
    .ok (desc ++ (← obj buildMatch mt))
  | .flowStats _ table durSec durNsec priority idle hard flags cookie packets bytes mt instrs => do  -- L701-720
    let is ← seqBytes buildInstr instrs
    let m ← obj buildMatch mt
    let length := 48 + m.length + is.length
    let h ← pack flowStatsFmt [.int length, .int table, .int durSec, .int durNsec, .int priority,
      .int idle, .int hard, .int flags, .int cookie, .int packets, .int bytes]
    let msg := h ++ m ++ is
    pyAssert (msg.length = length)
    .ok msg
  | .aggregateReq table outPort outGroup cookie cookieMask mt => do   -- L723-736
    let desc ← pack flowStatsReqFmt [.int (table.getD 0xff), .int (outPort.getD 0xffffffff),
      .int (outGroup.getD 0xffffffff), .int (cookie.getD 0), .int (cookieMask.getD 0)]
    pyAssert (desc.length = 40)
    .ok (desc ++ (← obj buildMatch (mt.getD .bad)))
  | .aggregate packets bytes flows => pack [Q, Q, I, X 4] [.int packets, .int bytes, .int flows]   -- L738-739
  | .tableStats table active lookup matched => do                   -- L742-745
    let msg ← pack [B, X 3, I, Q, Q] [.int table, .int active, .int lookup, .int matched]
    pyAssert (msg.length = 24)
    .ok msg
  | .tableFeatures _ table name mdMatch mdWrite config maxEntries props => do   -- L748-763
    let ps ← seqBytes buildTfProp props
    let length := 64 + ps.length
    let h ← pack tableFeaturesFmt [.int length, .int table, .str name, .int mdMatch, .int mdWrite,
      .int config, .int maxEntries]
    let msg := h ++ ps
    pyAssert (msg.length = length)
    .ok msg
  | .portStatsReq port => pack [I, X 4] [.int (port.getD 0xffffffff)]     -- L845-848
  | .portStats port counters durSec durNsec =>                      -- L850-855
    pack portStatsFmt ([.int port] ++ counters.map .int ++ [.int durSec, .int durNsec])
  | .queueStatsReq port queue =>                                    -- L858-863: OFPQ_ALL is not defined
    match queue with
    | none => .error .nameError
    | some q => pack [I, I] [.int (port.getD 0xffffffff), .int q]
  | .queueStats port queue txBytes txPackets txErrors durSec durNsec =>   -- L865-866
    pack [I, I, Q, Q, Q, I, I] [.int port, .int queue, .int txBytes, .int txPackets, .int txErrors,
      .int durSec, .int durNsec]
  | .groupStatsReq group => pack [I, X 4] [.int (group.getD 0xfffffffc)]   -- L869-872
  | .groupStats _ group refCount packets bytes durSec durNsec counters => do   -- L874-888
    let cs ← seqBytes buildPair counters
    let h ← pack groupStatsFmt [.int (40 + cs.length), .int group, .int refCount, .int packets, .int bytes,
      .int durSec, .int durNsec]
    .ok (h ++ cs)
  | .groupDesc _ type group buckets => do                           -- L894-906
    let bs ← seqBytes buildBucket buckets
    let h ← pack [H, B, X 1, I] [.int (8 + bs.length), .int type, .int group]
    .ok (h ++ bs)
  | .groupFeatures types caps maxGroups actions => do               -- L909-928
    let ms ← fourInts maxGroups
    let as ← fourInts actions
    let h ← pack [I, I] [.int types, .int caps]
    .ok (h ++ ms ++ as)
  | .meterReq meter => pack [I, X 4] [.int meter]                   -- L931-932
  | .meterStats meter len flows packets bytes durSec durNsec bands => do   -- L934-946
    let bs ← seqBytes buildPair bands
    let h ← packOpt meterStatsFmt len (fun l => [.int meter, .int l, .int flows, .int packets, .int bytes,
      .int durSec, .int durNsec])
    .ok (h ++ bs)
  | .meterConfig _ flags meter bands => do                          -- L952-964
    let bs ← seqBytes buildBand bands
    let h ← pack [H, H, I] [.int (8 + bs.length), .int flags, .int meter]
    .ok (h ++ bs)
  | .meterFeatures maxMeter bandTypes caps maxBands maxColor =>     -- L967-968
    pack [I, I, I, B, B, X 2] [.int maxMeter, .int bandTypes, .int caps, .int maxBands, .int maxColor]
  | .port p => buildPort p                                          -- L92-114
  | .experimenter _ _ _ => .error .nameError        -- there is no `ofp_experimenter_multipart_` builder

/-- `_obj(body)` for a body -/
def objBody : Body → Py Bytes
  | .raw b => .ok b
  | .one r => buildRec r
  | _ => .error .valueError

/-- A single record given where a list is expected is iterated, being a tuple: its fields are handed to
`_obj`.  Only `ofp_desc` consists of byte strings, all others have integer fields: ValueError. -/
def recAsList : Rec → Py Bytes
  | .desc (some mfr) (some hw) (some sw) (some serial) (some dp) => .ok (mfr ++ hw ++ sw ++ serial ++ dp)
  | _ => .error .valueError

/-- The body bytes of `ofp_multipart_request`. build.py L609-624 and the concatenation in L627 -/
def reqBody (type : Nat) (body : Body) : Py Bytes :=
  if type ∈ [0, 3, 7, 8, 11, 13] then .ok []
  else if type ∈ [1, 2, 4, 5, 6, 9, 10] then
    match body with
    | .none => .ok []
    | b => objBody b
  else if type = 12 then
    match body with
    | .raw b => .ok b
    | .many l => join buildRec l
    | .one r => recAsList r
    | _ => .error .typeError           -- `None` becomes a list: bytes + list
  else
    match body with
    | .raw b => .ok b
    | _ => .error .typeError

/-- `ofp_multipart_request`. build.py L608-629 (packing in L627 precedes the concatenation; both
exceptions leave the function without a message) -/
def buildMpRequest (rnd : Nat) (h : HdrArg) (type flags : Nat) (body : Body) : Py Bytes := do
  let b ← reqBody type body
  let d ← pack [H, H, X 4] [.int type, .int flags]
  ofp_ rnd h (d ++ b) (.one 18)

/-- The body bytes of `ofp_multipart_reply`. build.py L632-655 -/
def repBody (type : Nat) (body : Body) : Py Bytes :=
  if type ∈ [0, 2, 8, 11] then
    match body with
    | .none => .ok []
    | b => objBody b
  else if type ∈ [1, 3, 4, 5, 6, 7, 9, 10, 12, 13] then
    match body with
    | .many l => join buildRec l
    | .none => .ok []
    | .one r => recAsList r
    | _ => .error .valueError
  else if type = 0xffff then
    match body with
    | .raw b => .ok b
    | _ => .error .valueError
  else .error .valueError

/-- `ofp_multipart_reply`. build.py L631-660 -/
def buildMpReply (rnd : Nat) (h : HdrArg) (type flags : Nat) (body : Body) : Py Bytes := do
  let b ← repBody type body
  let d ← pack [H, H, X 4] [.int type, .int flags]
  ofp_ rnd h (d ++ b) (.one 19)

/-- `ofp_queue_get_config_request`. build.py L977-980 -/
def buildQueueReq (rnd : Nat) (h : HdrArg) (port : Nat) : Py Bytes := do
  ofp_ rnd h (← pack [I, X 4] [.int port]) (.one 22)

/-- `ofp_queue_get_config_reply`. build.py L982-994 -/
def buildQueueRep (rnd : Nat) (h : HdrArg) (port : Nat) (queues : Seq Queue) : Py Bytes := do
  let qs ← seqBytes buildQueue queues
  let d ← pack [I, X 4] [.int port]
  ofp_ rnd h (d ++ qs) (.one 23)

/-- `ofp_packet_out`. build.py L997-1021 -/
def buildPacketOut (rnd : Nat) (h : HdrArg) (bufferId : Option Nat) (inPort : Nat) (actions : Seq Action)
    (data : Option Bytes) : Py Bytes := do
  let acts ← seqBytes buildAction actions
  let d ← pack [I, I, H, X 6] [.int (bufferId.getD 0xffffffff), .int inPort, .int acts.length]
  ofp_ rnd h (d ++ acts ++ data.getD []) (.one 13)

/-- `ofp_role_request`. build.py L1024-1027 -/
def buildRole (rnd : Nat) (h : HdrArg) (role generation : Nat) : Py Bytes := do
  ofp_ rnd h (← pack [I, X 4, Q] [.int role, .int generation]) (.among [24, 25])

/-- `ofp_async_config`, the masks being tuples (or lists) of integers. build.py L1030-1033 -/
def buildAsync (rnd : Nat) (h : HdrArg) (packetIn portStatus flowRemoved : List Nat) : Py Bytes := do
  ofp_ rnd h (← pack [I, I, I, I, I, I] ((packetIn ++ portStatus ++ flowRemoved).map .int))
    (.among [27, 28])

/-- `ofp_packet_in`; `data` must be a byte string. build.py L1036-1039 -/
def buildPacketIn (rnd : Nat) (h : HdrArg) (bufferId totalLen reason table cookie : Nat)
    (mt : Elem MatchT) (data : Bytes) : Py Bytes := do
  let d ← pack [I, H, B, B, Q] [.int bufferId, .int totalLen, .int reason, .int table, .int cookie]
  let m ← obj buildMatch mt
  ofp_ rnd h (d ++ m ++ nul 2 ++ data) (.one 10)

/-- `"QHBBIIHHQQ"` -/
def flowRemovedFmt : Fmt := [Q, H, B, B, I, I, H, H, Q, Q]

/-- `ofp_flow_removed`. build.py L1042-1049 -/
def buildFlowRemoved (rnd : Nat) (h : HdrArg)
    (cookie priority reason table durSec durNsec idle hard packets bytes : Nat) (mt : Elem MatchT) :
    Py Bytes := do
  let d ← pack flowRemovedFmt [.int cookie, .int priority, .int reason, .int table, .int durSec,
    .int durNsec, .int idle, .int hard, .int packets, .int bytes]
  let m ← obj buildMatch mt
  ofp_ rnd h (d ++ m) (.one 11)

/-- `ofp_port_status`. build.py L1052-1055 -/
def buildPortStatus (rnd : Nat) (h : HdrArg) (reason : Nat) (desc : Elem PortT) : Py Bytes := do
  let d ← pack [B, X 7] [.int reason]
  let p ← obj buildPort desc
  ofp_ rnd h (d ++ p) (.one 12)

/-- `ofp_error_msg`. build.py L1058-1063 -/
def buildError (rnd : Nat) (h : HdrArg) (type code : Nat) (data : Option Bytes) : Py Bytes := do
  let d ← pack [H, H] [.int type, .int code]
  ofp_ rnd h (d ++ data.getD []) (.one 1)

/-- `b"".join([_pack("I",e) for e in bitmaps])`. build.py L1089 -/
def bitmapList : List Nat → Py Bytes
  | [] => .ok []
  | n :: l => do
    let b ← pack [I] [.int n]
    let bs ← bitmapList l
    .ok (b ++ bs)

/-- `b"".join([_pack("I",e) for e in bitmaps])` or given bytes. build.py L1086-1093 -/
def bitmapBytes : Ints → Py Bytes
  | .list l => bitmapList l
  | .raw b => .ok b
  | .none => .ok []
  | .bad => .error .valueError

/-- The hello elements. build.py L1078-1097 -/
def buildHelloElem : HelloElem → Py Bytes
  | .header t l =>
    match t, l with
    | some t, some l => pack [H, H] [.int t, .int l]
    | _, _ => .error .structError
  | .versionBitmap t _ bitmaps => do
    pyAssert (t.getD 1 = 1)
    let bs ← bitmapBytes bitmaps
    let length := 4 + bs.length
    let h ← pack [H, H] [.int (t.getD 1), .int length]
    .ok (h ++ bs ++ nul (align length - length))

/-- `ofp_hello`. build.py L1066-1076 -/
def buildHello (rnd : Nat) (h : HdrArg) (elements : Seq HelloElem) : Py Bytes := do
  ofp_ rnd h (← seqBytes buildHelloElem elements) (.one 0)

/-- `ofp_experimenter_header`; `data` must be a byte string. build.py L1100-1103 -/
def buildExperimenter (rnd : Nat) (h : HdrArg) (exp expType : Nat) (data : Bytes) : Py Bytes := do
  let d ← pack [I, I] [.int exp, .int expType]
  ofp_ rnd h (d ++ data) (.one 4)

end Twink.Of13
