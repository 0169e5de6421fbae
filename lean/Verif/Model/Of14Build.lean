import Verif.Model.Of14Types
import Verif.Model.Of13Build

/-!
# OpenFlow 1.4 builders, twink/ofp5/build.py

Function by function.  `rnd` is the value drawn by `default_xid()` (L9), used where no xid is given.
Constants are written as numbers, see twink/ofp5/__init__.py.  `buildMatch` (L155-174), `buildBand` (L567-619),
`buildHelloElem` (L1345-1364), `intsBytes` (L866-875), `fourInts` (L1065-1081) and `buildPair` (L1045-1046,
L1103-1104) are the functions of the OpenFlow 1.3 model, the code being the same.
-/

namespace Twink.Of14
open Fmt Of13

/-- `ofp_header(version, type, length, xid)`. build.py L33-44 -/
def ofpHeader (rnd : Nat) (version type length xid : Option Nat) : Py Bytes := do
  pyAssert (version.getD 5 = 5)
  packOpt hdrFmt type (fun t => [.int (version.getD 5), .int t, .int (length.getD 8), .int (xid.getD rnd)])

/-- The first part of `ofp_`: version, type and xid out of the `header` and `type` arguments. build.py L48-79 -/
def hdrFields (rnd : Nat) (header : HdrArg) (type : TypeArg) : Py (Option Nat × Option Nat × Option Nat) :=
  match header with
  | .raw b => do
    match ← unpackFrom hdrFmt b 0 with
    | [.int v, .int t, .int _, .int x] =>
      match type with
      | .one ty => do pyAssert (t = ty); .ok (some v, some t, some x)
      | .among ts => do pyAssert (t ∈ ts); .ok (some v, some t, some x)
      | .any => .ok (some v, some t, some x)
    | _ => .error .valueError
  | .tup v t _ x =>
    match type with
    | .one ty =>
      match t with
      | none => .ok (v, some ty, x)
      | some t => do pyAssert (t = ty); .ok (v, some t, x)
    | .among ts =>
      match t with
      | none => .error .assertion
      | some t => do pyAssert (t ∈ ts); .ok (v, some t, x)
    | .any =>
      match t with
      | none => .error .assertion
      | some t => .ok (v, some t, x)
  | .none =>
    match type with
    | .one ty => .ok (some 5, some ty, some rnd)
    | _ => .error .valueError
  | .bad => .error .valueError

/-- `ofp_(header, data, type)`. build.py L47-83 -/
def ofp_ (rnd : Nat) (header : HdrArg) (data : Bytes) (type : TypeArg) : Py Bytes := do
  let (v, t, x) ← hdrFields rnd header type
  let h ← ofpHeader rnd v t (some (8 + data.length)) x
  .ok (h ++ data)

/-- Two 16-bit numbers that may be `None` -/
def packHH (f : Fmt) (t l : Option Nat) : Py Bytes :=
  match t, l with
  | some t, some l => pack f [.int t, .int l]
  | _, _ => .error .structError

/-- Experimenter properties: `_pack("HHII", …)+data`, padded. e.g. build.py L435-436 -/
def packExp (type exp expType : Nat) (data : Bytes) : Py Bytes := do
  let length := 12 + data.length
  let h ← pack [H, H, I, I] [.int type, .int length, .int exp, .int expType]
  .ok (h ++ data ++ nul (align length - length))

/-- The `i` (signed 32 bit) of `struct.pack`, as the number to be packed with `I` -/
def signed (n : Int) : Py Nat :=
  if -2147483648 ≤ n ∧ n < 2147483648 then .ok (n % 4294967296).toNat else .error .structError

/-- `"HH4x6I"` -/
def portEthernetFmt : Fmt := [H, H, X 4, I, I, I, I, I, I]
/-- `"HH4x7I2H"` -/
def portOpticalFmt : Fmt := [H, H, X 4, I, I, I, I, I, I, I, H, H]
/-- `"HHIIiII"`; the fifth field is signed, see `signed` -/
def pmOpticalFmt : Fmt := [H, H, I, I, I, I, I]
/-- `"HH4x4Q"` -/
def psEthernetFmt : Fmt := [H, H, X 4, Q, Q, Q, Q]
/-- `"HH4x7I4H"` -/
def psOpticalFmt : Fmt := [H, H, X 4, I, I, I, I, I, I, I, H, H, H, H]

/-- The properties. -/
def buildPr : Pr → Py Bytes
  | .header t l => packHH [H, H] t l
  | .portEthernet t _ curr adv supp peer cs ms => do                -- L117-125
    pyAssert (t.getD 0 = 0)
    pack portEthernetFmt [.int (t.getD 0), .int 32, .int curr, .int adv, .int supp, .int peer, .int cs, .int ms]
  | .portOptical t _ supp tmin tmax tgrid rmin rmax rgrid pmin pmax => do   -- L127-139
    pyAssert (t.getD 1 = 1)
    pack portOpticalFmt [.int (t.getD 1), .int 40, .int supp, .int tmin, .int tmax, .int tgrid, .int rmin,
      .int rmax, .int rgrid, .int pmin, .int pmax]
  | .portExp t _ exp expType data => do                             -- L141-152: `align` is not defined
    pyAssert (t.getD 0xffff = 0xffff)
    let _ ← pack [H, H, I, I] [.int (t.getD 0xffff), .int (12 + (data.getD []).length), .int exp, .int expType]
    .error .nameError
  | .eviction _ l flags => packOpt [H, H, I] l (fun l => [.int 2, .int l, .int flags])   -- L421-423
  | .vacancy _ _ down up vac => pack [H, H, B, B, B, X 1] [.int 3, .int 8, .int down, .int up, .int vac]   -- L425-428
  | .tableExp _ _ exp expType data =>                               -- L430-436: `_len(None)`
    match data with
    | none => .error .typeError
    | some d => packExp 0xffff exp expType d
  | .pmEthernet _ _ adv => pack [H, H, I] [.int 0, .int 8, .int adv]        -- L531-534
  | .pmOptical _ _ configure freq offset span pwr => do             -- L536-539
    let off ← signed offset
    pack pmOpticalFmt [.int 1, .int 24, .int configure, .int freq, .int off, .int span, .int pwr]
  | .pmExp _ _ exp expType data =>                                  -- L541-547: `_len(None)`
    match data with
    | none => .error .typeError
    | some d => packExp 0xffff exp expType d
  | .psEthernet _ _ frame over crc coll =>                          -- L918-922
    pack psEthernetFmt [.int 0, .int 40, .int frame, .int over, .int crc, .int coll]
  | .psOptical _ _ flags tf toff ts rf ro rs tp rp bias temp =>     -- L924-935
    pack psOpticalFmt [.int 1, .int 44, .int flags, .int tf, .int toff, .int ts, .int rf, .int ro, .int rs,
      .int tp, .int rp, .int bias, .int temp]
  | .psExp _ _ exp expType data => do                               -- L937-944: not padded
    let d := data.getD []
    let h ← pack [H, H, I, I] [.int 0xffff, .int (12 + d.length), .int exp, .int expType]
    .ok (h ++ d)
  | .qsExp _ _ exp expType data =>                                  -- L971-974
    match data with
    | none => .error .typeError
    | some d => packExp 0xffff exp expType d
  | .qdHeader t l => packHH [H, H, X 4] t l                         -- L1003-1005
  | .minRate _ _ rate => pack [H, H, H, X 2] [.int 1, .int 8, .int rate]    -- L1007-1010
  | .maxRate _ _ rate => pack [H, H, H, X 2] [.int 2, .int 8, .int rate]    -- L1012-1015
  | .qdExp _ _ _ _ _ => .error .nameError                           -- L1017-1021: `data` is not defined
  | .bundleExp _ _ exp expType data =>                              -- L1229-1235
    match data with
    | none => .error .typeError
    | some d => packExp 0xffff exp expType d
  | .reasons t _ mask =>                                            -- L1255-1263
    match t with
    | none => .error .assertion
    | some t => do
      pyAssert (t < 12)
      pack [H, H, I] [.int t, .int 8, .int mask]
  | .asyncExp _ _ _ _ _ => .error .nameError                        -- L1265-1270: OFPACPT_EXPERIIMENTER_SLAVE
  | .roleExp _ _ exp expType data => packExp 0xffff exp expType (data.getD [])   -- L1312-1318

/-- `"IH2x6s2x16sII"` -/
def portFmt : Fmt := [I, H, X 2, S 6, X 2, S 16, I, I]

/-- `ofp_port`: the properties are counted in `length`, but are not in the result. build.py L87-110 -/
def buildPort (p : PortT) : Py Bytes := do
  pyAssert (p.hwAddr.length = 6)
  pyAssert (p.name.length ≤ 16)
  let props ← seqBytes buildPr p.properties
  pack portFmt [.int p.portNo, .int (40 + props.length), .str p.hwAddr, .str p.name, .int p.config, .int p.state]

/-- The actions. build.py L252-387 -/
def buildAction : Action → Py Bytes
  | .header t l => packHH [H, H] t l                                -- L252-253
  | .output t _ port maxLen => do                                   -- L255-270
    pyAssert (t.getD 0 = 0)
    let msg ← pack [H, H, I, H, X 6] [.int (t.getD 0), .int 16, .int port, .int maxLen]
    pyAssert (msg.length = 16)
    .ok msg
  | .group t _ group => do                                          -- L272-284
    pyAssert (t.getD 22 = 22)
    let msg ← pack [H, H, I] [.int (t.getD 22), .int 8, .int group]
    pyAssert (msg.length = 8)
    .ok msg
  | .setQueue t _ queue => do                                       -- L286-298
    pyAssert (t.getD 21 = 21)
    let msg ← pack [H, H, I] [.int (t.getD 21), .int 8, .int queue]
    pyAssert (msg.length = 8)
    .ok msg
  | .mplsTtl t _ ttl => do                                          -- L300-312
    pyAssert (t.getD 15 = 15)
    let msg ← pack [H, H, B, X 3] [.int (t.getD 15), .int 8, .int ttl]
    pyAssert (msg.length = 8)
    .ok msg
  | .generic t _ =>                                                 -- L314-318
    match t with
    | none => .error .assertion
    | some t => do
      pyAssert (t = 11 ∨ t = 12 ∨ t = 16 ∨ t = 24 ∨ t = 18 ∨ t = 27)
      pack [H, H, X 4] [.int t, .int 8]
  | .nwTtl t _ ttl => do                                            -- L320-332
    pyAssert (t.getD 23 = 23)
    let msg ← pack [H, H, B, X 3] [.int (t.getD 23), .int 8, .int ttl]
    pyAssert (msg.length = 8)
    .ok msg
  | .push t _ ethertype =>                                          -- L334-346
    match t with
    | none => .error .assertion
    | some t => do
      pyAssert (t = 17 ∨ t = 19 ∨ t = 26)
      let msg ← pack [H, H, H, X 2] [.int t, .int 8, .int ethertype]
      pyAssert (msg.length = 8)
      .ok msg
  | .popMpls t _ ethertype => do                                    -- L348-360
    pyAssert (t.getD 20 = 20)
    let msg ← pack [H, H, H, X 2] [.int (t.getD 20), .int 8, .int ethertype]
    pyAssert (msg.length = 8)
    .ok msg
  | .setField t _ field => do                                       -- L362-372
    pyAssert (t.getD 25 = 25)
    let filled := 4 + field.length
    let h ← pack [H, H] [.int (t.getD 25), .int (align filled)]
    .ok (h ++ field ++ nul (align filled - filled))
  | .expHeader t l exp =>                                           -- L374-375
    match t, l with
    | some t, some l => pack [H, H, I] [.int t, .int l, .int exp]
    | _, _ => .error .structError
  | .experimenter t _ exp data => do                                -- L377-387
    pyAssert (t.getD 0xffff = 0xffff)
    let filled := 8 + data.length
    let h ← pack [H, H, I] [.int (t.getD 0xffff), .int (align filled), .int exp]
    .ok (h ++ data ++ nul (align filled - filled))

/-- The instructions. build.py L177-249 -/
def buildInstr : Instr → Py Bytes
  | .header t l => packHH [H, H] t l                                -- L177-178
  | .gotoTable t _ table => do                                      -- L180-190
    pyAssert (t.getD 1 = 1)
    let msg ← pack [H, H, B, X 3] [.int (t.getD 1), .int 8, .int table]
    pyAssert (msg.length = 8)
    .ok msg
  | .writeMetadata t _ md mask => do                                -- L192-203
    pyAssert (t.getD 2 = 2)
    let msg ← pack [H, H, X 4, Q, Q] [.int (t.getD 2), .int 24, .int md, .int mask]
    pyAssert (msg.length = 24)
    .ok msg
  | .actions t _ actions => do                                      -- L205-223: aligned length, no padding
    let acts ← seqBytes buildAction actions
    match t with
    | none => .error .assertion
    | some t => do
      pyAssert (t = 3 ∨ t = 4 ∨ t = 5)
      let h ← pack [H, H, X 4] [.int t, .int (align (8 + acts.length))]
      .ok (h ++ acts)
  | .meter t _ meter => do                                          -- L225-234
    pyAssert (t.getD 6 = 6)
    pack [H, H, I] [.int (t.getD 6), .int 8, .int meter]
  | .experimenter t _ exp data => do                                -- L236-249
    pyAssert (t.getD 0xffff = 0xffff)
    let h ← pack [H, H, I] [.int (t.getD 0xffff), .int (8 + data.length), .int exp]
    .ok (h ++ data)

/-- `ofp_switch_features`. build.py L390-399 -/
def buildFeatures (rnd : Nat) (h : HdrArg) (dpid nBuffers nTables aux caps : Nat) : Py Bytes := do
  let d ← pack [Q, I, B, B, X 2, I, I] [.int dpid, .int nBuffers, .int nTables, .int aux, .int caps, .int 0]
  let msg ← ofp_ rnd h d (.one 6)
  pyAssert (msg.length = 32)
  .ok msg

/-- `ofp_switch_config`. build.py L402-409 -/
def buildConfig (rnd : Nat) (h : HdrArg) (flags : Nat) (miss : Option Nat) : Py Bytes := do
  let d ← pack [H, H] [.int flags, .int (miss.getD 0xffff)]
  let msg ← ofp_ rnd h d (.among [9, 8])
  pyAssert (msg.length = 12)
  .ok msg

/-- `ofp_table_mod`: `properties` is added to a `str`, anything but a `str` is a TypeError. build.py L412-416 -/
def buildTableMod (rnd : Nat) (h : HdrArg) (table config : Nat) (props : Seq Pr) : Py Bytes := do
  let d ← pack [B, X 3, I] [.int table, .int config]
  match props with
  | .raw b => ofp_ rnd h (d ++ b) (.one 17)
  | _ => .error .typeError

/-- `"QQBB3H3IHH"` -/
def flowModFmt : Fmt := [Q, Q, B, B, H, H, H, I, I, I, H, H]

/-- `ofp_flow_mod`. build.py L439-470 -/
def buildFlowMod (rnd : Nat) (h : HdrArg) (cookie cookieMask table command idle hard priority : Nat)
    (bufferId outPort outGroup : Option Nat) (flags importance : Nat) (mt : Elem MatchT) (instrs : Seq Instr) :
    Py Bytes := do
  let is ← seqBytes buildInstr instrs
  let d ← pack flowModFmt [.int cookie, .int cookieMask, .int table, .int command, .int idle, .int hard,
    .int priority, .int (bufferId.getD 0xffffffff), .int (outPort.getD 0xffffffff),
    .int (outGroup.getD 0xffffffff), .int flags, .int importance]
  let m ← obj buildMatch mt
  ofp_ rnd h (d ++ m ++ is) (.one 14)

/-- `ofp_bucket`. build.py L492-510 -/
def buildBucket (b : Bucket) : Py Bytes := do
  let acts ← seqBytes buildAction b.actions
  let filled := 16 + acts.length
  let h ← pack [H, H, I, I, X 4] [.int (align filled), .int b.weight, .int b.watchPort, .int b.watchGroup]
  .ok (h ++ acts ++ nul (align filled - filled))

/-- `ofp_group_mod`. build.py L473-490 -/
def buildGroupMod (rnd : Nat) (h : HdrArg) (command type group : Nat) (buckets : Seq Bucket) :
    Py Bytes := do
  let bs ← seqBytes buildBucket buckets
  let d ← pack [H, B, X 1, I] [.int command, .int type, .int group]
  ofp_ rnd h (d ++ bs) (.one 15)

/-- `"I4x6s2xII"` -/
def portModFmt : Fmt := [I, X 4, S 6, X 2, I, I]

/-- `ofp_port_mod`. build.py L513-526 -/
def buildPortMod (rnd : Nat) (h : HdrArg) (port : Nat) (hwAddr : Bytes) (config mask : Nat) (props : Seq Pr) :
    Py Bytes := do
  let ps ← seqBytes buildPr props
  let d ← pack portModFmt [.int port, .str hwAddr, .int config, .int mask]
  ofp_ rnd h (d ++ ps) (.one 16)

/-- `_obj(header)`: bytes as they are, a tuple (of class `ofp_header`) through `ofp_header`. build.py L11-17, L561 -/
def objHdr (rnd : Nat) : HdrArg → Py Bytes
  | .raw b => .ok b
  | .tup v t l x => ofpHeader rnd v t l x
  | .none => .error .valueError
  | .bad => .error .valueError

/-- `ofp_meter_mod`: the header is packed as given. build.py L550-565 -/
def buildMeterMod (rnd : Nat) (h : HdrArg) (command flags meter : Nat) (bands : Seq Band) : Py Bytes := do
  let bs ← seqBytes buildBand bands
  let hd ← objHdr rnd h
  let d ← pack [S 8, H, H, I] [.str hd, .int command, .int flags, .int meter]
  .ok (d ++ bs)

/-- `ofp_instruction_id` (`exps` = OFPTFPT_EXPERIMENTER, OFPTFPT_EXPERIMENTER_MISS) and `ofp_action_id` (`exps` =
OFPAT_EXPERIMENTER). build.py L813-821, L856-864 -/
def buildId (exps : List Nat) (i : IdT) : Py Bytes := do
  let data := if i.type ∈ exps then i.data.getD [] else []
  let h ← pack [H, H] [.int i.type, .int (4 + data.length)]
  .ok (h ++ data)

/-- The table numbers. build.py L824-831 -/
def tableIdBytes : TableIds → Py Bytes
  | .raw b => .ok b
  | .strs l => .ok l.flatten
  | .ints [] => .ok []
  | .ints (_ :: _) => .error .valueError
  | .none => .ok []
  | .bad => .error .valueError

/-- The table feature properties. build.py L794-890.  (`tfProp` is the common end, the same as in OpenFlow 1.3.) -/
def buildTfProp : TfProp → Py Bytes
  | .header t l => packHH [H, H] t l                                                        -- L794-795
  | .instructions t _ ids => do tfProp t [0, 1] (← seqBytes (buildId [0xfffe, 0xffff]) ids)   -- L797-811
  | .tables t _ ids => do tfProp t [2, 3] (← tableIdBytes ids)                              -- L823-837
  | .actions t _ ids => do tfProp t [4, 5, 6, 7] (← seqBytes (buildId [0xffff]) ids)        -- L839-854
  | .oxm t _ ids => do tfProp t [8, 9, 10, 11, 12, 13] (← intsBytes ids)                    -- L866-881
  | .experimenter _ _ _ _ _ => .error .nameError                                            -- L884: `isinsntace`

/-- `"H2x3I8Q"` -/
def portStatsFmt : Fmt := [H, X 2, I, I, I, Q, Q, Q, Q, Q, Q, Q, Q]

/-- `"H6x2I3Q2I"` -/
def queueStatsFmt : Fmt := [H, X 6, I, I, Q, Q, Q, I, I]

/-- `"HHBB3H4xQ"` -/
def updateFullFmt : Fmt := [H, H, B, B, H, H, H, X 4, Q]

/-- `ofp_queue_stats_request`, `ofp_queue_desc_request`: OFPQ_ALL is not defined. build.py L947-952, L977-982 -/
def queueReq (port queue : Option Nat) : Py Bytes :=
  match queue with
  | none => .error .nameError
  | some q => pack [I, I] [.int (port.getD 0xffffffff), .int q]

/-- The records in multipart bodies. build.py L677-1160 -/
def buildRec : Rec → Py Bytes
  | .desc mfr hw sw serial dp => do                                 -- L677-695
    let msg ← pack [S 256, S 256, S 256, S 32, S 256] [.str (mfr.getD []), .str (hw.getD []),
      .str (sw.getD []), .str (serial.getD []), .str (dp.getD [])]
    pyAssert (msg.length = 1056)
    .ok msg
  | .flowStatsReq table outPort outGroup cookie cookieMask mt => do   -- L698-713
    let mt ← (match mt with
      | none => do .ok (Elem.raw (← buildMatch ⟨none, none, .items []⟩))
      | some e => .ok e : Py (Elem MatchT))
    let desc ← pack flowStatsReqFmt [.int (table.getD 0xff), .int (outPort.getD 0xffffffff),
      .int (outGroup.getD 0xffffffff), .int (cookie.getD 0), .int (cookieMask.getD 0)]
    pyAssert (desc.length = 32)
    .ok (desc ++ (← obj buildMatch mt))
  | .flowStats _ table durSec durNsec priority idle hard flags cookie packets bytes mt instrs => do  -- L715-734
    let is ← seqBytes buildInstr instrs
    let m ← obj buildMatch mt
    let length := 48 + m.length + is.length
    let h ← pack flowStatsFmt [.int length, .int table, .int durSec, .int durNsec, .int priority,
      .int idle, .int hard, .int flags, .int cookie, .int packets, .int bytes]
    let msg := h ++ m ++ is
    pyAssert (msg.length = length)
    .ok msg
  | .aggregateReq table outPort outGroup cookie cookieMask mt => do   -- L737-750
    let desc ← pack flowStatsReqFmt [.int (table.getD 0xff), .int (outPort.getD 0xffffffff),
      .int (outGroup.getD 0xffffffff), .int (cookie.getD 0), .int (cookieMask.getD 0)]
    pyAssert (desc.length = 40)
    .ok (desc ++ (← obj buildMatch mt))
  | .aggregate packets bytes flows => pack [Q, Q, I, X 4] [.int packets, .int bytes, .int flows]   -- L752-753
  | .tableStats table active lookup matched => do                   -- L756-759
    let msg ← pack [B, X 3, I, Q, Q] [.int table, .int active, .int lookup, .int matched]
    pyAssert (msg.length = 24)
    .ok msg
  | .tableDesc _ table config props => do                           -- L762-773
    let ps ← seqBytes buildPr props
    let h ← pack [H, B, X 1, I] [.int (8 + ps.length), .int table, .int config]
    .ok (h ++ ps)
  | .tableFeatures _ table name mdMatch mdWrite caps maxEntries props => do   -- L776-791
    let ps ← seqBytes buildTfProp props
    let length := 64 + ps.length
    let h ← pack tableFeaturesFmt [.int length, .int table, .str name, .int mdMatch, .int mdWrite,
      .int caps, .int maxEntries]
    let msg := h ++ ps
    pyAssert (msg.length = length)
    .ok msg
  | .portStatsReq port => pack [I, X 4] [.int (port.getD 0xffffffff)]     -- L893-896
  | .portStats _ port durSec durNsec counters props => do           -- L898-913
    let ps ← seqBytes buildPr props
    let h ← pack portStatsFmt ([.int (80 + ps.length), .int port, .int durSec, .int durNsec] ++ counters.map .int)
    .ok (h ++ ps)
  | .queueStatsReq port queue => queueReq port queue                -- L947-952
  | .queueStats _ port queue txBytes txPackets txErrors durSec durNsec props => do   -- L954-966
    let ps ← seqBytes buildPr props
    let h ← pack queueStatsFmt [.int (48 + ps.length), .int port, .int queue, .int txBytes, .int txPackets,
      .int txErrors, .int durSec, .int durNsec]
    .ok (h ++ ps)
  | .queueDescReq port queue => queueReq port queue                 -- L977-982
  | .queueDesc port queue _ props => do                             -- L984-1001
    let ps ← seqBytes buildPr props
    let desc ← pack [I, I, H, X 6] [.int port, .int queue, .int (16 + ps.length)]
    pyAssert (desc.length = 16)
    .ok (desc ++ ps)
  | .groupStatsReq group => pack [I, X 4] [.int (group.getD 0xfffffffc)]   -- L1024-1027
  | .groupStats _ group refCount packets bytes durSec durNsec counters => do   -- L1029-1043
    let cs ← seqBytes buildPair counters
    let h ← pack groupStatsFmt [.int (40 + cs.length), .int group, .int refCount, .int packets, .int bytes,
      .int durSec, .int durNsec]
    .ok (h ++ cs)
  | .groupDesc _ type group buckets => do                           -- L1049-1061
    let bs ← seqBytes buildBucket buckets
    let h ← pack [H, B, X 1, I] [.int (8 + bs.length), .int type, .int group]
    .ok (h ++ bs)
  | .groupFeatures types caps maxGroups actions => do               -- L1064-1083
    let ms ← fourInts maxGroups
    let as ← fourInts actions
    let h ← pack [I, I] [.int types, .int caps]
    .ok (h ++ ms ++ as)
  | .meterReq meter => pack [I, X 4] [.int meter]                   -- L1086-1087
  | .meterStats meter len flows packets bytes durSec durNsec bands => do   -- L1089-1101
    let bs ← seqBytes buildPair bands
    let h ← packOpt meterStatsFmt len (fun l => [.int meter, .int l, .int flows, .int packets, .int bytes,
      .int durSec, .int durNsec])
    .ok (h ++ bs)
  | .meterConfig _ flags meter bands => do                          -- L1107-1119
    let bs ← seqBytes buildBand bands
    let h ← pack [H, H, I] [.int (8 + bs.length), .int flags, .int meter]
    .ok (h ++ bs)
  | .meterFeatures maxMeter bandTypes caps maxBands maxColor =>     -- L1122-1123
    pack [I, I, I, B, B, X 2] [.int maxMeter, .int bandTypes, .int caps, .int maxBands, .int maxColor]
  | .flowMonitorReq monitor outPort outGroup flags table command mt => do   -- L1126-1129
    let h ← pack [I, I, I, H, B, B] [.int monitor, .int outPort, .int outGroup, .int flags, .int table, .int command]
    .ok (h ++ (← obj buildMatch mt))
  | .updateHeader _ _ => .error .nameError          -- there is no `ofp_flow_update_header` builder
  | .updateFull _ event table reason idle hard priority cookie mt instrs => do   -- L1132-1147: 32 instead of 24
    let is ← seqBytes buildInstr instrs
    let m ← obj buildMatch mt
    let h ← pack updateFullFmt [.int (32 + m.length + is.length), .int event, .int table, .int reason, .int idle,
      .int hard, .int priority, .int cookie]
    .ok (h ++ m ++ is)
  | .updateAbbrev _ _ xid => pack [H, H, I] [.int 8, .int 4, .int xid]      -- L1149-1152
  | .updatePaused _ event => pack [H, H, X 4] [.int 8, .int event]          -- L1154-1156
  | .port p => buildPort p                                          -- L87-110
  | .prop p => buildPr p
  | .experimenter _ _ _ => .error .nameError        -- there is no `ofp_experimenter_multipart_` builder

/-- `_obj(body)` for a body -/
def objBody : Body → Py Bytes
  | .raw b => .ok b
  | .one r => buildRec r
  | _ => .error .valueError

/-- A single record given where a list is expected is iterated, being a tuple: its fields are handed to `_obj`.
Only `ofp_desc` consists of byte strings, all others have integer fields: ValueError. -/
def recAsList : Rec → Py Bytes
  | .desc (some mfr) (some hw) (some sw) (some serial) (some dp) => .ok (mfr ++ hw ++ sw ++ serial ++ dp)
  | _ => .error .valueError

/-- The body bytes of `ofp_multipart_request`. build.py L623-638 and the concatenation in L641.  There is no branch
for TABLE_DESC, QUEUE_DESC and FLOW_MONITOR (14, 15, 16). -/
def reqBody (type : Nat) (body : Body) : Py Bytes :=
  if type ∈ [0, 3, 7, 8, 11, 13] then .ok []
  else if type ∈ [1, 2, 4, 5, 6, 9, 10] then
    match body with
    | .none => .ok []
    | b => objBody b
  else if type = 12 then
    match body with
    | .raw b => .ok b
    | .many l => join buildRec l
    | .one r => recAsList r
    | _ => .error .typeError           -- `None` becomes a list: str + list
  else
    match body with
    | .raw b => .ok b
    | _ => .error .typeError

/-- `ofp_multipart_request`. build.py L622-643 -/
def buildMpRequest (rnd : Nat) (h : HdrArg) (type flags : Nat) (body : Body) : Py Bytes := do
  let b ← reqBody type body
  let d ← pack [H, H, X 4] [.int type, .int flags]
  ofp_ rnd h (d ++ b) (.one 18)

/-- The body bytes of `ofp_multipart_reply`. build.py L646-669 -/
def repBody (type : Nat) (body : Body) : Py Bytes :=
  if type ∈ [0, 2, 8, 11] then
    match body with
    | .none => .ok []
    | b => objBody b
  else if type ∈ [1, 3, 4, 5, 6, 7, 9, 10, 12, 13] then
    match body with
    | .many l => join buildRec l
    | .none => .ok []
    | .one r => recAsList r
    | _ => .error .valueError
  else if type = 0xffff then
    match body with
    | .raw b => .ok b
    | _ => .error .valueError
  else .error .valueError

/-- `ofp_multipart_reply`. build.py L645-674 -/
def buildMpReply (rnd : Nat) (h : HdrArg) (type flags : Nat) (body : Body) : Py Bytes := do
  let b ← repBody type body
  let d ← pack [H, H, X 4] [.int type, .int flags]
  ofp_ rnd h (d ++ b) (.one 19)

/-- `ofp_packet_out`. build.py L1163-1187 -/
def buildPacketOut (rnd : Nat) (h : HdrArg) (bufferId : Option Nat) (inPort : Nat) (actions : Seq Action)
    (data : Option Bytes) : Py Bytes := do
  let acts ← seqBytes buildAction actions
  let d ← pack [I, I, H, X 6] [.int (bufferId.getD 0xffffffff), .int inPort, .int acts.length]
  ofp_ rnd h (d ++ acts ++ data.getD []) (.one 13)

/-- `ofp_role_request`. build.py L1190-1193 -/
def buildRole (rnd : Nat) (h : HdrArg) (role generation : Nat) : Py Bytes := do
  ofp_ rnd h (← pack [I, X 4, Q] [.int role, .int generation]) (.among [24, 25])

/-- `ofp_bundle_ctrl_msg`. build.py L1196-1208 -/
def buildBundleCtrl (rnd : Nat) (h : HdrArg) (bundle type flags : Nat) (props : Seq Pr) : Py Bytes := do
  let ps ← seqBytes buildPr props
  let d ← pack [I, H, H] [.int bundle, .int type, .int flags]
  ofp_ rnd h (d ++ ps) (.one 33)

/-- `ofp_bundle_add_msg`; `message` is the result of `_obj(message)`. build.py L1211-1223 -/
def buildBundleAdd (rnd : Nat) (h : HdrArg) (bundle flags : Nat) (message : Py Bytes) (props : Seq Pr) : Py Bytes := do
  let ps ← seqBytes buildPr props
  let d ← pack [I, X 2, H] [.int bundle, .int flags]
  let m ← message
  ofp_ rnd h (d ++ m ++ ps) (.one 34)

/-- `ofp_async_config`. build.py L1238-1250 -/
def buildAsync (rnd : Nat) (h : HdrArg) (props : Seq Pr) : Py Bytes := do
  ofp_ rnd h (← seqBytes buildPr props) (.among [27, 28])

/-- `ofp_packet_in`; `data` must be a byte string. build.py L1273-1276 -/
def buildPacketIn (rnd : Nat) (h : HdrArg) (bufferId totalLen reason table cookie : Nat)
    (mt : Elem MatchT) (data : Bytes) : Py Bytes := do
  let d ← pack [I, H, B, B, Q] [.int bufferId, .int totalLen, .int reason, .int table, .int cookie]
  let m ← obj buildMatch mt
  ofp_ rnd h (d ++ m ++ nul 2 ++ data) (.one 10)

/-- `ofp_flow_removed`. build.py L1279-1286 -/
def buildFlowRemoved (rnd : Nat) (h : HdrArg)
    (cookie priority reason table durSec durNsec idle hard packets bytes : Nat) (mt : Elem MatchT) :
    Py Bytes := do
  let d ← pack flowRemovedFmt [.int cookie, .int priority, .int reason, .int table, .int durSec,
    .int durNsec, .int idle, .int hard, .int packets, .int bytes]
  let m ← obj buildMatch mt
  ofp_ rnd h (d ++ m) (.one 11)

/-- `ofp_port_status`: OFP_PORT_STATUS is not defined. build.py L1289-1292 -/
def buildPortStatus (_rnd : Nat) (_h : HdrArg) (reason : Nat) (desc : Elem PortT) : Py Bytes := do
  let _ ← pack [B, X 7] [.int reason]
  let _ ← obj buildPort desc
  .error .nameError

/-- `ofp_role_status`, with the types of role requests and replies. build.py L1295-1307 -/
def buildRoleStatus (rnd : Nat) (h : HdrArg) (role reason generation : Nat) (props : Seq Pr) : Py Bytes := do
  let ps ← seqBytes buildPr props
  let d ← pack [I, B, X 3, Q] [.int role, .int reason, .int generation]
  ofp_ rnd h (d ++ ps) (.among [24, 25])

/-- `ofp_table_status`; `table` is the result of `_obj(table)`. build.py L1321-1324 -/
def buildTableStatus (rnd : Nat) (h : HdrArg) (reason : Nat) (table : Py Bytes) : Py Bytes := do
  let d ← pack [H, X 7] [.int reason]
  let t ← table
  ofp_ rnd h (d ++ t) (.one 31)

/-- `ofp_requestforward_header`; `request` is the result of `_obj(request)`. build.py L1327-1330 -/
def buildRequestForward (rnd : Nat) (h : HdrArg) (request : Py Bytes) : Py Bytes := do
  let r ← request
  ofp_ rnd h r (.one 32)

/-- `ofp_hello`. build.py L1333-1343 -/
def buildHello (rnd : Nat) (h : HdrArg) (elements : Seq HelloElem) : Py Bytes := do
  ofp_ rnd h (← seqBytes buildHelloElem elements) (.one 0)

/-- `ofp_error_msg`. build.py L1367-1372 -/
def buildError (rnd : Nat) (h : HdrArg) (type code : Nat) (data : Option Bytes) : Py Bytes := do
  let d ← pack [H, H] [.int type, .int code]
  ofp_ rnd h (d ++ data.getD []) (.one 1)

/-- `ofp_error_experimenter_msg`; `data` must be a byte string. build.py L1374-1378 -/
def buildErrorExp (rnd : Nat) (h : HdrArg) (expCode exp : Nat) (data : Bytes) : Py Bytes := do
  let d ← pack [H, H, I] [.int 0xffff, .int expCode, .int exp]
  ofp_ rnd h (d ++ data) (.one 1)

/-- `ofp_experimenter_msg`. build.py L1381-1386 -/
def buildExperimenter (rnd : Nat) (h : HdrArg) (exp expType : Nat) (data : Option Bytes) : Py Bytes := do
  let d ← pack [I, I] [.int exp, .int expType]
  ofp_ rnd h (d ++ data.getD []) (.one 4)

end Twink.Of14
