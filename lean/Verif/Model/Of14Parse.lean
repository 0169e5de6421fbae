import Verif.Model.Of14Build
import Verif.Model.Of13Parse

/-!
# OpenFlow 1.4 parser, twink/ofp5/parse.py

Function by function, with the conventions of `Verif.Model.Of13Parse`: a parse function takes the message and the
cursor's offset and returns its value with the new offset; a loop whose body leaves the cursor where it was gives
`Err.diverges`.  `parseMatch` (L173-181), `parseBand` (L536-571), `parseHelloElem` (L1432-1456), `parsePair`
(L1031-1033, L1076-1079), `fourList` (L1050-1051) and `listFetch` (L663-669) are the functions of the OpenFlow 1.3
model, the code being the same.

Messages nest (bundles, forwarded requests); `parseAt` returns the new offset too.  Python's limit on the depth of
recursion is not modelled.
-/

namespace Twink.Of14
open Fmt Of13

/-- `ofp_header`. parse.py L102-108 -/
def parseHdr (m : Bytes) (off : Nat) : Py (Hdr × Nat) := do
  let r ← rd hdrFmt m off (four Hdr.mk)
  pyAssert (r.1.version = 5)
  .ok r

/-- `ofp_`: any message as header and data. parse.py L110-119 -/
def parseOther (m : Bytes) (off : Nat) : Py (Msg × Nat) := do
  let (h, o) ← parseHdr m off
  .ok (.other h (slice m o (off + h.length)), off + h.length)

/-- Experimenter properties: data up to the length, and where they end. e.g. parse.py L414-424 -/
def parseExp (k : Option Nat → Option Nat → Nat → Nat → Option Bytes → Pr) (fill : Nat → Nat) (m : Bytes) (off : Nat) :
    Py (Pr × Nat) := do
  let ((t, l, exp, ty), o) ← rd [H, H, I, I] m off (four fun a b c d => (a, b, c, d))
  .ok (k (some t) (some l) exp ty (some (slice m o (off + l))), off + fill l)

/-- the fields of `ofp_port_desc_prop_ethernet` -/
def portEthernetOf : List Val → Option Pr
  | [.int t, .int l, .int a, .int b, .int c, .int d, .int e, .int f] =>
    some (.portEthernet (some t) (some l) a b c d e f)
  | _ => none

/-- the fields of `ofp_port_desc_prop_optical` -/
def portOpticalOf : List Val → Option Pr
  | [.int t, .int l, .int a, .int b, .int c, .int d, .int e, .int f, .int g, .int h, .int i] =>
    some (.portOptical (some t) (some l) a b c d e f g h i)
  | _ => none

/-- The property of a port description of type `t`. parse.py L131-138, L148-170 -/
def parsePortPropOf (t : Nat) (m : Bytes) (off : Nat) : Py (Pr × Nat) :=
  if t = 0 then rd portEthernetFmt m off portEthernetOf
  else if t = 1 then rd portOpticalFmt m off portOpticalOf
  else if t = 0xffff then parseExp .portExp id m off
  else .error .valueError

/-- `ofp_port`: with properties, the first one is returned in place of the port; without, `properties` is not
defined. parse.py L122-141 -/
def parsePort (m : Bytes) (off : Nat) : Py (Pr × Nat) := do
  let (length, o) ← rd portFmt m off (fun
    | [.int _, .int l, .str _, .str _, .int _, .int _] => some l
    | _ => none)
  if o < off + length then do
    let ((t, _), _) ← rd [H, H] m o (two fun a b => (a, b))
    parsePortPropOf t m o
  else .error .nameError

/-- The action of type `t`. parse.py L293-347 -/
def parseActionOf (t : Nat) (m : Bytes) (off : Nat) : Py (Action × Nat) :=
  if t = 0 then rd [H, H, I, H, X 6] m off (four fun t l => .output (some t) (some l))
  else if t = 22 then rd [H, H, I] m off (three fun t l => .group (some t) (some l))
  else if t = 21 then rd [H, H, I] m off (three fun t l => .setQueue (some t) (some l))
  else if t = 15 then .error .nameError           -- `namedutple`, L306
  else if t = 23 then rd [H, H, B, X 3] m off (three fun t l => .nwTtl (some t) (some l))
  else if t = 17 ∨ t = 19 ∨ t = 26 then
    rd [H, H, H, X 2] m off (three fun t l => .push (some t) (some l))
  else if t = 20 then rd [H, H, H, X 2] m off (three fun t l => .popMpls (some t) (some l))
  else if t = 25 then do                          -- L325-333
    let ((type, len), o) ← rd [H, H] m off (two fun a b => (a, b))
    .ok (.setField (some type) (some len) (slice m o (off + len)), off + len)
  else if t = 0xffff then do                      -- L339-347
    let ((type, len, exp), o) ← rd [H, H, I] m off (three fun a b c => (a, b, c))
    .ok (.experimenter (some type) (some len) exp (slice m o (off + len)), off + len)
  else if t = 11 ∨ t = 12 ∨ t = 16 ∨ t = 24 ∨ t = 18 ∨ t = 27 then
    rd [H, H, X 4] m off (two fun t l => .generic (some t) (some l))
  else .error .valueError

/-- `ofp_action_`. parse.py L266-291 -/
def parseAction (m : Bytes) (off : Nat) : Py (Action × Nat) := do
  let ((t, _), _) ← rd [H, H] m off (two fun a b => (a, b))
  parseActionOf t m off

/-- The instruction of type `t`. parse.py L211-259 -/
def parseInstrOf (t : Nat) (m : Bytes) (off : Nat) : Py (Instr × Nat) :=
  if t = 1 then rd [H, H, B, X 3] m off (three fun t l => .gotoTable (some t) (some l))
  else if t = 2 then rd [H, H, X 4, Q, Q] m off (four fun t l => .writeMetadata (some t) (some l))
  else if t = 3 ∨ t = 4 ∨ t = 5 then do           -- L219-231
    let ((type, len), o) ← rd [H, H, X 4] m off (two fun a b => (a, b))
    let (acts, o) ← whileFetch (parseAction m) (off + len) o
    pyAssert (o = off + len)
    .ok (.actions (some type) (some len) (tups acts), o)
  else if t = 6 then rd [H, H, I] m off (three fun t l => .meter (some t) (some l))
  else if t = 0xffff then do                      -- L249-259
    let ((type, len, exp), o) ← rd [H, H, I] m off (three fun a b c => (a, b, c))
    .ok (.experimenter (some type) (some len) exp (slice m o (off + len)), off + len)
  else .error .valueError

/-- `ofp_instruction_`. parse.py L193-209 -/
def parseInstr (m : Bytes) (off : Nat) : Py (Instr × Nat) := do
  let ((t, _), _) ← rd [H, H] m off (two fun a b => (a, b))
  parseInstrOf t m off

/-- `ofp_switch_features`. parse.py L359-368 -/
def parseFeatures (m : Bytes) (off : Nat) : Py (Msg × Nat) := do
  let (h, o) ← parseHdr m off
  rd [Q, I, B, B, X 2, I, I] m o (fun
    | [.int d, .int nb, .int nt, .int aux, .int caps, .int _] => some (Msg.features h d nb nt aux caps)
    | _ => none)

/-- `ofp_switch_config`. parse.py L371-377 -/
def parseConfig (m : Bytes) (off : Nat) : Py (Msg × Nat) := do
  let (h, o) ← parseHdr m off
  rd [H, H] m o (two (Msg.config h))

/-- The table property of type `t`. parse.py L389-396, L405-424 -/
def parseTmPropOf (t : Nat) (m : Bytes) (off : Nat) : Py (Pr × Nat) :=
  if t = 2 then rd [H, H, I] m off (three fun t l => .eviction (some t) (some l))
  else if t = 3 then rd [H, H, B, B, B, X 1] m off (five fun t l => .vacancy (some t) (some l))
  else if t = 0xffff then parseExp .tableExp align m off
  else .error .valueError

/-- The body of the loop over table properties. parse.py L388-396 -/
def parseTmProp (m : Bytes) (off : Nat) : Py (Pr × Nat) := do
  let ((t, _), _) ← rd [H, H] m off (two fun a b => (a, b))
  parseTmPropOf t m off

/-- `ofp_table_mod`. parse.py L380-399 -/
def parseTableMod (m : Bytes) (off : Nat) : Py (Msg × Nat) := do
  let (h, o) ← parseHdr m off
  let (k, o) ← rd [B, X 3, I] m o (two (Msg.tableMod h))
  let (ps, o) ← whileFetch (parseTmProp m) (off + h.length) o
  .ok (k ps, o)

/-- `ofp_flow_mod`. parse.py L427-445 -/
def parseFlowMod (m : Bytes) (off : Nat) : Py (Msg × Nat) := do
  let (h, o) ← parseHdr m off
  let (k, o) ← rd flowModFmt m o (fun
    | [.int c, .int cm, .int t, .int cmd, .int i, .int hd, .int p, .int b, .int op, .int og, .int f, .int im] =>
      some (Msg.flowMod h c cm t cmd i hd p b op og f im)
    | _ => none)
  let (mt, o) ← parseMatch m o
  let (is, o) ← listFetch (parseInstr m) (off + h.length) o
  .ok (k mt is, o)

/-- `ofp_bucket`. parse.py L461-472 -/
def parseBucket (m : Bytes) (off : Nat) : Py (Bucket × Nat) := do
  let ((len, w, wp, wg), o) ← rd [H, H, I, I, X 4] m off (four fun a b c d => (a, b, c, d))
  let (acts, o) ← whileFetch (parseAction m) (off + len) o
  .ok (⟨some len, w, wp, wg, tups acts⟩, o)

/-- `ofp_group_mod`. parse.py L448-459 -/
def parseGroupMod (m : Bytes) (off : Nat) : Py (Msg × Nat) := do
  let (h, o) ← parseHdr m off
  let (k, o) ← rd [H, B, X 1, I] m o (three (Msg.groupMod h))
  let (bs, o) ← whileFetch (parseBucket m) (off + h.length) o
  .ok (k bs, o)

/-- the signed number that `"i"` unpacks, out of the one that `"I"` would unpack -/
def unsigned (n : Nat) : Int := if n < 2147483648 then n else n - 4294967296

/-- the fields of `ofp_port_mod_prop_optical` -/
def pmOpticalOf : List Val → Option Pr
  | [.int t, .int l, .int a, .int b, .int c, .int d, .int e] =>
    some (.pmOptical (some t) (some l) a b (unsigned c) d e)
  | _ => none

/-- The property of a port modification of type `t`. parse.py L484-489, L499-518.  With another type nothing is
appended and the cursor stays (there is no `else`).  The experimenter property is unpacked at an integer offset, so
that the data begin with the property's own header. -/
def parsePmPropOf (t : Nat) (m : Bytes) (off : Nat) : Py (Pr × Nat) :=
  if t = 0 then rd [H, H, I] m off (three fun t l => .pmEthernet (some t) (some l))
  else if t = 1 then rd pmOpticalFmt m off pmOpticalOf
  else if t = 0xffff then do
    let ((t, l, exp, ty), _) ← rd [H, H, I, I] m off (four fun a b c d => (a, b, c, d))
    .ok (.pmExp (some t) (some l) exp ty (some (slice m off (off + l))), off + align l)
  else .ok (.header (some t) none, off)

/-- The body of the loop over the properties of a port modification. parse.py L483-489 -/
def parsePmProp (m : Bytes) (off : Nat) : Py (Pr × Nat) := do
  let ((t, _), _) ← rd [H, H] m off (two fun a b => (a, b))
  parsePmPropOf t m off

/-- `ofp_port_mod`: the fixed part is unpacked from the start of the message, and the cursor stays behind the
header. parse.py L475-493 -/
def parsePortMod (m : Bytes) (off : Nat) : Py (Msg × Nat) := do
  let (h, o) ← parseHdr m off
  let (k, _) ← rd portModFmt m off (fun
    | [.int port, .str hw, .int config, .int mask] => some (Msg.portMod h port hw config mask)
    | _ => none)
  let (ps, o) ← whileFetch (parsePmProp m) (off + h.length) o
  .ok (k ps, o)

/-- `ofp_meter_mod`. parse.py L521-534 -/
def parseMeterMod (m : Bytes) (off : Nat) : Py (Msg × Nat) := do
  let (h, o) ← parseHdr m off
  let (k, o) ← rd [H, H, I] m o (three (Msg.meterMod h))
  let (bs, o) ← whileFetch (parseBand m) (off + h.length) o
  .ok (k bs, o)

/-- `ofp_desc`. parse.py L672-674 -/
def parseDesc (m : Bytes) (off : Nat) : Py (Rec × Nat) :=
  rd [S 256, S 256, S 256, S 32, S 256] m off (fun
    | [.str a, .str b, .str c, .str d, .str e] => some (.desc (some a) (some b) (some c) (some d) (some e))
    | _ => none)

/-- `ofp_flow_stats_request`. parse.py L677-687 -/
def parseFlowStatsReq (m : Bytes) (off : Nat) : Py (Rec × Nat) := do
  let (k, o) ← rd flowStatsReqFmt m off (five fun a b c d e => Rec.flowStatsReq a b c d e)
  let (mt, o) ← parseMatch m o
  .ok (k (some (.tup mt)), o)

/-- `ofp_flow_stats`. parse.py L689-707 -/
def parseFlowStats (m : Bytes) (off : Nat) : Py (Rec × Nat) := do
  let ((length, k), o) ← rd flowStatsFmt m off (fun
    | [.int l, .int t, .int ds, .int dn, .int p, .int i, .int h, .int f, .int c, .int pc, .int bc] =>
      some (l, Rec.flowStats (some l) t ds dn p i h f c pc bc)
    | _ => none)
  let (mt, o) ← parseMatch m o
  let (is, o) ← listFetch (parseInstr m) (off + length) o
  .ok (k (.tup mt) (tups is), o)

/-- `ofp_aggregate_stats_request`. parse.py L710-719 -/
def parseAggregateReq (m : Bytes) (off : Nat) : Py (Rec × Nat) := do
  let (k, o) ← rd flowStatsReqFmt m off (five fun a b c d e => Rec.aggregateReq a b c d e)
  let (mt, o) ← parseMatch m o
  .ok (k (.tup mt), o)

/-- `ofp_aggregate_stats_reply`. parse.py L721-724 -/
def parseAggregate (m : Bytes) (off : Nat) : Py (Rec × Nat) := rd [Q, Q, I, X 4] m off (three Rec.aggregate)

/-- `ofp_table_stats`: four values for five fields. parse.py L727-729 -/
def parseTableStats (m : Bytes) (off : Nat) : Py (Rec × Nat) := do
  let (_, _) ← rd [B, X 3, I, Q, Q] m off (fun _ => some ())
  .error .typeError

/-- `ofp_table_desc`: `header` is not defined. parse.py L732-751 -/
def parseTableDesc (m : Bytes) (off : Nat) : Py (Rec × Nat) := do
  let (_, _) ← rd [H, B, X 1, I] m off (fun _ => some ())
  .error .nameError

/-- `ofp_instruction_id`: the cursor moves four bytes. parse.py L799-806 -/
def parseId (m : Bytes) (off : Nat) : Py (IdT × Nat) := do
  let ((type, len), o) ← rd [H, H] m off (two fun a b => (a, b))
  .ok (⟨type, some len, some (slice m o (off + len))⟩, o)

/-- The table feature property of type `t`. parse.py L765-777, L787-860.  `"%dB"` and `"%dI"` are no formats if the
length is less than 4. -/
def parseTfPropOf (t : Nat) (m : Bytes) (off : Nat) : Py (TfProp × Nat) :=
  if t = 0 ∨ t = 1 then do                                          -- L787-797
    let ((type, length), o) ← rd [H, H] m off (two fun a b => (a, b))
    let (ids, _) ← listFetch (parseId m) (off + length) o
    .ok (.instructions (some type) (some length) (tups ids), off + align length)
  else if t = 2 ∨ t = 3 ∨ t = 14 then do                            -- L808-817: read from the property's start
    let ((type, length), o) ← rd [H, H] m off (two fun a b => (a, b))
    if length < 4 then .error .structError
    else do
      let (ids, _) ← rd (List.replicate (length - 4) B) m off allInts
      .ok (.tables (some type) (some length) (.ints ids), o + (align length - length))
  else if t = 4 ∨ t = 5 ∨ t = 6 ∨ t = 7 then do                     -- L819-828: an argument is missing
    let (_, _) ← rd [H, H] m off (two fun a b => (a, b))
    .error .typeError
  else if t = 8 ∨ t = 9 ∨ t = 10 ∨ t = 11 ∨ t = 12 ∨ t = 13 then do  -- L839-848
    let ((type, length), o) ← rd [H, H] m off (two fun a b => (a, b))
    if length < 4 then .error .structError
    else do
      let (ids, o) ← rd (List.replicate ((length - 4) / 4) I) m o allInts
      .ok (.oxm (some type) (some length) (.list ids), o + (align length - length))
  else if t = 0xfffe ∨ t = 0xffff then do                           -- L850-860: the data are not passed over
    let ((type, length, exp, ty), o) ← rd [H, H, I, I] m off (four fun a b c d => (a, b, c, d))
    .ok (.experimenter (some type) (some length) exp ty (slice m o (off + length)), o + (align length - length))
  else .error .valueError

/-- The body of the loop over table feature properties. parse.py L764-777 -/
def parseTfProp (m : Bytes) (off : Nat) : Py (TfProp × Nat) := do
  let ((t, _), _) ← rd [H, H] m off (two fun a b => (a, b))
  parseTfPropOf t m off

/-- `ofp_table_features`. parse.py L754-781.  (The tuple is of a class named ofp_table_feature_prop_header.) -/
def parseTableFeatures (m : Bytes) (off : Nat) : Py (Rec × Nat) := do
  let ((length, k), o) ← rd tableFeaturesFmt m off (fun
    | [.int l, .int t, .str n, .int mm, .int mw, .int c, .int e] =>
      some (l, Rec.tableFeatures (some l) t (beforeNul n) mm mw c e)
    | _ => none)
  let (ps, o) ← whileFetch (parseTfProp m) (off + length) o
  .ok (k (tups ps), o)

/-- `ofp_port_stats_request`. parse.py L863-865 -/
def parsePortStatsReq (m : Bytes) (off : Nat) : Py (Rec × Nat) :=
  rd [I, X 4] m off (fun | [.int p] => some (.portStatsReq (some p)) | _ => none)

/-- `"H2xIII12Q2I"` (the builder writes `H2x3I8Q`) -/
def portStatsParseFmt : Fmt := [H, X 2, I, I, I] ++ List.replicate 12 Q ++ [I, I]

/-- the fields of `ofp_port_stats_prop_ethernet` -/
def psEthernetOf : List Val → Option Pr
  | [.int t, .int l, .int a, .int b, .int c, .int d] => some (.psEthernet (some t) (some l) a b c d)
  | _ => none

/-- the fields of `ofp_port_stats_prop_optical` -/
def psOpticalOf : List Val → Option Pr
  | [.int t, .int l, .int a, .int b, .int c, .int d, .int e, .int f, .int g, .int h, .int i, .int j, .int k] =>
    some (.psOptical (some t) (some l) a b c d e f g h i j k)
  | _ => none

/-- The property of port statistics of type `t`. parse.py L875-882, L898-920 -/
def parsePsPropOf (t : Nat) (m : Bytes) (off : Nat) : Py (Pr × Nat) :=
  if t = 0 then rd psEthernetFmt m off psEthernetOf
  else if t = 1 then rd psOpticalFmt m off psOpticalOf
  else if t = 0xffff then parseExp .psExp align m off
  else .error .valueError

/-- The body of the loop over the properties of port statistics. parse.py L874-882 -/
def parsePsProp (m : Bytes) (off : Nat) : Py (Pr × Nat) := do
  let ((t, _), _) ← rd [H, H] m off (two fun a b => (a, b))
  parsePsPropOf t m off

/-- The first number of an unpacked tuple, `fixed[0]` -/
def firstInt : List Val → Option Nat
  | .int n :: _ => some n
  | _ => none

/-- `ofp_port_stats`: nineteen values for thirteen fields. parse.py L867-892 -/
def parsePortStats (m : Bytes) (off : Nat) : Py (Rec × Nat) := do
  let (length, o) ← rd portStatsParseFmt m off firstInt
  let (_, _) ← whileFetch (parsePsProp m) (off + length) o
  .error .typeError

/-- `ofp_queue_stats_request`. parse.py L926-928 -/
def parseQueueStatsReq (m : Bytes) (off : Nat) : Py (Rec × Nat) :=
  rd [I, I] m off (two fun a b => .queueStatsReq (some a) (some b))

/-- The body of the loop over the properties of queue statistics. parse.py L936-940 -/
def parseQsProp (m : Bytes) (off : Nat) : Py (Pr × Nat) := do
  let ((t, _), _) ← rd [H, H] m off (two fun a b => (a, b))
  if t = 0xffff then parseExp .qsExp align m off else .error .valueError

/-- `ofp_queue_stats`: nine values for eight fields. parse.py L930-947 -/
def parseQueueStats (m : Bytes) (off : Nat) : Py (Rec × Nat) := do
  let (length, o) ← rd queueStatsFmt m off firstInt
  let (_, _) ← whileFetch (parseQsProp m) (off + length) o
  .error .typeError

/-- `ofp_queue_desc_request`. parse.py L965-967 -/
def parseQueueDescReq (m : Bytes) (off : Nat) : Py (Rec × Nat) :=
  rd [I, I] m off (two fun a b => .queueDescReq (some a) (some b))

/-- The property of a queue of type `t`. parse.py L976-983, L994-1011 -/
def parseQdPropOf (t : Nat) (m : Bytes) (off : Nat) : Py (Pr × Nat) :=
  if t = 1 then rd [H, H, H, X 2] m off (three fun t l => .minRate (some t) (some l))
  else if t = 2 then rd [H, H, H, X 2] m off (three fun t l => .maxRate (some t) (some l))
  else if t = 0xffff then parseExp .qdExp align m off
  else .error .valueError

/-- The body of the loop over the properties of a queue. parse.py L975-983 -/
def parseQdProp (m : Bytes) (off : Nat) : Py (Pr × Nat) := do
  let ((t, _), _) ← rd [H, H] m off (two fun a b => (a, b))
  parseQdPropOf t m off

/-- `ofp_queue_desc`. parse.py L969-988 -/
def parseQueueDesc (m : Bytes) (off : Nat) : Py (Rec × Nat) := do
  let ((port, queue, len), o) ← rd [I, I, H, X 6] m off (three fun a b c => (a, b, c))
  let (ps, o) ← whileFetch (parseQdProp m) (off + len) o
  .ok (.queueDesc port queue (some len) (tups ps), o)

/-- `ofp_group_stats_request`. parse.py L1014-1016 -/
def parseGroupStatsReq (m : Bytes) (off : Nat) : Py (Rec × Nat) :=
  rd [I, X 4] m off (fun | [.int p] => some (.groupStatsReq (some p)) | _ => none)

/-- `ofp_group_stats`. parse.py L1018-1029 -/
def parseGroupStats (m : Bytes) (off : Nat) : Py (Rec × Nat) := do
  let ((length, k), o) ← rd groupStatsFmt m off (fun
    | [.int l, .int g, .int r, .int p, .int b, .int ds, .int dn] =>
      some (l, Rec.groupStats (some l) g r p b ds dn)
    | _ => none)
  let (cs, o) ← listFetch (parsePair m) (off + length) o
  .ok (k (tups cs), o)

/-- `ofp_group_desc`. parse.py L1036-1044 -/
def parseGroupDesc (m : Bytes) (off : Nat) : Py (Rec × Nat) := do
  let ((length, k), o) ← rd [H, B, X 1, I] m off (three fun l t g => (l, Rec.groupDesc (some l) t g))
  let (bs, o) ← listFetch (parseBucket m) (off + length) o
  .ok (k (tups bs), o)

/-- `ofp_group_features`. parse.py L1047-1054 -/
def parseGroupFeatures (m : Bytes) (off : Nat) : Py (Rec × Nat) := do
  let (k, o) ← rd [I, I] m off (two Rec.groupFeatures)
  let (ms, o) ← rd [I, I, I, I] m o fourList
  let (as, o) ← rd [I, I, I, I] m o fourList
  .ok (k ms as, o)

/-- `ofp_meter_multipart_request`, called by nobody: `ofp_multipart_request` calls
`ofp_meter_multipart_requests`. parse.py L1057-1059 -/
def parseMeterReq (m : Bytes) (off : Nat) : Py (Rec × Nat) :=
  rd [I, X 4] m off (fun | [.int p] => some (.meterReq p) | _ => none)

/-- `ofp_meter_stats`. parse.py L1061-1074 -/
def parseMeterStats (m : Bytes) (off : Nat) : Py (Rec × Nat) := do
  let ((len, k), o) ← rd meterStatsFmt m off (fun
    | [.int mt, .int l, .int f, .int p, .int b, .int ds, .int dn] =>
      some (l, Rec.meterStats mt (some l) f p b ds dn)
    | _ => none)
  let (bs, o) ← listFetch (parsePair m) (off + len) o
  .ok (k (tups bs), o)

/-- `ofp_meter_config`. parse.py L1082-1091 -/
def parseMeterConfig (m : Bytes) (off : Nat) : Py (Rec × Nat) := do
  let ((length, k), o) ← rd [H, H, I] m off (three fun l f mt => (l, Rec.meterConfig (some l) f mt))
  let (bs, o) ← listFetch (parseBand m) (off + length) o
  .ok (k (tups bs), o)

/-- `ofp_meter_features`. parse.py L1094-1097 -/
def parseMeterFeatures (m : Bytes) (off : Nat) : Py (Rec × Nat) :=
  rd [I, I, I, B, B, X 2] m off (five Rec.meterFeatures)

/-- `ofp_flow_monitor_request`. parse.py L1100-1109 -/
def parseFlowMonitorReq (m : Bytes) (off : Nat) : Py (Rec × Nat) := do
  let (k, o) ← rd [I, I, I, H, B, B] m off (fun
    | [.int a, .int b, .int c, .int d, .int e, .int f] => some (Rec.flowMonitorReq a b c d e f)
    | _ => none)
  let (mt, o) ← parseMatch m o
  .ok (k (.tup mt), o)

/-- `ofp_flow_update_header`. parse.py L1112-1114 -/
def parseUpdateHeader (m : Bytes) (off : Nat) : Py (Rec × Nat) := rd [H, H] m off (two Rec.updateHeader)

/-- `ofp_flow_update_full`, called by nobody. parse.py L1116-1137 -/
def parseUpdateFull (m : Bytes) (off : Nat) : Py (Rec × Nat) := do
  let ((length, zero, k), o) ← rd [H, H, B, B, H, H, H, I, Q] m off (fun
    | [.int l, .int e, .int t, .int r, .int i, .int h, .int p, .int z, .int c] =>
      some (l, z, Rec.updateFull (some l) e t r i h p c)
    | _ => none)
  pyAssert (zero = 0)
  let (mt, o) ← parseMatch m o
  let (is, o) ← whileFetch (parseInstr m) (off + length) o
  .ok (k (.tup mt) (tups is), o)

/-- `ofp_flow_update_abbrev`, called by nobody. parse.py L1139-1141 -/
def parseUpdateAbbrev (m : Bytes) (off : Nat) : Py (Rec × Nat) :=
  rd [H, H, I] m off (three fun l e => .updateAbbrev (some l) (some e))

/-- `ofp_flow_update_paused`, called by nobody. parse.py L1143-1151 -/
def parseUpdatePaused (m : Bytes) (off : Nat) : Py (Rec × Nat) := do
  let ((length, event, zero), o) ← rd [H, H, I] m off (three fun a b c => (a, b, c))
  pyAssert (zero = 0)
  .ok (.updatePaused (some length) event, o)

/-- `ofp_port` as a body record -/
def parsePortRec (m : Bytes) (off : Nat) : Py (Rec × Nat) := do
  let (p, o) ← parsePort m off
  .ok (.prop p, o)

/-- `ofp_experimenter_multipart_`. parse.py L1158-1167 -/
def parseExperimenterMp (limit : Nat) (m : Bytes) (off : Nat) : Py (Rec × Nat) := do
  let ((exp, ty), o) ← rd [I, I] m off (two fun a b => (a, b))
  .ok (.experimenter exp ty (slice m o limit), limit)

/-- the value of a single body record -/
def single (r : Py (Rec × Nat)) : Py (Body × Nat) := do
  let (a, o) ← r
  .ok (.one a, o)

/-- the value of a list body -/
def several (r : Py (List Rec × Nat)) : Py (Body × Nat) := do
  let (l, o) ← r
  .ok (.many (l.map .tup), o)

/-- The body of a multipart request of type `t` ending at `limit`. parse.py L581-608 -/
def parseReqBody (t : Nat) (m : Bytes) (limit off : Nat) : Py (Body × Nat) :=
  if t ∈ [0, 3, 7, 8, 11, 13, 14] then .ok (.raw [], off)
  else if t = 1 then single (parseFlowStatsReq m off)
  else if t = 2 then single (parseAggregateReq m off)
  else if t = 4 then single (parsePortStatsReq m off)
  else if t = 5 then single (parseQueueStatsReq m off)
  else if t = 6 then single (parseGroupStatsReq m off)
  else if t = 9 ∨ t = 10 then .error .nameError   -- `ofp_meter_multipart_requests`, L595
  else if t = 15 then single (parseQueueDescReq m off)
  else if t = 16 then single (parseFlowMonitorReq m off)
  else if t = 12 then several (whileFetch (parseTableFeatures m) limit off)
  else if t = 0xffff then .ok (.raw (slice m off limit), limit)
  else .error .valueError

/-- `ofp_multipart_request`. parse.py L574-611 -/
def parseMpRequest (m : Bytes) (off : Nat) : Py (Msg × Nat) := do
  let (h, o) ← parseHdr m off
  let ((type, flags), o) ← rd [H, H, X 4] m o (two fun a b => (a, b))
  let (body, o) ← parseReqBody type m (off + h.length) o
  .ok (.mpRequest h type flags body, o)

/-- The body of a multipart reply of type `t` ending at `limit`. parse.py L621-658 -/
def parseRepBody (t : Nat) (m : Bytes) (limit off : Nat) : Py (Body × Nat) :=
  if t = 0 then single (parseDesc m off)
  else if t = 1 then several (listFetch (parseFlowStats m) limit off)
  else if t = 2 then several (listFetch (parseAggregate m) limit off)
  else if t = 3 then several (listFetch (parseTableStats m) limit off)
  else if t = 4 then several (listFetch (parsePortStats m) limit off)
  else if t = 5 then several (listFetch (parseQueueStats m) limit off)
  else if t = 6 then several (listFetch (parseGroupStats m) limit off)
  else if t = 7 then several (listFetch (parseGroupDesc m) limit off)
  else if t = 8 then single (parseGroupFeatures m off)
  else if t = 9 then several (listFetch (parseMeterStats m) limit off)
  else if t = 10 then several (listFetch (parseMeterConfig m) limit off)
  else if t = 11 then single (parseMeterFeatures m off)
  else if t = 12 then several (listFetch (parseTableFeatures m) limit off)
  else if t = 13 then several (listFetch (parsePortRec m) limit off)
  else if t = 14 then several (listFetch (parseTableDesc m) limit off)
  else if t = 15 then several (listFetch (parseQueueDesc m) limit off)
  else if t = 16 then several (listFetch (parseUpdateHeader m) limit off)
  else if t = 0xffff then single (parseExperimenterMp limit m off)
  else .error .valueError

/-- `ofp_multipart_reply`. parse.py L613-661 -/
def parseMpReply (m : Bytes) (off : Nat) : Py (Msg × Nat) := do
  let (h, o) ← parseHdr m off
  let ((type, flags), o) ← rd [H, H, X 4] m o (two fun a b => (a, b))
  let (body, o) ← parseRepBody type m (off + h.length) o
  .ok (.mpReply h type flags body, o)

/-- `ofp_packet_out`. parse.py L1170-1188 -/
def parsePacketOut (m : Bytes) (off : Nat) : Py (Msg × Nat) := do
  let (h, o) ← parseHdr m off
  let ((buf, inPort, alen), o) ← rd [I, I, H, X 6] m o (three fun a b c => (a, b, c))
  let (acts, o) ← whileFetch (parseAction m) (o + alen) o
  .ok (.packetOut h buf inPort alen acts (slice m o (off + h.length)), off + h.length)

/-- `ofp_role_request`, called by nobody. parse.py L1191-1199 -/
def parseRole (m : Bytes) (off : Nat) : Py (Msg × Nat) := do
  let (h, o) ← parseHdr m off
  rd [I, X 4, Q] m o (two (Msg.role h))

/-- `ofp_bundle_prop_experimenter`, never reached. parse.py L1247-1258 -/
def parseBundleExp (m : Bytes) (off : Nat) : Py (Pr × Nat) := parseExp .bundleExp id m off

/-- `ofp_bundle_ctrl_msg`: the first property reads the undefined name OFPBPTEXPERIMENTER. parse.py L1202-1219 -/
def parseBundleCtrl (m : Bytes) (off : Nat) : Py (Msg × Nat) := do
  let (h, o) ← parseHdr m off
  let (k, o) ← rd [I, H, H] m o (three (Msg.bundleCtrl h))
  let (ps, o) ← whileFetch (fun o => do
    let (_, _) ← rd [H, H] m o (two fun a b => (a, b))
    (.error .nameError : Py (Pr × Nat))) (off + h.length) o
  .ok (k ps, o)

/-- `ofp_bundle_add_msg`, given the result of the nested `parse`.  `message` is the nested message thereafter, from
which no property can be unpacked. parse.py L1222-1241 -/
def parseBundleAdd (m : Bytes) (off : Nat) (nested : Py (Msg × Nat)) : Py (Msg × Nat) := do
  let (h, o) ← parseHdr m off
  let (k, _) ← rd [I, X 2, H] m o (two (Msg.bundleAdd h))
  let (msg, o) ← nested
  if o < off + h.length then .error .typeError
  else .ok (k msg [], o)

/-- The body of the loop of `ofp_async_config`.  For another type the undefined name OFPTFPT_EXPERIMENTER_SLAVE is
read. parse.py L1268-1278, L1300-1302 -/
def parseAsyncProp (m : Bytes) (off : Nat) : Py (Pr × Nat) := do
  let ((t, _), _) ← rd [H, H] m off (two fun a b => (a, b))
  if t ∈ [0, 1, 2, 3, 4, 5, 6, 7, 10, 11] then rd [H, H, I] m off (three fun t l => .reasons (some t) (some l))
  else .error .nameError

/-- `ofp_async_config`. parse.py L1261-1282 -/
def parseAsync (m : Bytes) (off : Nat) : Py (Msg × Nat) := do
  let (h, o) ← parseHdr m off
  let (ps, o) ← whileFetch (parseAsyncProp m) (off + h.length) o
  .ok (.async h ps, o)

/-- `ofp_packet_in`. parse.py L1305-1320 -/
def parsePacketIn (m : Bytes) (off : Nat) : Py (Msg × Nat) := do
  let (h, o) ← parseHdr m off
  let (k, o) ← rd [I, H, B, B, Q] m o (five (Msg.packetIn h))
  let (mt, o) ← parseMatch m o
  let (_, o) ← rd [X 2] m o (fun _ => some ())
  .ok (k mt (slice m o (off + h.length)), off + h.length)

/-- `ofp_flow_removed`. parse.py L1323-1343 -/
def parseFlowRemoved (m : Bytes) (off : Nat) : Py (Msg × Nat) := do
  let (h, o) ← parseHdr m off
  let (k, o) ← rd flowRemovedFmt m o (fun
    | [.int c, .int p, .int r, .int t, .int ds, .int dn, .int i, .int hd, .int pc, .int bc] =>
      some (Msg.flowRemoved h c p r t ds dn i hd pc bc)
    | _ => none)
  let (mt, o) ← parseMatch m o
  .ok (k mt, o)

/-- `ofp_port_status`. parse.py L1346-1357 -/
def parsePortStatus (m : Bytes) (off : Nat) : Py (Msg × Nat) := do
  let (h, o) ← parseHdr m off
  let (k, o) ← rd [B, X 7] m o (fun | [.int r] => some (Msg.portStatus h r) | _ => none)
  let (p, o) ← parsePort m o
  .ok (k p, o)

/-- The body of the loop of `ofp_role_status` for the message at `start`: the property is unpacked from the start of
the message, and the cursor stays. parse.py L1367-1371, L1382-1390 -/
def parseRoleProp (start : Nat) (m : Bytes) (off : Nat) : Py (Pr × Nat) := do
  let ((t, _), _) ← rd [H, H] m off (two fun a b => (a, b))
  if t = 0xffff then do
    let ((t, l, exp, ty), _) ← rd [H, H, I, I] m start (four fun a b c d => (a, b, c, d))
    .ok (.roleExp (some t) (some l) exp ty (some (slice m start (start + l))), off)
  else .error .valueError

/-- `ofp_role_status`: the fixed part is unpacked from the start of the message, and the cursor stays behind the
header. parse.py L1360-1376 -/
def parseRoleStatus (m : Bytes) (off : Nat) : Py (Msg × Nat) := do
  let (h, o) ← parseHdr m off
  let (k, _) ← rd [I, B, X 3, Q] m off (three (Msg.roleStatus h))
  let (ps, o) ← whileFetch (parseRoleProp off m) (off + h.length) o
  .ok (k ps, o)

/-- `ofp_table_status`. parse.py L1393-1401 -/
def parseTableStatus (m : Bytes) (off : Nat) : Py (Msg × Nat) := do
  let (_, o) ← parseHdr m off
  let (_, o) ← rd [B, X 7] m o (fun _ => some ())
  let (_, _) ← parseTableDesc m o
  .error .nameError

/-- `ofp_requestforward_`, given the result of the nested `parse`. parse.py L1414-1422 -/
def parseRequestForward (m : Bytes) (off : Nat) (nested : Py (Msg × Nat)) : Py (Msg × Nat) := do
  let (h, _) ← parseHdr m off
  let (r, o) ← nested
  .ok (.requestForward h r, o)

/-- `ofp_hello`. parse.py L1425-1441 -/
def parseHello (m : Bytes) (off : Nat) : Py (Msg × Nat) := do
  let (h, o) ← parseHdr m off
  let (es, o) ← whileFetch (parseHelloElem m) (off + h.length) o
  pyAssert (o = off + h.length)
  .ok (.hello h es, o)

/-- `ofp_error_msg`. parse.py L1459-1471 -/
def parseError (m : Bytes) (off : Nat) : Py (Msg × Nat) := do
  let (h, o) ← parseHdr m off
  let (k, o) ← rd [H, H] m o (two (Msg.error h))
  .ok (k (slice m o (off + h.length)), off + h.length)

/-- `ofp_error_experimenter_msg`, called by nobody. parse.py L1473-1486 -/
def parseErrorExp (m : Bytes) (off : Nat) : Py (Msg × Nat) := do
  let (h, o) ← parseHdr m off
  let (k, o) ← rd [H, H, I] m o (three (Msg.errorExp h))
  .ok (k (slice m o (off + h.length)), off + h.length)

/-- `ofp_experimenter_msg`. parse.py L1489-1500 -/
def parseExperimenter (m : Bytes) (off : Nat) : Py (Msg × Nat) := do
  let (h, o) ← parseHdr m off
  let (k, o) ← rd [I, I] m o (two (Msg.experimenter h))
  .ok (k (slice m o (off + h.length)), off + h.length)

/-- The dispatch of `parse` on the message type, but for the two types that nest. parse.py L50-99.  There is no
branch for role requests and replies (24, 25). -/
def parseOf (t : Nat) (m : Bytes) (off : Nat) : Py (Msg × Nat) :=
  if t = 0 then parseHello m off
  else if t = 1 then parseError m off
  else if t = 6 then parseFeatures m off
  else if t = 9 ∨ t = 8 then parseConfig m off
  else if t = 10 then parsePacketIn m off
  else if t = 11 then parseFlowRemoved m off
  else if t = 12 then parsePortStatus m off
  else if t = 13 then parsePacketOut m off
  else if t = 14 then parseFlowMod m off
  else if t = 15 then parseGroupMod m off
  else if t = 16 then parsePortMod m off
  else if t = 17 then parseTableMod m off
  else if t = 18 then parseMpRequest m off
  else if t = 19 then parseMpReply m off
  else if t = 4 then parseExperimenter m off
  else if t = 28 ∨ t = 27 then parseAsync m off
  else if t = 29 then parseMeterMod m off
  else if t = 30 then parseRoleStatus m off
  else if t = 31 then parseTableStatus m off
  else if t = 33 then parseBundleCtrl m off
  else parseOther m off

theorem parseHdr_room (h : parseHdr m off = .ok r) : off + 8 ≤ m.length := by
  unfold parseHdr rd at h
  cases hu : unpackFrom hdrFmt m off with
  | error e => rw [hu] at h; cases h
  | ok vs =>
    unfold unpackFrom at hu
    split at hu
    · rename_i hle
      have : calcsize hdrFmt = 8 := rfl
      omega
    · cases hu

/-- `parse(message, cursor)`, returning the cursor's new offset too. parse.py L43-99 -/
def parseAt (m : Bytes) (off : Nat) : Py (Msg × Nat) :=
  match hh : parseHdr m off with
  | .error e => .error e
  | .ok (h, _) =>
    if h.type = 32 then parseRequestForward m off (parseAt m (off + 8))
    else if h.type = 34 then parseBundleAdd m off (parseAt m (off + 16))
    else parseOf h.type m off
termination_by m.length - off
decreasing_by
  all_goals have := parseHdr_room hh; omega

/-- `parse(message, offset)`. parse.py L43-99 -/
def parse (m : Bytes) (off : Nat) : Py Msg := do
  let (r, _) ← parseAt m off
  .ok r

end Twink.Of14
