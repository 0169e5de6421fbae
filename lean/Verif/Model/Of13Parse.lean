import Verif.Model.Of13Build

/-!
# OpenFlow 1.3 parser, twink/ofp4/parse.py

Function by function.  A parse function takes the message and the cursor's offset and returns its
value with the new offset.  Loops: a `while cursor.offset < limit` loop whose body leaves the cursor
where it was does the same thing again for ever, which is the result `Err.diverges`
(`Verif.Proof.Of13Loop` shows that such a loop indeed never ends, and that no fetcher moves the cursor
backwards).
-/

namespace Twink.Of13
open Fmt

/-- `_unpack(fmt, message, cursor)` followed by taking the tuple apart. parse.py L26-34 -/
def rd (f : Fmt) (m : Bytes) (off : Nat) (k : List Val → Option α) : Py (α × Nat) :=
  match unpackFrom f m off with
  | .error e => .error e
  | .ok vs =>
    match k vs with
    | some a => .ok (a, off + calcsize f)
    | none => .error .valueError

/-- `while cursor.offset < limit: ret.append(fetcher(message, cursor))`, e.g. parse.py L571-572 -/
def whileFetch (fetch : Nat → Py (α × Nat)) (limit off : Nat) : Py (List α × Nat) :=
  if off < limit then
    match fetch off with
    | .error e => .error e
    | .ok (a, off') =>
      if off < off' then
        match whileFetch fetch limit off' with
        | .error e => .error e
        | .ok (as, o) => .ok (a :: as, o)
      else .error .diverges
  else .ok ([], off)
termination_by limit - off

/-- `_list_fetch`. parse.py L569-575 -/
def listFetch (fetch : Nat → Py (α × Nat)) (limit off : Nat) : Py (List α × Nat) := do
  let r ← whileFetch fetch limit off
  pyAssert (r.2 = limit)
  .ok r

/-- two integers -/
def two (k : Nat → Nat → α) : List Val → Option α
  | [.int a, .int b] => some (k a b)
  | _ => none

/-- three integers -/
def three (k : Nat → Nat → Nat → α) : List Val → Option α
  | [.int a, .int b, .int c] => some (k a b c)
  | _ => none

/-- four integers -/
def four (k : Nat → Nat → Nat → Nat → α) : List Val → Option α
  | [.int a, .int b, .int c, .int d] => some (k a b c d)
  | _ => none

/-- five integers -/
def five (k : Nat → Nat → Nat → Nat → Nat → α) : List Val → Option α
  | [.int a, .int b, .int c, .int d, .int e] => some (k a b c d e)
  | _ => none

/-- `ofp_header`. parse.py L99-105 -/
def parseHdr (m : Bytes) (off : Nat) : Py (Hdr × Nat) := do
  let r ← rd hdrFmt m off (four Hdr.mk)
  pyAssert (r.1.version = 4)
  .ok r

/-- `ofp_`: any message as header and data. parse.py L107-116 -/
def parseOther (m : Bytes) (off : Nat) : Py Msg := do
  let (h, o) ← parseHdr m off
  .ok (.other h (slice m o (off + h.length)))

/-- UTF-8 continuation byte -/
def cont (b : UInt8) : Bool := 0x80 ≤ b && b ≤ 0xbf

/-- Does Python 2's `decode("UTF-8")` accept the bytes? (It rejects overlong forms and code points above
0x10ffff, and accepts surrogates.) -/
def utf8Ok : Bytes → Bool
  | [] => true
  | a :: rest =>
    if a < 0x80 then utf8Ok rest
    else if 0xc2 ≤ a && a ≤ 0xdf then
      match rest with
      | b :: rest => cont b && utf8Ok rest
      | _ => false
    else if 0xe0 ≤ a && a ≤ 0xef then
      match rest with
      | b :: c :: rest => cont b && (a != 0xe0 || 0xa0 ≤ b) && cont c && utf8Ok rest
      | _ => false
    else if 0xf0 ≤ a && a ≤ 0xf4 then
      match rest with
      | b :: c :: d :: rest =>
        cont b && (a != 0xf0 || 0x90 ≤ b) && (a != 0xf4 || b ≤ 0x8f) && cont c && cont d && utf8Ok rest
      | _ => false
    else false

/-- `p.partition(b"\0")[0]` -/
def beforeNul (b : Bytes) : Bytes := b.takeWhile (· != 0)

/-- `list(_unpack("I4x6s2x16sII6I", ...))` as a port, the name still packed -/
def portOf : List Val → Option PortT
  | [.int no, .str hw, .str name, .int config, .int state, .int curr, .int adv, .int supp, .int peer,
      .int cs, .int ms] => some ⟨no, hw, .str name, config, state, curr, adv, supp, peer, cs, ms⟩
  | _ => none

/-- `.decode("UTF-8")` of the name up to its first NUL. parse.py L122 -/
def decodeName : Text → Py Text
  | .str b => if utf8Ok (beforeNul b) then .ok (.uni (beforeNul b)) else .error .valueError
  | t => .ok t

/-- `ofp_port`. parse.py L119-127 -/
def parsePort (m : Bytes) (off : Nat) : Py (PortT × Nat) := do
  let (p, o) ← rd portFmt m off portOf
  let name ← decodeName p.name
  .ok ({ p with name := name }, o)

/-- `ofp_packet_queue`. parse.py L130-148.  The first property reads the undefined name OFPQT_MIN. -/
def parseQueue (m : Bytes) (off : Nat) : Py (Queue × Nat) := do
  let ((queueId, port, len), o) ← rd [I, I, H, X 6] m off (three fun a b c => (a, b, c))
  let (_, o) ← whileFetch (fun o => do
    let (_, _) ← rd [H, H, X 4] m o (two fun a b => (a, b))
    (.error .nameError : Py (QProp × Nat))) (off + len) o
  pyAssert (o = off + len)
  .ok (⟨queueId, port, some len, .items []⟩, o)

/-- `ofp_match`. parse.py L189-197 -/
def parseMatch (m : Bytes) (off : Nat) : Py (MatchT × Nat) := do
  let ((type, length), o) ← rd [H, H] m off (two fun a b => (a, b))
  .ok (⟨some type, some length, .raw (slice m o (off + length))⟩, off + align length)

/-- The action of type `t`. parse.py L273-344 -/
def parseActionOf (t : Nat) (m : Bytes) (off : Nat) : Py (Action × Nat) :=
  if t = 0 then rd [H, H, I, H, X 6] m off (four fun t l => .output (some t) (some l))
  else if t = 22 then rd [H, H, I] m off (three fun t l => .group (some t) (some l))
  else if t = 21 then rd [H, H, I] m off (three fun t l => .setQueue (some t) (some l))
  else if t = 15 then .error .nameError           -- `namedutple`, L307
  else if t = 23 then rd [H, H, B, X 3] m off (three fun t l => .nwTtl (some t) (some l))
  else if t = 17 ∨ t = 19 ∨ t = 26 then
    rd [H, H, H, X 2] m off (three fun t l => .push (some t) (some l))
  else if t = 20 then rd [H, H, H, X 2] m off (three fun t l => .popMpls (some t) (some l))
  else if t = 25 then do                          -- L322-330
    let ((type, len), o) ← rd [H, H] m off (two fun a b => (a, b))
    .ok (.setField (some type) (some len) (slice m o (off + len)), off + len)
  else if t = 0xffff then do                      -- L336-344
    let ((type, len, exp), o) ← rd [H, H, I] m off (three fun a b c => (a, b, c))
    .ok (.experimenter (some type) (some len) exp (slice m o (off + len)), off + len)
  else rd [H, H, X 4] m off (two fun t l => .header (some t) (some l))

/-- `ofp_action_`. parse.py L270-292 -/
def parseAction (m : Bytes) (off : Nat) : Py (Action × Nat) := do
  let ((t, _), _) ← rd [H, H, X 4] m off (two fun a b => (a, b))
  parseActionOf t m off

/-- The instruction of type `t`. parse.py L214-263 -/
def parseInstrOf (t : Nat) (m : Bytes) (off : Nat) : Py (Instr × Nat) :=
  if t = 1 then rd [H, H, B, X 3] m off (three fun t l => .gotoTable (some t) (some l))
  else if t = 2 then rd [H, H, X 4, Q, Q] m off (four fun t l => .writeMetadata (some t) (some l))
  else if t = 3 ∨ t = 4 ∨ t = 5 then do           -- L235-247
    let ((type, len), o) ← rd [H, H, X 4] m off (two fun a b => (a, b))
    let (acts, o) ← whileFetch (parseAction m) (off + len) o
    pyAssert (o = off + len)
    .ok (.actions (some type) (some len) (tups acts), o)
  else if t = 6 then rd [H, H, I] m off (three fun t l => .meter (some t) (some l))
  else if t = 0xffff then do                      -- L253-263
    let ((type, len, exp), o) ← rd [H, H, I] m off (three fun a b c => (a, b, c))
    .ok (.experimenter (some type) (some len) exp (slice m o (off + len)), off + len)
  else .error .valueError

/-- `ofp_instruction_`. parse.py L209-225 -/
def parseInstr (m : Bytes) (off : Nat) : Py (Instr × Nat) := do
  let ((t, _), _) ← rd [H, H] m off (two fun a b => (a, b))
  parseInstrOf t m off

/-- `ofp_switch_features`. parse.py L347-356 -/
def parseFeatures (m : Bytes) (off : Nat) : Py Msg := do
  let (h, o) ← parseHdr m off
  let (r, _) ← rd [Q, I, B, B, X 2, I, I] m o (fun
    | [.int d, .int nb, .int nt, .int aux, .int caps, .int _] => some (Msg.features h d nb nt aux caps)
    | _ => none)
  .ok r

/-- `ofp_switch_config`. parse.py L359-365 -/
def parseConfig (m : Bytes) (off : Nat) : Py Msg := do
  let (h, o) ← parseHdr m off
  let (r, _) ← rd [H, H] m o (two (Msg.config h))
  .ok r

/-- `ofp_table_mod`. parse.py L368-374 -/
def parseTableMod (m : Bytes) (off : Nat) : Py Msg := do
  let (h, o) ← parseHdr m off
  let (r, _) ← rd [B, X 3, I] m o (two (Msg.tableMod h))
  .ok r

/-- `ofp_flow_mod`. parse.py L377-394 -/
def parseFlowMod (m : Bytes) (off : Nat) : Py Msg := do
  let (h, o) ← parseHdr m off
  let (k, o) ← rd flowModFmt m o (fun
    | [.int c, .int cm, .int t, .int cmd, .int i, .int hd, .int p, .int b, .int op, .int og, .int f] =>
      some (Msg.flowMod h c cm t cmd i hd p b op og f)
    | _ => none)
  let (mt, o) ← parseMatch m o
  let (is, _) ← listFetch (parseInstr m) (off + h.length) o
  .ok (k mt is)

/-- `ofp_bucket`. parse.py L410-421 -/
def parseBucket (m : Bytes) (off : Nat) : Py (Bucket × Nat) := do
  let ((len, w, wp, wg), o) ← rd [H, H, I, I, X 4] m off (four fun a b c d => (a, b, c, d))
  let (acts, o) ← whileFetch (parseAction m) (off + len) o
  .ok (⟨some len, w, wp, wg, tups acts⟩, o)

/-- `ofp_group_mod`. parse.py L397-408 -/
def parseGroupMod (m : Bytes) (off : Nat) : Py Msg := do
  let (h, o) ← parseHdr m off
  let (k, o) ← rd [H, B, X 1, I] m o (three (Msg.groupMod h))
  let (bs, _) ← whileFetch (parseBucket m) (off + h.length) o
  .ok (k bs)

/-- `ofp_port_mod`. parse.py L424-434.  Five values are unpacked, from the start of the message, into
four names. -/
def parsePortMod (m : Bytes) (off : Nat) : Py Msg := do
  let (h, o) ← parseHdr m off
  let (r, _) ← rd portModFmt m off (fun
    | [.int port, .str hw, .int config, .int adv] => some (Msg.portMod h port hw config adv)
    | _ => none)
  pyAssert (off + h.length = o)
  .ok r

/-- The meter band of type `t`. parse.py L461-487.  `ofp_meter_band_experimenter` unpacks at an integer
offset, so that the cursor stays where it was. -/
def parseBandOf (t : Nat) (m : Bytes) (off : Nat) : Py (Band × Nat) :=
  if t = 1 then rd [H, H, I, I, X 4] m off (four fun t l => .drop (some t) (some l))
  else if t = 2 then rd [H, H, I, I, B, X 3] m off (five fun t l => .dscp (some t) (some l))
  else if t = 0xffff then do
    let ((type, len, rate, burst, exp), _) ←
      rd [H, H, I, I, I] m off (five fun a b c d e => (a, b, c, d, e))
    .ok (.experimenter (some type) (some len) rate burst exp (slice m off (off + len)), off)
  else .error .valueError

/-- `ofp_meter_band_`. parse.py L457-468 -/
def parseBand (m : Bytes) (off : Nat) : Py (Band × Nat) := do
  let (t, _) ← rd [H, H, I, I] m off (four fun t _ _ _ => t)
  parseBandOf t m off

/-- `ofp_meter_mod`. parse.py L437-451 -/
def parseMeterMod (m : Bytes) (off : Nat) : Py Msg := do
  let (h, o) ← parseHdr m off
  let (k, o) ← rd [H, H, I] m o (three (Msg.meterMod h))
  let (bs, _) ← whileFetch (parseBand m) (off + h.length) o
  .ok (k bs)

/-- `ofp_desc`. parse.py L578-580 -/
def parseDesc (m : Bytes) (off : Nat) : Py (Rec × Nat) :=
  rd [S 256, S 256, S 256, S 32, S 256] m off (fun
    | [.str a, .str b, .str c, .str d, .str e] => some (.desc (some a) (some b) (some c) (some d) (some e))
    | _ => none)

/-- `ofp_flow_stats_request`. parse.py L583-593 -/
def parseFlowStatsReq (m : Bytes) (off : Nat) : Py (Rec × Nat) := do
  let (k, o) ← rd flowStatsReqFmt m off (five fun a b c d e => Rec.flowStatsReq a b c d e)
  let (mt, o) ← parseMatch m o
  .ok (k (some (.tup mt)), o)

/-- `ofp_flow_stats`. parse.py L595-613 -/
def parseFlowStats (m : Bytes) (off : Nat) : Py (Rec × Nat) := do
  let ((length, k), o) ← rd flowStatsFmt m off (fun
    | [.int l, .int t, .int ds, .int dn, .int p, .int i, .int h, .int f, .int c, .int pc, .int bc] =>
      some (l, Rec.flowStats (some l) t ds dn p i h f c pc bc)
    | _ => none)
  let (mt, o) ← parseMatch m o
  let (is, o) ← listFetch (parseInstr m) (off + length) o
  .ok (k (.tup mt) (tups is), o)

/-- `ofp_aggregate_stats_request`. parse.py L616-625 -/
def parseAggregateReq (m : Bytes) (off : Nat) : Py (Rec × Nat) := do
  let (k, o) ← rd flowStatsReqFmt m off (five fun a b c d e => Rec.aggregateReq a b c d e)
  let (mt, o) ← parseMatch m o
  .ok (k (some (.tup mt)), o)

/-- `ofp_aggregate_stats_reply`. parse.py L627-630 -/
def parseAggregate (m : Bytes) (off : Nat) : Py (Rec × Nat) := rd [Q, Q, I, X 4] m off (three Rec.aggregate)

/-- `ofp_table_stats`. parse.py L633-635 -/
def parseTableStats (m : Bytes) (off : Nat) : Py (Rec × Nat) := rd [B, X 3, I, Q, Q] m off (four Rec.tableStats)

/-- `ofp_table_features`: after the fixed part, L643 reads the undefined name ofp_table_feature_prop_.
parse.py L638-649 -/
def parseTableFeatures (m : Bytes) (off : Nat) : Py (Rec × Nat) := do
  let (_, _) ← rd tableFeaturesFmt m off (fun _ => some ())
  .error .nameError

/-- `ofp_port_stats_request`. parse.py L728-730 -/
def parsePortStatsReq (m : Bytes) (off : Nat) : Py (Rec × Nat) :=
  rd [I, X 4] m off (fun | [.int p] => some (.portStatsReq (some p)) | _ => none)

/-- `"I3x12Q2I"` (the builder writes `4x`) -/
def portStatsParseFmt : Fmt := [I, X 3] ++ List.replicate 12 Q ++ [I, I]

/-- the fifteen fields of `ofp_port_stats` -/
def portStatsOf : List Val → Option Rec
  | [.int p, .int a, .int b, .int c, .int d, .int e, .int f, .int g, .int h, .int i, .int j, .int k, .int l,
      .int ds, .int dn] => some (.portStats p [a, b, c, d, e, f, g, h, i, j, k, l] ds dn)
  | _ => none

/-- `ofp_port_stats`. parse.py L732-743 -/
def parsePortStats (m : Bytes) (off : Nat) : Py (Rec × Nat) := rd portStatsParseFmt m off portStatsOf

/-- `ofp_queue_stats_request`. parse.py L746-748 -/
def parseQueueStatsReq (m : Bytes) (off : Nat) : Py (Rec × Nat) :=
  rd [I, I] m off (two fun a b => .queueStatsReq (some a) (some b))

/-- `ofp_queue_stats`. parse.py L750-754 -/
def parseQueueStats (m : Bytes) (off : Nat) : Py (Rec × Nat) :=
  rd [I, I, Q, Q, Q, I, I] m off (fun
    | [.int a, .int b, .int c, .int d, .int e, .int f, .int g] => some (.queueStats a b c d e f g)
    | _ => none)

/-- `ofp_group_stats_request`. parse.py L757-759 -/
def parseGroupStatsReq (m : Bytes) (off : Nat) : Py (Rec × Nat) :=
  rd [I, X 4] m off (fun | [.int p] => some (.groupStatsReq (some p)) | _ => none)

/-- `ofp_bucket_counter` (L774-776), `ofp_meter_band_stats` (L820-822). parse.py -/
def parsePair (m : Bytes) (off : Nat) : Py ((Nat × Nat) × Nat) := rd [Q, Q] m off (two fun a b => (a, b))

/-- `ofp_group_stats`. parse.py L761-772 -/
def parseGroupStats (m : Bytes) (off : Nat) : Py (Rec × Nat) := do
  let ((length, k), o) ← rd groupStatsFmt m off (fun
    | [.int l, .int g, .int r, .int p, .int b, .int ds, .int dn] =>
      some (l, Rec.groupStats (some l) g r p b ds dn)
    | _ => none)
  let (cs, o) ← listFetch (parsePair m) (off + length) o
  .ok (k (tups cs), o)

/-- `ofp_group_desc`. parse.py L779-787 -/
def parseGroupDesc (m : Bytes) (off : Nat) : Py (Rec × Nat) := do
  let ((length, k), o) ← rd [H, B, X 1, I] m off (three fun l t g => (l, Rec.groupDesc (some l) t g))
  let (bs, o) ← listFetch (parseBucket m) (off + length) o
  .ok (k (tups bs), o)

/-- four integers as a tuple -/
def fourList : List Val → Option Ints
  | [.int a, .int b, .int c, .int d] => some (.list [a, b, c, d])
  | _ => none

/-- `ofp_group_features`. parse.py L790-797 -/
def parseGroupFeatures (m : Bytes) (off : Nat) : Py (Rec × Nat) := do
  let (k, o) ← rd [I, I] m off (two Rec.groupFeatures)
  let (ms, o) ← rd [I, I, I, I] m o fourList
  let (as, o) ← rd [I, I, I, I] m o fourList
  .ok (k ms as, o)

/-- `ofp_meter_multipart_request`. parse.py L800-803 -/
def parseMeterReq (m : Bytes) (off : Nat) : Py (Rec × Nat) :=
  rd [I, X 4] m off (fun | [.int p] => some (.meterReq p) | _ => none)

/-- `ofp_meter_stats`. parse.py L805-818 -/
def parseMeterStats (m : Bytes) (off : Nat) : Py (Rec × Nat) := do
  let ((len, k), o) ← rd meterStatsFmt m off (fun
    | [.int mt, .int l, .int f, .int p, .int b, .int ds, .int dn] =>
      some (l, Rec.meterStats mt (some l) f p b ds dn)
    | _ => none)
  let (bs, o) ← listFetch (parsePair m) (off + len) o
  .ok (k (tups bs), o)

/-- `ofp_meter_config`. parse.py L825-834 -/
def parseMeterConfig (m : Bytes) (off : Nat) : Py (Rec × Nat) := do
  let ((length, k), o) ← rd [H, H, I] m off (three fun l f mt => (l, Rec.meterConfig (some l) f mt))
  let (bs, o) ← listFetch (parseBand m) (off + length) o
  .ok (k (tups bs), o)

/-- `ofp_meter_features`. parse.py L837-840 -/
def parseMeterFeatures (m : Bytes) (off : Nat) : Py (Rec × Nat) :=
  rd [I, I, I, B, B, X 2] m off (five Rec.meterFeatures)

/-- `ofp_port` as a body record -/
def parsePortRec (m : Bytes) (off : Nat) : Py (Rec × Nat) := do
  let (p, o) ← parsePort m off
  .ok (.port p, o)

/-- `ofp_experimenter_multipart_`. parse.py L847-856 -/
def parseExperimenterMp (limit : Nat) (m : Bytes) (off : Nat) : Py (Rec × Nat) := do
  let ((exp, ty), o) ← rd [I, I] m off (two fun a b => (a, b))
  .ok (.experimenter exp ty (slice m o limit), limit)

/-- the value of a single body record -/
def single (r : Py (Rec × Nat)) : Py Body := do
  let (a, _) ← r
  .ok (.one a)

/-- the value of a list body -/
def several (r : Py (List Rec × Nat)) : Py Body := do
  let (l, _) ← r
  .ok (.many (l.map .tup))

/-- The body of a multipart request of type `t` ending at `limit`. parse.py L497-520 -/
def parseReqBody (t : Nat) (m : Bytes) (limit off : Nat) : Py Body :=
  if t ∈ [0, 3, 7, 8, 11, 13] then .ok (.raw [])
  else if t = 1 then single (parseFlowStatsReq m off)
  else if t = 2 then single (parseAggregateReq m off)
  else if t = 4 then single (parsePortStatsReq m off)
  else if t = 5 then single (parseQueueStatsReq m off)
  else if t = 6 then single (parseGroupStatsReq m off)
  else if t = 9 ∨ t = 10 then single (parseMeterReq m off)
  else if t = 12 then several (whileFetch (parseTableFeatures m) limit off)
  else if t = 0xffff then .ok (.raw (slice m off limit))
  else .error .valueError

/-- `ofp_multipart_request`. parse.py L490-523 -/
def parseMpRequest (m : Bytes) (off : Nat) : Py Msg := do
  let (h, o) ← parseHdr m off
  let ((type, flags), o) ← rd [H, H, X 4] m o (two fun a b => (a, b))
  let body ← parseReqBody type m (off + h.length) o
  .ok (.mpRequest h type flags body)

/-- The body of a multipart reply of type `t` ending at `limit`. parse.py L533-564 -/
def parseRepBody (t : Nat) (m : Bytes) (limit off : Nat) : Py Body :=
  if t = 0 then single (parseDesc m off)
  else if t = 1 then several (listFetch (parseFlowStats m) limit off)
  else if t = 2 then several (listFetch (parseAggregate m) limit off)
  else if t = 3 then several (listFetch (parseTableStats m) limit off)
  else if t = 4 then several (listFetch (parsePortStats m) limit off)
  else if t = 5 then several (listFetch (parseQueueStats m) limit off)
  else if t = 6 then several (listFetch (parseGroupStats m) limit off)
  else if t = 7 then several (listFetch (parseGroupDesc m) limit off)
  else if t = 8 then single (parseGroupFeatures m off)
  else if t = 9 then several (listFetch (parseMeterStats m) limit off)
  else if t = 10 then several (listFetch (parseMeterConfig m) limit off)
  else if t = 11 then single (parseMeterFeatures m off)
  else if t = 12 then several (listFetch (parseTableFeatures m) limit off)
  else if t = 13 then several (listFetch (parsePortRec m) limit off)
  else if t = 0xffff then single (parseExperimenterMp limit m off)
  else .error .valueError

/-- `ofp_multipart_reply`. parse.py L525-567 -/
def parseMpReply (m : Bytes) (off : Nat) : Py Msg := do
  let (h, o) ← parseHdr m off
  let ((type, flags), o) ← rd [H, H, X 4] m o (two fun a b => (a, b))
  let body ← parseRepBody type m (off + h.length) o
  .ok (.mpReply h type flags body)

/-- `ofp_queue_get_config_request`. parse.py L859-866 -/
def parseQueueReq (m : Bytes) (off : Nat) : Py Msg := do
  let (h, o) ← parseHdr m off
  let (r, _) ← rd [I, X 4] m o (fun | [.int p] => some (Msg.queueReq h p) | _ => none)
  .ok r

/-- `ofp_queue_get_config_reply`. parse.py L868-877 -/
def parseQueueRep (m : Bytes) (off : Nat) : Py Msg := do
  let (h, o) ← parseHdr m off
  let (k, o) ← rd [I, X 4] m o (fun | [.int p] => some (Msg.queueRep h p) | _ => none)
  let (qs, _) ← listFetch (parseQueue m) (off + h.length) o
  .ok (k qs)

/-- `ofp_packet_out`. parse.py L880-897 -/
def parsePacketOut (m : Bytes) (off : Nat) : Py Msg := do
  let (h, o) ← parseHdr m off
  let ((buf, inPort, alen), o) ← rd [I, I, H, X 6] m o (three fun a b c => (a, b, c))
  let (acts, o) ← whileFetch (parseAction m) (o + alen) o
  .ok (.packetOut h buf inPort alen acts (slice m o (off + h.length)))

/-- `ofp_role_request`. parse.py L900-908 -/
def parseRole (m : Bytes) (off : Nat) : Py Msg := do
  let (h, o) ← parseHdr m off
  let (r, _) ← rd [I, X 4, Q] m o (two (Msg.role h))
  .ok r

/-- `ofp_async_config`. parse.py L911-920 -/
def parseAsync (m : Bytes) (off : Nat) : Py Msg := do
  let (h, o) ← parseHdr m off
  let (r, _) ← rd [I, I, I, I, I, I] m o (fun
    | [.int a, .int b, .int c, .int d, .int e, .int f] => some (Msg.async h (a, b) (c, d) (e, f))
    | _ => none)
  .ok r

/-- `ofp_packet_in`. parse.py L923-937 -/
def parsePacketIn (m : Bytes) (off : Nat) : Py Msg := do
  let (h, o) ← parseHdr m off
  let (k, o) ← rd [I, H, B, B, Q] m o (five (Msg.packetIn h))
  let (mt, o) ← parseMatch m o
  let (_, o) ← rd [X 2] m o (fun _ => some ())
  .ok (k mt (slice m o (off + h.length)))

/-- `ofp_flow_removed`. parse.py L940-960 -/
def parseFlowRemoved (m : Bytes) (off : Nat) : Py Msg := do
  let (h, o) ← parseHdr m off
  let (k, o) ← rd flowRemovedFmt m o (fun
    | [.int c, .int p, .int r, .int t, .int ds, .int dn, .int i, .int hd, .int pc, .int bc] =>
      some (Msg.flowRemoved h c p r t ds dn i hd pc bc)
    | _ => none)
  let (mt, _) ← parseMatch m o
  .ok (k mt)

/-- `ofp_port_status`. parse.py L963-974 -/
def parsePortStatus (m : Bytes) (off : Nat) : Py Msg := do
  let (h, o) ← parseHdr m off
  let (k, o) ← rd [B, X 7] m o (fun | [.int r] => some (Msg.portStatus h r) | _ => none)
  let (p, _) ← parsePort m o
  .ok (k p)

/-- `ofp_error_msg`. parse.py L977-989 -/
def parseError (m : Bytes) (off : Nat) : Py Msg := do
  let (h, o) ← parseHdr m off
  let (k, o) ← rd [H, H] m o (two (Msg.error h))
  .ok (k (slice m o (off + h.length)))

/-- all values of an integer format -/
def allInts : List Val → Option (List Nat)
  | [] => some []
  | .int n :: vs => (allInts vs).map (n :: ·)
  | _ => none

/-- `ofp_hello_elem_versionbitmap`. parse.py L1014-1023.  `"%dI" % ((length-4)//4)` is not a format if
`length < 4`. -/
def parseVersionBitmap (m : Bytes) (off : Nat) : Py (HelloElem × Nat) := do
  let ((type, length), o) ← rd [H, H] m off (two fun a b => (a, b))
  pyAssert (type = 1)
  if length < 4 then .error .structError
  else do
    let (bs, o) ← rd (List.replicate ((length - 4) / 4) I) m o allInts
    .ok (.versionBitmap (some type) (some length) (.list bs), o + (align length - length))

/-- The body of the loop of `ofp_hello`. parse.py L1000-1005 -/
def parseHelloElem (m : Bytes) (off : Nat) : Py (HelloElem × Nat) := do
  let ((type, _), _) ← rd [H, H] m off (two fun a b => (a, b))
  if type = 1 then parseVersionBitmap m off else .error .valueError

/-- `ofp_hello`. parse.py L992-1008 -/
def parseHello (m : Bytes) (off : Nat) : Py Msg := do
  let (h, o) ← parseHdr m off
  let (es, o) ← whileFetch (parseHelloElem m) (off + h.length) o
  pyAssert (o = off + h.length)
  .ok (.hello h es)

/-- `ofp_experimenter_`: after the header, L1041 reads the undefined name length. parse.py L1026-1045 -/
def parseExperimenter (m : Bytes) (off : Nat) : Py Msg := do
  let (_, o) ← parseHdr m off
  let (_, _) ← rd [I, I] m o (fun _ => some ())
  .error .nameError

/-- The dispatch of `parse` on the message type. parse.py L51-96 -/
def parseOf (t : Nat) (m : Bytes) (off : Nat) : Py Msg :=
  if t = 0 then parseHello m off
  else if t = 1 then parseError m off
  else if t = 6 then parseFeatures m off
  else if t = 9 ∨ t = 8 then parseConfig m off
  else if t = 10 then parsePacketIn m off
  else if t = 11 then parseFlowRemoved m off
  else if t = 12 then parsePortStatus m off
  else if t = 13 then parsePacketOut m off
  else if t = 14 then parseFlowMod m off
  else if t = 15 then parseGroupMod m off
  else if t = 16 then parsePortMod m off
  else if t = 17 then parseTableMod m off
  else if t = 18 then parseMpRequest m off
  else if t = 19 then parseMpReply m off
  else if t = 4 then parseExperimenter m off
  else if t = 22 then parseQueueReq m off
  else if t = 23 then parseQueueRep m off
  else if t = 24 then parseRole m off
  else if t = 28 ∨ t = 27 then parseAsync m off
  else if t = 29 then parseMeterMod m off
  else parseOther m off

/-- `parse(message, offset)`. parse.py L44-96 -/
def parse (m : Bytes) (off : Nat) : Py Msg := do
  let (h, _) ← parseHdr m off
  parseOf h.type m off

end Twink.Of13
