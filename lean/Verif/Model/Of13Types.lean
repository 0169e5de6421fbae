import Verif.Model.Framing

/-!
# OpenFlow 1.3 codec: Python values and helpers

The named tuples of twink/ofp4/build.py and twink/ofp4/parse.py as Lean types.
The same type is used for the argument of a builder and for the result of the parser; fields which a
builder accepts as `None` are `Option Nat`.  Integers are natural numbers (a negative integer raises
struct.error exactly as a too large one does).  A list given to a builder holds byte strings, named
tuples of the kind that belongs there, or anything else (`bad`): `_obj` dispatches on the class name
of a tuple, and the model does not follow it into tuples of a foreign kind.
-/

namespace Twink.Of13
open Fmt

/-- `assert p` -/
def pyAssert (p : Prop) [Decidable p] : Py Unit := if p then .ok () else .error .assertion

/-- `_align`. twink/ofp4/build.py L34-35, twink/ofp4/parse.py L10-11 -/
def align (n : Nat) : Nat := (n + 7) / 8 * 8

/-- `b"\0"*n` -/
def nul (n : Nat) : Bytes := List.replicate n 0

/-- An element of a list argument, as seen by `_obj`. twink/ofp4/build.py L16-22 -/
inductive Elem (α : Type) where
  | raw (b : Bytes)     -- a byte string, used as it is
  | tup (a : α)         -- a named tuple, rebuilt by the function named by its class
  | bad                 -- anything else: ValueError
  deriving DecidableEq, Repr

/-- A sequence argument: bytes, list or tuple, `None`, or anything else. -/
inductive Seq (α : Type) where
  | raw (b : Bytes)
  | items (l : List (Elem α))
  | none
  | bad
  deriving DecidableEq, Repr

/-- `_obj`. twink/ofp4/build.py L16-22 -/
def obj (build : α → Py Bytes) : Elem α → Py Bytes
  | .raw b => .ok b
  | .tup a => build a
  | .bad => .error .valueError

/-- `b"".join([_obj(a) for a in l])`, e.g. twink/ofp4/build.py L121 -/
def join (build : α → Py Bytes) : List (Elem α) → Py Bytes
  | [] => .ok []
  | e :: es => do
    let b ← obj build e
    let bs ← join build es
    .ok (b ++ bs)

/-- The `isinstance` cascade in front of most builders, e.g. twink/ofp4/build.py L252-259: bytes are
taken as they are, lists are joined, `None` is the empty string, anything else is a ValueError. -/
def seqBytes (build : α → Py Bytes) : Seq α → Py Bytes
  | .raw b => .ok b
  | .items l => join build l
  | .none => .ok []
  | .bad => .error .valueError

/-- A list of tuples as a sequence argument. -/
def tups (l : List α) : Seq α := .items (l.map .tup)

/-- `ofp_header(version,type,length,xid)` as returned by the parser. twink/ofp4/parse.py L99-105 -/
structure Hdr where
  version : Nat
  type : Nat
  length : Nat
  xid : Nat
  deriving DecidableEq, Repr

/-- The `header` argument of the builders. twink/ofp4/build.py L52-84 -/
inductive HdrArg where
  | none
  | raw (b : Bytes)
  | tup (version type length xid : Option Nat)
  | bad
  deriving DecidableEq, Repr

/-- The `type` argument of `ofp_`. twink/ofp4/build.py L52-84 -/
inductive TypeArg where
  | one (t : Nat)
  | among (ts : List Nat)
  | any
  deriving DecidableEq, Repr

/-- A text: Python 2 `str`, or `unicode` given by its UTF-8 encoding. -/
inductive Text where
  | str (b : Bytes)
  | uni (b : Bytes)
  deriving DecidableEq, Repr

/-- `ofp_port`. twink/ofp4/build.py L92-114, twink/ofp4/parse.py L119-127 -/
structure PortT where
  portNo : Nat
  hwAddr : Bytes
  name : Text
  config : Nat
  state : Nat
  curr : Nat
  advertised : Nat
  supported : Nat
  peer : Nat
  currSpeed : Nat
  maxSpeed : Nat
  deriving DecidableEq, Repr

/-- `ofp_match(type,length,oxm_fields)`. twink/ofp4/build.py L199-218, twink/ofp4/parse.py L189-197.
A tuple inside `oxm_fields` makes the builder fail (the name `oxm` is not a builder in that module),
hence the element type `Unit`. -/
structure MatchT where
  type : Option Nat
  length : Option Nat
  oxm : Seq Unit
  deriving DecidableEq, Repr

/-- The action tuples. twink/ofp4/build.py L296-422, twink/ofp4/parse.py L266-344 -/
inductive Action where
  | header (type len : Option Nat)
  | output (type len : Option Nat) (port maxLen : Nat)
  | group (type len : Option Nat) (groupId : Nat)
  | setQueue (type len : Option Nat) (queueId : Nat)
  | mplsTtl (type len : Option Nat) (ttl : Nat)
  | nwTtl (type len : Option Nat) (ttl : Nat)
  | push (type len : Option Nat) (ethertype : Nat)
  | popMpls (type len : Option Nat) (ethertype : Nat)
  | setField (type len : Option Nat) (field : Bytes)
  | experimenter (type len : Option Nat) (exp : Nat) (data : Bytes)
  deriving DecidableEq, Repr

/-- The instruction tuples. twink/ofp4/build.py L221-293, twink/ofp4/parse.py L205-263 -/
inductive Instr where
  | header (type len : Option Nat)
  | gotoTable (type len : Option Nat) (table : Nat)
  | writeMetadata (type len : Option Nat) (metadata mask : Nat)
  | actions (type len : Option Nat) (actions : Seq Action)
  | meter (type len : Option Nat) (meter : Nat)
  | experimenter (type len : Option Nat) (exp : Nat) (data : Bytes)
  deriving DecidableEq, Repr

/-- `ofp_bucket`. twink/ofp4/build.py L508-526, twink/ofp4/parse.py L410-421 -/
structure Bucket where
  len : Option Nat
  weight : Nat
  watchPort : Nat
  watchGroup : Nat
  actions : Seq Action
  deriving DecidableEq, Repr

/-- The meter band tuples. twink/ofp4/build.py L553-605, twink/ofp4/parse.py L453-487 -/
inductive Band where
  | header (type len : Option Nat) (rate burst : Nat)
  | drop (type len : Option Nat) (rate burst : Nat)
  | dscp (type len : Option Nat) (rate burst prec : Nat)
  | experimenter (type len : Option Nat) (rate burst exp : Nat) (data : Bytes)
  deriving DecidableEq, Repr

/-- `ofp_queue_prop_header(property,len)`. twink/ofp4/build.py L136-143, parse.py L150-152 -/
inductive PropHdr where
  | none
  | raw (b : Bytes)
  | tup (property len : Option Nat)
  | bad
  deriving DecidableEq, Repr

/-- The queue property tuples. twink/ofp4/build.py L136-196, parse.py L150-186 -/
inductive QProp where
  | header (property len : Option Nat)
  | minRate (h : PropHdr) (rate : Nat)
  | maxRate (h : PropHdr) (rate : Nat)
  | experimenter (h : PropHdr) (exp : Nat) (data : Bytes)
  deriving DecidableEq, Repr

/-- `ofp_packet_queue`. twink/ofp4/build.py L117-134, parse.py L130-148 -/
structure Queue where
  queueId : Nat
  port : Nat
  len : Option Nat
  properties : Seq QProp
  deriving DecidableEq, Repr

/-- A list of integers given as a list, as packed bytes, as `None`, or wrongly. -/
inductive Ints where
  | list (l : List Nat)
  | raw (b : Bytes)
  | none
  | bad
  deriving DecidableEq, Repr

/-- The hello element tuples. twink/ofp4/build.py L1078-1097, parse.py L1010-1023 -/
inductive HelloElem where
  | header (type length : Option Nat)
  | versionBitmap (type length : Option Nat) (bitmaps : Ints)
  deriving DecidableEq, Repr

/-- The table feature property tuples. twink/ofp4/build.py L766-842.  The elements of
`next_table_ids` are handed to `_obj`, which knows bytes only (`Seq Unit`). -/
inductive TfProp where
  | header (type length : Option Nat)
  | instructions (type length : Option Nat) (ids : Seq Instr)
  | nextTables (type length : Option Nat) (ids : Seq Unit)
  | actions (type length : Option Nat) (ids : Seq Action)
  | oxm (type length : Option Nat) (ids : Ints)
  | experimenter (type length : Option Nat) (exp expType : Nat) (data : Bytes)
  deriving DecidableEq, Repr

/-- The body tuples of multipart messages. twink/ofp4/build.py L663-972, parse.py L578-856 -/
inductive Rec where
  /-- mfr_desc, hw_desc, sw_desc, serial_num, dp_desc -/
  | desc (mfr hw sw serial dp : Option Bytes)
  | flowStatsReq (table outPort outGroup cookie cookieMask : Option Nat) (mt : Option (Elem MatchT))
  | flowStats (length : Option Nat)
      (table durSec durNsec priority idle hard flags cookie packets bytes : Nat)
      (mt : Elem MatchT) (instrs : Seq Instr)
  | aggregateReq (table outPort outGroup cookie cookieMask : Option Nat) (mt : Option (Elem MatchT))
  | aggregate (packets bytes flows : Nat)
  | tableStats (table active lookup matched : Nat)
  | tableFeatures (length : Option Nat) (table : Nat) (name : Bytes)
      (mdMatch mdWrite config maxEntries : Nat) (props : Seq TfProp)
  | portStatsReq (port : Option Nat)
  /-- port_no, the twelve counters, duration_sec, duration_nsec -/
  | portStats (port : Nat) (counters : List Nat) (durSec durNsec : Nat)
  | queueStatsReq (port queue : Option Nat)
  | queueStats (port queue txBytes txPackets txErrors durSec durNsec : Nat)
  | groupStatsReq (group : Option Nat)
  | groupStats (length : Option Nat) (group refCount packets bytes durSec durNsec : Nat)
      (counters : Seq (Nat × Nat))
  | groupDesc (length : Option Nat) (type group : Nat) (buckets : Seq Bucket)
  | groupFeatures (types capabilities : Nat) (maxGroups actions : Ints)
  | meterReq (meter : Nat)
  | meterStats (meter : Nat) (len : Option Nat) (flows packets bytes durSec durNsec : Nat)
      (bands : Seq (Nat × Nat))
  | meterConfig (length : Option Nat) (flags meter : Nat) (bands : Seq Band)
  | meterFeatures (maxMeter bandTypes capabilities maxBands maxColor : Nat)
  | port (p : PortT)
  | experimenter (exp expType : Nat) (data : Bytes)
  deriving DecidableEq, Repr

/-- The `body` of a multipart message. -/
inductive Body where
  | none
  | raw (b : Bytes)
  | one (r : Rec)
  | many (l : List (Elem Rec))
  | bad
  deriving DecidableEq, Repr

/-- What `parse` returns. twink/ofp4/parse.py L44-96 -/
inductive Msg where
  | hello (h : Hdr) (elements : List HelloElem)
  | error (h : Hdr) (type code : Nat) (data : Bytes)
  | features (h : Hdr) (datapathId nBuffers nTables auxiliaryId capabilities : Nat)
  | config (h : Hdr) (flags missSendLen : Nat)
  | packetIn (h : Hdr) (bufferId totalLen reason table cookie : Nat) (mt : MatchT) (data : Bytes)
  | flowRemoved (h : Hdr) (cookie priority reason table durSec durNsec idle hard packets bytes : Nat)
      (mt : MatchT)
  | portStatus (h : Hdr) (reason : Nat) (desc : PortT)
  | packetOut (h : Hdr) (bufferId inPort actionsLen : Nat) (actions : List Action) (data : Bytes)
  | flowMod (h : Hdr) (cookie cookieMask table command idle hard priority bufferId outPort outGroup
      flags : Nat) (mt : MatchT) (instrs : List Instr)
  | groupMod (h : Hdr) (command type group : Nat) (buckets : List Bucket)
  | portMod (h : Hdr) (port : Nat) (hwAddr : Bytes) (config advertise : Nat)
  | tableMod (h : Hdr) (table config : Nat)
  | mpRequest (h : Hdr) (type flags : Nat) (body : Body)
  | mpReply (h : Hdr) (type flags : Nat) (body : Body)
  | queueReq (h : Hdr) (port : Nat)
  | queueRep (h : Hdr) (port : Nat) (queues : List Queue)
  | role (h : Hdr) (role generation : Nat)
  | async (h : Hdr) (packetIn portStatus flowRemoved : Nat × Nat)
  | meterMod (h : Hdr) (command flags meter : Nat) (bands : List Band)
  | other (h : Hdr) (data : Bytes)
  deriving DecidableEq, Repr

end Twink.Of13
