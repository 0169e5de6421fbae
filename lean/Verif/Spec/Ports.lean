import Verif.Spec.Wire
import Verif.Spec.Hello
import Verif.Model.Ports

/-! Ports of a switch, their wire formats in OpenFlow 1.0 to 1.4, and the events of a correct switch. -/

namespace Twink.Spec

/-- A port as described by the switch: number, hardware address, 16-byte name field, and the 32-bit words that follow
(config, state, curr, advertised, supported, peer; from OpenFlow 1.1 also curr_speed and max_speed). -/
structure Port where
  no : Nat
  hw : Bytes
  nameField : Bytes
  words : List Nat
  deriving DecidableEq, Repr

/-- The part of a byte string before its first NUL. -/
def beforeNul : Bytes → Bytes
  | [] => []
  | x :: r => if x = 0 then [] else x :: beforeNul r

/-- The fields have the sizes that OpenFlow version `v` prescribes. -/
def Port.Wf (v : Nat) (p : Port) : Prop :=
  p.hw.length = 6 ∧ p.nameField.length = 16 ∧ (∀ w ∈ p.words, w < 4294967296) ∧
  if v = 1 then p.no < 65536 ∧ p.words.length = 6 else p.no < 4294967296 ∧ p.words.length = 8

/-- `struct ofp_phy_port` of OpenFlow 1.0, `struct ofp_port` of OpenFlow 1.1 to 1.3. -/
def portBytes (v : Nat) (p : Port) : Bytes :=
  if v = 1 then be16 p.no ++ p.hw ++ p.nameField ++ (p.words.map be32).flatten
  else be32 p.no ++ zeros 4 ++ p.hw ++ zeros 2 ++ p.nameField ++ (p.words.map be32).flatten

/-- Size of one port record. -/
def portSize (v : Nat) : Nat := if v = 1 then 48 else 64

/-- How the user sees a port. -/
def portView (p : Port) : PTuple :=
  .int p.no :: .str p.hw :: .str (beforeNul p.nameField) :: p.words.map .int

/-- FEATURES_REPLY of OpenFlow 1.0 to 1.2: 24 bytes of switch features, then the ports. -/
def featuresReply (v xid : Nat) (features : Bytes) (ps : List Port) : Bytes :=
  ofHeader v 6 (32 + portSize v * ps.length) xid ++ features ++ (ps.map (portBytes v)).flatten

/-- One fragment of a PORT_DESC reply; bit 0 of `flags` says that more fragments follow. -/
def portDescReply (v xid flags : Nat) (ps : List Port) : Bytes :=
  ofHeader v 19 (16 + portSize v * ps.length) xid ++ be16 13 ++ be16 flags ++ zeros 4 ++ (ps.map (portBytes v)).flatten

/-- PORT_STATUS. -/
def portStatus (v xid reason : Nat) (p : Port) : Bytes :=
  ofHeader v 12 (16 + portSize v) xid ++ b8 reason ++ zeros 7 ++ portBytes v p

/-- The ports of a switch: description by port number. -/
abbrev SwPorts := Nat → Option Port

/-- What can happen to the ports of a switch. -/
inductive PortEv where
  | add (p : Port)
  | delete (p : Port)
  | modify (p : Port)

/-- OFPPR_ADD = 0, OFPPR_DELETE = 1, OFPPR_MODIFY = 2. -/
def PortEv.reason : PortEv → Nat
  | .add _ => 0 | .delete _ => 1 | .modify _ => 2

def PortEv.port : PortEv → Port
  | .add p => p | .delete p => p | .modify p => p

/-- A correct switch adds ports that do not exist, deletes and modifies ports that exist. -/
def PortEv.Allowed (M : SwPorts) : PortEv → Prop
  | .add p => M p.no = none
  | .delete p => M p.no ≠ none
  | .modify p => M p.no ≠ none

/-- The switch's ports after the event. -/
def PortEv.apply (M : SwPorts) : PortEv → SwPorts
  | .add p => fun n => if n = p.no then some p else M n
  | .delete p => fun n => if n = p.no then none else M n
  | .modify p => fun n => if n = p.no then some p else M n

/-- What the controller receives: a PORT_STATUS for an event, or some other message. -/
inductive Incoming where
  | event (e : PortEv) (xid : Nat)
  | other (m : Bytes)

/-- A message that carries no port description for the channel: not a PORT_STATUS, not a FEATURES_REPLY (except in OpenFlow
1.3, where it lists no ports), not a multipart reply to one of the port requests `asked`. -/
def Unrelated (v : Nat) (asked : Nat → Prop) (m : Bytes) : Prop :=
  m = [] ∨ (8 ≤ m.length ∧ u8 m 1 ≠ 12 ∧ (u8 m 1 = 6 → v = 4) ∧ (u8 m 1 = 19 → ¬ asked (u32 m 4)))

def Incoming.bytes (v : Nat) : Incoming → Bytes
  | .event e xid => portStatus v xid e.reason e.port
  | .other m => m

/-- A history that a correct switch with ports `M` can produce, and its ports afterwards. -/
inductive History (v : Nat) (asked : Nat → Prop) : SwPorts → List Incoming → SwPorts → Prop
  | nil (M : SwPorts) : History v asked M [] M
  | event {M M' : SwPorts} {is : List Incoming} (e : PortEv) (xid : Nat) (hx : xid < 4294967296)
      (hw : e.port.Wf v) (ha : e.Allowed M) (h : History v asked (e.apply M) is M') :
      History v asked M (.event e xid :: is) M'
  | other {M M' : SwPorts} {is : List Incoming} (m : Bytes) (hm : Unrelated v asked m) (h : History v asked M is M') :
      History v asked M (.other m :: is) M'

/-- `ports` has exactly one entry for each port of `M`, holding its description, and no others. -/
def Mirrors (ports : List PTuple) (M : SwPorts) : Prop :=
  (∀ n, ports.filter (fun t => t.head? == some (.int n)) = (M n).toList.map portView) ∧
  ∀ t ∈ ports, ∃ n, t.head? = some (.int n)

/-- The port numbers of a list of descriptions, as a map. -/
def ofList (ps : List Port) : SwPorts := fun n => ps.find? (fun p => p.no == n)

/-- The channel receives a list of messages; `none` if `recv` raised an exception. -/
def portRun (s : PortSt) : List Bytes → Option PortSt
  | [] => some s
  | m :: ms =>
    match portRecv s m with
    | (s', .ok _) => portRun s' ms
    | (_, .error _) => none

/-- Nobody waits for a port. -/
def NoWaiters (s : PortSt) : Prop := (∀ k, s.attach k = false) ∧ ∀ k, s.detach k = false

/-- Messages that arrive while the only outstanding PORT_DESC request is `xid`: the fragments of the reply, in order, interleaved
with unrelated messages; `ps` are the ports described, in order. -/
inductive Fragments (v xid : Nat) : List Bytes → List Port → Prop
  | last (flags : Nat) (ps : List Port) (hf : flags < 65536) (h0 : flags % 2 = 0) (hl : 16 + portSize v * ps.length < 65536)
      (hw : ∀ p ∈ ps, p.Wf v) : Fragments v xid [portDescReply v xid flags ps] ps
  | more (flags : Nat) (ps : List Port) {ms : List Bytes} {qs : List Port} (hf : flags < 65536) (h1 : flags % 2 = 1)
      (hl : 16 + portSize v * ps.length < 65536) (hw : ∀ p ∈ ps, p.Wf v) (h : Fragments v xid ms qs) :
      Fragments v xid (portDescReply v xid flags ps :: ms) (ps ++ qs)
  | other (m : Bytes) {ms : List Bytes} {qs : List Port}
      (hm : Unrelated v (· = xid) m) (h : Fragments v xid ms qs) :
      Fragments v xid (m :: ms) qs

end Twink.Spec
