import Verif.PyLemmas
import Verif.Model.Hello

/-!
# Model of `PortMonitorChannel` (twink/base.py:932-1131)

The channel's port list, its decoding from FEATURES_REPLY, PORT_DESC multipart replies and PORT_STATUS,
and the waiters for attachment and detachment.
-/

namespace Twink
open Fmt

/-- A `namedtuple("ofp_port", …)`: the list of its field values. -/
abbrev PTuple := List Val

/-- The `struct` format `ofp_port` chosen by `self.version` (base.py:950-963); `None` is modelled as `0`. -/
def portFmt (version : Nat) : Fmt :=
  if version = 2 ∨ version = 3 ∨ version = 4 then [I, X 4, S 6, X 2, S 16, I, I, I, I, I, I, I, I]
  else if version = 5 then [I, H, X 2, S 6, X 2, S 6, I, I]
  else [H, S 6, S 16, I, I, I, I, I, I]

/-- Position of the field called `name` in `ofp_port_names` (base.py:951-963). -/
def nameIdx (version : Nat) : Nat := if version = 5 then 3 else 2

/-- `s.partition(b'\0')[0]` (base.py:974). -/
def cutNul (b : Bytes) : Bytes := b.takeWhile (· != 0)

/-- `port[2] = port[2].partition(b'\0')[0]` (base.py:974, 990, 1000). -/
def cutField2 (p : PTuple) : PTuple :=
  match p with
  | a :: b :: .str s :: r => a :: b :: .str (cutNul s) :: r
  | p => p

/-- `port.port_no` / `port[0]`. -/
def portNo (p : PTuple) : Val := p.getD 0 (.int 0)
/-- `port.name`. -/
def portName (version : Nat) (p : PTuple) : Val := p.getD (nameIdx version) (.str [])

theorem portFmt_pos (version : Nat) : 0 < calcsize (portFmt version) := by
  unfold portFmt; split
  · decide
  · split <;> decide

/-- The loop `while offset < length: …; ports.append(…); offset += calcsize(ofp_port)` (base.py:972-976, 988-992):
the ports appended, and the exception that ended the loop, if any. -/
def decodePorts (version : Nat) (m : Bytes) (length off : Nat) : List PTuple × Option Err :=
  if off < length then
    match unpackFrom (portFmt version) m off with
    | .error e => ([], some e)
    | .ok p =>
      let r := decodePorts version m length (off + calcsize (portFmt version))
      (cutField2 p :: r.1, r.2)
  else ([], none)
termination_by length - off
decreasing_by have := portFmt_pos version; omega

/-- State of a `PortMonitorChannel` (base.py:936-946). `attach` and `detach` say for which keys (port number or
name) the weak dictionaries hold a live `Event`, i.e. some thread is inside `wait_attach`/`wait_detach`. -/
structure PortSt where
  version : Nat
  ports : List PTuple := []
  init : Bool := false
  multi : List (Nat × List PTuple) := []
  attach : Val → Bool := fun _ => false
  detach : Val → Bool := fun _ => false

/-- `self._port_monitor_multi[xid]`. -/
def multiGet (d : List (Nat × List PTuple)) (xid : Nat) : Option (List PTuple) := d.lookup xid
/-- `self._port_monitor_multi[xid] = ports`. -/
def multiSet (d : List (Nat × List PTuple)) (xid : Nat) (ps : List PTuple) : List (Nat × List PTuple) :=
  (xid, ps) :: d.filter (·.1 != xid)
/-- `del(self._port_monitor_multi[xid])`. -/
def multiDel (d : List (Nat × List PTuple)) (xid : Nat) : List (Nat × List PTuple) := d.filter (·.1 != xid)

/-- Is there a live waiter found by `d.get(port.port_no, d.get(port.name))` (base.py:1013, 1024)? -/
def waiter (version : Nat) (d : Val → Bool) (p : PTuple) : Bool := d (portNo p) || d (portName version p)

/-- `_update_port` (base.py:1004-1041), executed under `_ports_lock`: the new `_ports`, or the exception.
`s.set(port)` raises `TypeError`: `Event.set` takes no argument. Nothing is assigned before the last line, so
an exception leaves `_ports` as it was. -/
def updatePort (s : PortSt) (reason : Nat) (port : PTuple) : Py (List PTuple) :=
  let hit := s.ports.filter (fun x => portNo x == portNo port)
  if reason = 0 then
    if s.init && !hit.isEmpty then .error .assertion
    else if waiter s.version s.attach port then .error .typeError
    else .ok (s.ports ++ [port])
  else if reason = 1 then
    if s.init && hit.isEmpty then .error .assertion
    else if hit.length > 1 then .error .assertion
    else if waiter s.version s.detach port then .error .typeError
    else
      match hit with
      | old :: _ => .ok (s.ports.erase old)
      | [] => .ok s.ports
  else if reason = 2 then
    if s.init && hit.isEmpty then .error .assertion
    else if hit.length > 1 then .error .assertion
    else
      match hit with
      | old :: _ => .ok ((s.ports.erase old).insertIdx (s.ports.idxOf old) port)
      | [] => .ok (s.ports ++ [port])
  else .error .assertion

/-- `_ports_replace` (base.py:1062-1094): wakes waiters of vanished and of new ports (`s.set(port)` raises
`TypeError`), then assigns `_ports`. -/
def portsReplace (s : PortSt) (new : List PTuple) : Py (List PTuple) :=
  let oldNums := s.ports.map portNo
  let oldNames := s.ports.map (portName s.version)
  let newNums := new.map portNo
  let newNames := new.map (portName s.version)
  if s.ports.any (fun p =>
      (!newNums.contains (portNo p) && s.detach (portNo p)) ||
      (!newNames.contains (portName s.version p) && s.detach (portName s.version p))) then .error .typeError
  else if new.any (fun p =>
      (!oldNums.contains (portNo p) && s.attach (portNo p)) ||
      (!oldNames.contains (portName s.version p) && s.attach (portName s.version p))) then .error .typeError
  else .ok new

/-- The end of a port list: `self._ports_replace(ports); self._ports_init.set()` (base.py:979-981, 993-995). -/
def finishPorts (s : PortSt) (new : List PTuple) : PortSt × Py Unit :=
  match portsReplace s new with
  | .error e => (s, .error e)
  | .ok ps => ({ s with ports := ps, init := true }, .ok ())

/-- MULTIPART_REPLY with a registered xid (base.py:966-982). The registered list object is appended to while
decoding, so ports decoded before an exception stay registered. -/
def recvMulti (s : PortSt) (m : Bytes) (length xid : Nat) (acc : List PTuple) : PortSt × Py Unit :=
  if ¬ (s.version = 4 ∨ s.version = 5) then (s, .error .assertion)
  else
    match unpackFrom [H, H, X 4] m 8 with
    | .ok [.int mptype, .int flags] =>
      if mptype = 13 then
        let r := decodePorts s.version m length 16
        let s1 := { s with multi := multiSet s.multi xid (acc ++ r.1) }
        match r.2 with
        | some e => (s1, .error e)
        | none =>
          if flags % 2 = 0 then
            match finishPorts s1 (acc ++ r.1) with
            | (s2, .error e) => (s2, .error e)
            | (s2, .ok ()) => ({ s2 with multi := multiDel s2.multi xid }, .ok ())
          else (s1, .ok ())
      else (s, .ok ())
    | .ok _ => (s, .error .structError)
    | .error e => (s, .error e)

/-- FEATURES_REPLY (base.py:983-995); `struct.calcsize("!BBHIQIB3xII") = 32`. -/
def recvFeatures (s : PortSt) (m : Bytes) (length : Nat) : PortSt × Py Unit :=
  match decodePorts s.version m length (calcsize [B, B, H, I, Q, I, B, X 3, I, I]) with
  | (_, some e) => (s, .error e)
  | (ps, none) => finishPorts s ps

/-- PORT_STATUS (base.py:996-1001). -/
def recvStatus (s : PortSt) (m : Bytes) : PortSt × Py Unit :=
  match unpackFrom (B :: X 7 :: portFmt s.version) m 8 with
  | .ok (.int reason :: p) =>
    match updatePort s reason (cutField2 p) with
    | .ok ps => ({ s with ports := ps }, .ok ())
    | .error e => (s, .error e)
  | .ok _ => (s, .error .structError)
  | .error e => (s, .error e)

/-- The choice by message type (base.py:966, 983, 996). -/
def portDispatch (s : PortSt) (m : Bytes) (oftype length xid : Nat) : PortSt × Py Unit :=
  match multiGet s.multi xid, decide (oftype = 19) with
  | some acc, true => recvMulti s m length xid acc
  | _, _ =>
    if oftype = 6 ∧ s.version ≠ 4 then recvFeatures s m length
    else if oftype = 12 then recvStatus s m
    else (s, .ok ())

/-- What `PortMonitorChannel.recv` does with the message `m` returned by `super().recv()` (base.py:947-1002). -/
def portRecv (s : PortSt) (m : Bytes) : PortSt × Py Bytes :=
  if m = [] then (s, .ok m)
  else
    match parseHeader m with
    | .error e => (s, .error e)
    | .ok (_, oftype, length, xid) =>
      let r := portDispatch s m oftype length xid
      (r.1, r.2.map fun _ => m)

/-- The request part of the `ports` property (base.py:1045-1058) while the list is not initialised: the state
after registration and the message sent (`struct.pack` raises if the version is `None`). The caller then waits for `_ports_init` and reads `_ports`. -/
def portsRequest (s : PortSt) (xid : Nat) : PortSt × Py (Option Bytes) :=
  if s.init then (s, .ok none)
  else if s.version = 4 ∨ s.version = 5 then
    ({ s with multi := multiSet s.multi xid [] },
      (pack [B, B, H, I, H, H, X 4]
        [.int s.version, .int 18, .int 16, .int xid, .int 13, .int 0]).map some)
  else if s.version = 0 then (s, .error .structError)
  else (s, (pack [B, B, H, I] [.int s.version, .int 5, .int 8, .int xid]).map some)

/-- `close` (base.py:1096-1097): `_ports_init.set()`. -/
def portsClose (s : PortSt) : PortSt := { s with init := true }

/-- The search for a port by number or name (base.py:1101-1103, 1112-1114, 1118-1120). -/
def findPort (s : PortSt) (key : Val) : Option PTuple :=
  s.ports.find? (fun p => portNo p == key || portName s.version p == key)

/-- `wait_attach` up to the wait (base.py:1100-1109): the port if it is present, otherwise an `Event` is
registered for the key and the thread blocks. -/
def waitAttach (s : PortSt) (key : Val) : PortSt × Option PTuple :=
  match findPort s key with
  | some p => (s, some p)
  | none => ({ s with attach := fun k => k == key || s.attach k }, none)

/-- `wait_detach` up to the wait (base.py:1116-1128): returns at once if no port matches. -/
def waitDetach (s : PortSt) (key : Val) : PortSt × Option Val :=
  match findPort s key with
  | none => (s, some key)
  | some _ => ({ s with detach := fun k => k == key || s.detach k }, none)

end Twink
