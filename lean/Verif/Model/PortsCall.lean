import Verif.Model.Ports

/-!
# Threads that read `ports` while messages arrive

Models `/repo/twink/base.py:1043-1060` (the property `ports`) step by step, together with the thread that receives
(`PortMonitorChannel.recv`, `Model/Ports.lean`) and `close` (base.py:1096-1097). Any number of threads read `ports`. A step is one
access to shared state; which thread moves next, which id a request gets, whether a write succeeds and whether a wait times out is
chosen by the schedule. Receiving a message is a single step (it changes `_ports` and `_ports_init` under the lock, but `ports`
reads them without the lock: between `self._ports = new_ports` and `self._ports_init.set()` a thread can only read a list that is
newer than the event tells).

`Call.timedOut` is ghost data: it is written, but never influences a step.
-/

namespace Twink.PortsCall

/-- Where a thread inside `ports` is. -/
inductive Pc where
  | start                     -- before `self._ports_init.is_set()` (base.py:1045)
  | ask                       -- before the request is made (base.py:1046-1049, 1057)
  | send (m : Bytes)          -- before `self.send` (base.py:1050, 1057)
  | wait                      -- before or in `self._ports_init.wait(timeout=self.timeout)` (base.py:1058)
  | read                      -- before `tuple(self._ports)` (base.py:1060)
  | done (r : Py (List PTuple))
  deriving DecidableEq

/-- A thread inside `ports`. Ghost: `timedOut` says that the wait ended without the event. -/
structure Call where
  pc : Pc := .start
  timedOut : Bool := false
  deriving DecidableEq

/-- The channel, the threads that read `ports`, the messages written, the exception that ended the receiving thread. -/
structure Sys where
  chan : PortSt
  calls : List Call := []
  sent : List Bytes := []
  dead : Option Err := none

/-- What the schedule decides for a step of a thread: the id of a request, an exception raised by `self.send`, whether a wait ends. -/
structure Choice where
  xid : Nat := 0
  fails : Option Err := none
  expires : Bool := false

/-- What happens next. -/
inductive Ev where
  | call
  | step (i : Nat) (c : Choice)
  | recv (m : Bytes)
  | close

/-- One step of a thread (base.py:1045-1060). -/
def callStep (s : Sys) (i : Nat) (t : Call) (c : Choice) : Sys :=
  match t.pc with
  | .start => { s with calls := s.calls.set i { t with pc := if s.chan.init then .read else .ask } }
  | .ask =>
    let r := portsRequest { s.chan with init := false } c.xid
    match r.2 with
    | .ok (some m) => { s with chan := { r.1 with init := s.chan.init }, calls := s.calls.set i { t with pc := .send m } }
    | .ok none => s
    | .error e => { s with chan := { r.1 with init := s.chan.init }, calls := s.calls.set i { t with pc := .done (.error e) } }
  | .send m =>
    match c.fails with
    | none => { s with sent := s.sent ++ [m], calls := s.calls.set i { t with pc := .wait } }
    | some e => { s with calls := s.calls.set i { t with pc := .done (.error e) } }
  | .wait =>
    if s.chan.init then { s with calls := s.calls.set i { t with pc := .read } }
    else if c.expires then { s with calls := s.calls.set i { pc := .read, timedOut := true } }
    else s
  | .read => { s with calls := s.calls.set i { t with pc := .done (.ok s.chan.ports) } }
  | .done _ => s

/-- One event. A receiving thread that got an exception receives nothing more. -/
def evStep (s : Sys) : Ev → Sys
  | .call => { s with calls := s.calls ++ [{}] }
  | .step i c =>
    match s.calls[i]? with
    | none => s
    | some t => callStep s i t c
  | .recv m =>
    match s.dead with
    | some _ => s
    | none =>
      let r := portRecv s.chan m
      match r.2 with
      | .ok _ => { s with chan := r.1 }
      | .error e => { s with chan := r.1, dead := some e }
  | .close => { s with chan := portsClose s.chan }

/-- A run from a fresh channel of the given version. -/
def run (s : Sys) (evs : List Ev) : Sys := evs.foldl evStep s

/-- A fresh channel (base.py:936-945) with the negotiated version. -/
def fresh (version : Nat) : Sys := { chan := { version := version } }

end Twink.PortsCall
