import Verif.Model.Framing

/-!
# The stream server

Models `/repo/twink/base.py`: `StreamServer` (607-657), with `OpenflowBaseChannel.recv` (153-176), `OpenflowServerChannel.loop`
(316-326) and `ReadWrapper.__call__` (61-66) of the channels it makes, as an interleaving of atomic steps.

Simplifications: `start()` is called once, and `stop()` after it, once; a channel is a number; what a handler (or `OpenflowChannel.recv` for a hello) does is left
to the environment, except that it ends normally, with ChannelClose, or with another exception.
-/

namespace Twink.Srv

/-- Where the thread of `run` is (base.py:624-637). -/
inductive RunPc where
  | fresh                  -- `start()` not called yet
  | top                    -- before `while self.accepting`
  | accept                 -- in `self.sock.accept()`
  | hello (k : Nat)        -- channel `k` made, before `ch.start()`
  | spawn (k : Nat)        -- before `sched.spawn(self._loop_runner, ch)`
  | ended                  -- after `self.sock.close()` in the `finally` clause
  deriving DecidableEq, Repr

/-- Where the thread of a connection is (base.py:639-645 and 316-326). -/
inductive ConnPc where
  | made                   -- no thread yet
  | adding                 -- before `self.channels.add(ch)`
  | looping                -- in `loop`, before the next message or the next read
  | reading                -- in `socket.recv`, after the tests of `closed` and `accepting`
  | closing                -- before `ch.close()`
  | removing               -- before `self.channels.remove(ch)`
  | ended
  | died                   -- an exception has left `loop`: nothing of 642-645 is done
  deriving DecidableEq, Repr

/-- A connection: the channel's `closed`, its buffer, the messages given to the handler and the number of reads of the transport. -/
structure Conn where
  pc : ConnPc
  closed : Bool
  buf : Bytes
  handled : List Bytes
  reads : Nat
  deriving DecidableEq, Repr

/-- The server.  `left`: the channels `stop()` has still to close, `none` if `stop()` has not been called. -/
structure Server where
  accepting : Bool
  listening : Bool
  run : RunPc
  channels : List Nat
  conns : List Conn
  left : Option (List Nat)
  deriving DecidableEq, Repr

/-- `StreamServer(…)` (base.py:609-614). -/
def fresh : Server := ⟨false, false, .fresh, [], [], none⟩

/-- What `accept()` does. -/
inductive Accepted where
  | client                 -- a new connection
  | timeout                -- socket.timeout
  | error                  -- another exception
  deriving DecidableEq, Repr

/-- How the handler ends. -/
inductive Outcome where
  | returns
  | close                  -- ChannelClose
  | raises
  deriving DecidableEq, Repr

/-- One step of a thread, with what its environment does. -/
inductive Op where
  | start                                       -- `start()` (616-621)
  | run (a : Accepted) (sent : Bool)            -- the accept loop moves; `sent`: sending the hello does not raise
  | conn (k : Nat) (r : Raw) (o : Outcome)      -- connection `k` moves
  | stop                                        -- `stop()`: 655, and the copy of the set in 656
  | close                                       -- `stop()`: the next `ch.close()` (657)
  | user (k : Nat)                              -- somebody else calls `close()` of channel `k`
  deriving DecidableEq, Repr

/-- The message at the front of the buffer if it is complete (base.py:155, 163-166, 174). -/
def front (buf : Bytes) : Option Nat :=
  if 8 ≤ buf.length then
    match parseHeader buf with
    | .ok (_, _, need, _) => if need ≤ buf.length then some need else none
    | .error _ => none
  else none

/-- A step of a connection in `loop`: hand over the next message, or test whether to read. base.py:145-176, 316-326, 61-66, 647-652 -/
def loopStep (accepting : Bool) (c : Conn) (o : Outcome) : Conn :=
  match front c.buf with
  | some need =>
    if need = 0 then { c with pc := .closing }                -- `recv` returns `b""`
    else
      let c := { c with buf := c.buf.drop need, handled := c.handled ++ [c.buf.take need] }
      match o with
      | .returns => c
      | .close => { c with pc := .closing, closed := true }   -- 325-326
      | .raises => { c with pc := .died }
  | none =>
    if c.closed then { c with pc := .closing }                -- 63-64
    else if accepting = false then { c with pc := .closing }  -- 649-650
    else { c with pc := .reading }

/-- The end of a read. base.py:30-45, 157-161 -/
def readStep (c : Conn) (r : Raw) : Conn :=
  let c := { c with reads := c.reads + 1 }
  match defaultWrapper r with
  | .error _ => { c with pc := .died }
  | .ok none => { c with pc := .looping }
  | .ok (some []) => { c with pc := .closing }
  | .ok (some (x :: b)) => { c with pc := .looping, buf := c.buf ++ x :: b }

/-- A step of connection `k`. base.py:639-645 -/
def connStep (s : Server) (k : Nat) (c : Conn) (r : Raw) (o : Outcome) : Server :=
  match c.pc with
  | .made => s
  | .adding => { s with channels := k :: s.channels, conns := s.conns.set k { c with pc := .looping } }
  | .looping => { s with conns := s.conns.set k (loopStep s.accepting c o) }
  | .reading => { s with conns := s.conns.set k (readStep c r) }
  | .closing => { s with conns := s.conns.set k { c with pc := .removing, closed := true } }
  | .removing => { s with channels := s.channels.erase k, conns := s.conns.set k { c with pc := .ended } }
  | .ended => s
  | .died => s

/-- A step of the accept loop. base.py:623-637 -/
def runStep (s : Server) (a : Accepted) (sent : Bool) : Server :=
  match s.run with
  | .fresh => s
  | .top => if s.accepting then { s with run := .accept } else { s with run := .ended, listening := false }
  | .accept =>
    match a with
    | .timeout => { s with run := .top }
    | .error => { s with run := .ended, listening := false }
    | .client => { s with run := .hello s.conns.length, conns := s.conns ++ [⟨.made, false, [], [], 0⟩] }
  | .hello k => if sent then { s with run := .spawn k } else { s with run := .ended, listening := false }
  | .spawn k =>
    match s.conns[k]? with
    | some c => { s with run := .top, conns := s.conns.set k { c with pc := .adding } }
    | none => s
  | .ended => s

/-- One step of the system. -/
def step (s : Server) : Op → Server
  | .start => if s.run = .fresh then { s with accepting := true, listening := true, run := .top } else s
  | .run a sent => runStep s a sent
  | .conn k r o =>
    match s.conns[k]? with
    | some c => connStep s k c r o
    | none => s
  | .stop => if s.left = none ∧ s.run ≠ .fresh then { s with accepting := false, left := some s.channels } else s
  | .close =>
    match s.left with
    | some (k :: ks) =>
      match s.conns[k]? with
      | some c => { s with left := some ks, conns := s.conns.set k { c with closed := true } }
      | none => { s with left := some ks }
    | _ => s
  | .user k =>
    match s.conns[k]? with
    | some c => { s with conns := s.conns.set k { c with closed := true } }
    | none => s

def runs (s : Server) : List Op → Server
  | [] => s
  | op :: ops => runs (step s op) ops

end Twink.Srv
