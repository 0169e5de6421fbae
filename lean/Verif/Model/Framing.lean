import Verif.Py

/-!
# Reading OpenFlow messages from a transport

Models `/repo/twink/base.py`: `default_wrapper` (30-45), `ReadWrapper` (48-66), `Channel._recv` (121-126),
`StreamServer.read_wrap` (647-652), `OpenflowBaseChannel.recv` (153-176), `OpenflowBaseChannel.__iter__` (145-151),
`parse_ofp_header` (240-244).
-/

namespace Twink

open Fmt in
/-- The format `"!BBHI"` of the OpenFlow header (base.py:163, 244). -/
def hdrFmt : Fmt := [B, B, H, I]

/-- `parse_ofp_header(message)` (base.py:240-244): `(version, oftype, length, xid)`. -/
def parseHeader (m : Bytes) : Py (Nat × Nat × Nat × Nat) := do
  match ← unpackFrom hdrFmt m 0 with
  | [.int v, .int t, .int l, .int x] => .ok (v, t, l, x)
  | _ => .error .structError

/-- The `errno` values that `default_wrapper` distinguishes (base.py:38-41). -/
inductive Errno where
  | eagain | econnreset | ebadf | eintr | otherErrno
  deriving DecidableEq, Repr

/-- What the underlying `socket.recv` (or `reader`) call does. -/
inductive Raw where
  | data (b : Bytes)      -- returns bytes (`b""` at end of stream)
  | timeout               -- raises socket.timeout
  | sockErr (e : Errno)   -- raises socket.error
  | keyboard              -- raises KeyboardInterrupt
  | exc (e : Err)         -- raises another exception
  deriving DecidableEq, Repr

/-- `default_wrapper(func)` (base.py:30-45): `none` is Python's `None`. -/
def defaultWrapper : Raw → Py (Option Bytes)
  | .data b => .ok (some b)
  | .timeout => .ok none
  | .sockErr .eagain => .ok (some [])
  | .sockErr .econnreset => .ok (some [])
  | .sockErr .ebadf => .ok (some [])
  | .sockErr .eintr => .ok none
  | .sockErr .otherErrno => .error .other
  | .keyboard => .ok (some [])
  | .exc e => .error e

/-- What one `_recv` call meets: the channel is already closed, the server is no longer accepting, or
the transport is really read. -/
inductive Ev where
  | closed
  | stopping
  | raw (r : Raw)
  deriving DecidableEq, Repr

/-- `Channel._recv` (base.py:121-126) through `ReadWrapper.__call__` (61-66) and, for server channels,
`StreamServer.read_wrap` (647-652). -/
def chanRead : Ev → Py (Option Bytes)
  | .closed => .ok (some [])
  | .stopping => .ok (some [])
  | .raw r => defaultWrapper r

/-- Outcome of a read loop: enough bytes, an empty read, an exception, or still waiting for the transport
(the list of events models the transport behaviour seen so far). The buffer is kept in all cases. -/
inductive Fill where
  | full (buf : Bytes) (rest : List Ev)
  | empty (buf : Bytes) (rest : List Ev)
  | raised (e : Err) (buf : Bytes) (rest : List Ev)
  | blocked (buf : Bytes)
  deriving DecidableEq, Repr

/-- The loops `while len(self.buffer) < required_len: ...` (base.py:155-161 and 166-172). -/
def fill (need : Nat) (buf : Bytes) : List Ev → Fill
  | [] => if need ≤ buf.length then .full buf [] else .blocked buf
  | ev :: evs =>
    if need ≤ buf.length then .full buf (ev :: evs) else
      match chanRead ev with
      | .error e => .raised e buf evs
      | .ok none => fill need buf evs
      | .ok (some []) => .empty buf evs
      | .ok (some (x :: b)) => fill need (buf ++ x :: b) evs

/-- Outcome of one `recv()` call. -/
inductive Recv where
  | ret (m : Bytes) (buf : Bytes) (rest : List Ev)
  | raised (e : Err) (buf : Bytes) (rest : List Ev)
  | blocked (buf : Bytes)
  deriving DecidableEq, Repr

/-- `OpenflowBaseChannel.recv` (base.py:153-176). -/
def recv (buf : Bytes) (evs : List Ev) : Recv :=
  match fill 8 buf evs with
  | .blocked buf => .blocked buf
  | .raised e buf evs => .raised e buf evs
  | .empty buf evs => .ret [] buf evs
  | .full buf evs =>
    match parseHeader buf with
    | .error e => .raised e buf evs
    | .ok (_, _, need, _) =>
      match fill need buf evs with
      | .blocked buf => .blocked buf
      | .raised e buf evs => .raised e buf evs
      | .empty buf evs => .ret [] buf evs
      | .full buf evs => .ret (slice buf 0 need) (buf.drop need) evs

/-- The state of a channel after a number of `recv()` calls: everything returned so far (also the empty
results), the buffer, the transport events not yet consumed, and how the last call ended. -/
inductive Status where
  | running          -- ready for the next call
  | stopped          -- `__iter__` has ended (a falsy result)
  | blocked          -- waiting for the transport
  | raised (e : Err)
  deriving DecidableEq, Repr

structure RunState where
  out : List Bytes
  buf : Bytes
  rest : List Ev
  status : Status
  deriving DecidableEq, Repr

/-- `n` successive `recv()` calls by a caller that continues after empty results, too. -/
def recvs : Nat → Bytes → List Ev → RunState
  | 0, buf, evs => ⟨[], buf, evs, .running⟩
  | n + 1, buf, evs =>
    match recv buf evs with
    | .blocked buf => ⟨[], buf, [], .blocked⟩
    | .raised e buf evs => ⟨[], buf, evs, .raised e⟩
    | .ret m buf evs =>
      let r := recvs n buf evs
      { r with out := m :: r.out }

/-- `for message in channel` (`__iter__`, base.py:145-151), observed for at most `n` iterations
(`running` means: more iterations to come). -/
def iterate : Nat → Bytes → List Ev → RunState
  | 0, buf, evs => ⟨[], buf, evs, .running⟩
  | n + 1, buf, evs =>
    match recv buf evs with
    | .blocked buf => ⟨[], buf, [], .blocked⟩
    | .raised e buf evs => ⟨[], buf, evs, .raised e⟩
    | .ret [] buf evs => ⟨[], buf, evs, .stopped⟩
    | .ret (x :: m) buf evs =>
      let r := iterate n buf evs
      { r with out := (x :: m) :: r.out }

end Twink
