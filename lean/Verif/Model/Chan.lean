import Verif.Model.Framing

/-!
# A channel with its open/closed state

Models `/repo/twink/base.py`: `ReadWrapper.__call__` (61-66), `Channel.attach` (93-98), `Channel.closed` (100-104),
`Channel.close` (106-111), `Channel._recv` (121-126) together with `OpenflowBaseChannel.recv` (153-176) and `__iter__` (145-151).
In contrast to `Verif.Model.Framing`, where the outcome of every read attempt is given, the transport here is a separate
component that is only touched when the channel is open.
-/

namespace Twink

/-- A channel: `remote_address is None` (closed), the receive buffer, and what the transport will do on successive reads. -/
structure Chan where
  closed : Bool
  buf : Bytes
  transport : List Raw
  deriving DecidableEq, Repr

/-- `Channel.close` (base.py:106-111). -/
def Chan.close (c : Chan) : Chan := { c with closed := true }

/-- `Channel.attach` (base.py:93-98): a new transport. The receive buffer is kept. -/
def Chan.attach (c : Chan) (tr : List Raw) : Chan := { c with closed := false, transport := tr }

/-- Outcome of a read loop, with the transport that is left. -/
inductive ChFill where
  | full (c : Chan)
  | empty (c : Chan)
  | raised (e : Err) (c : Chan)
  | blocked (c : Chan)
  deriving DecidableEq, Repr

/-- `while len(self.buffer) < required_len: tmp = _recv(8192); …` (base.py:155-161, 166-172). A closed channel returns `b""`
from `_recv` without calling the reader (base.py:63-64). -/
def chFill (need : Nat) (closed : Bool) (buf : Bytes) : List Raw → ChFill
  | [] =>
    if need ≤ buf.length then .full ⟨closed, buf, []⟩
    else if closed then .empty ⟨closed, buf, []⟩
    else .blocked ⟨closed, buf, []⟩
  | r :: tr =>
    if need ≤ buf.length then .full ⟨closed, buf, r :: tr⟩
    else if closed then .empty ⟨closed, buf, r :: tr⟩
    else
      match defaultWrapper r with
      | .error e => .raised e ⟨closed, buf, tr⟩
      | .ok none => chFill need closed buf tr
      | .ok (some []) => .empty ⟨closed, buf, tr⟩
      | .ok (some (x :: b)) => chFill need closed (buf ++ x :: b) tr

/-- Outcome of one `recv()` call. -/
inductive ChRecv where
  | ret (m : Bytes) (c : Chan)
  | raised (e : Err) (c : Chan)
  | blocked (c : Chan)
  deriving DecidableEq, Repr

/-- `OpenflowBaseChannel.recv` (base.py:153-176). -/
def chRecv (c : Chan) : ChRecv :=
  match chFill 8 c.closed c.buf c.transport with
  | .blocked c => .blocked c
  | .raised e c => .raised e c
  | .empty c => .ret [] c
  | .full c =>
    match parseHeader c.buf with
    | .error e => .raised e c
    | .ok (_, _, need, _) =>
      match chFill need c.closed c.buf c.transport with
      | .blocked c => .blocked c
      | .raised e c => .raised e c
      | .empty c => .ret [] c
      | .full c => .ret (slice c.buf 0 need) { c with buf := c.buf.drop need }

/-- The channel after the call. -/
def ChRecv.chan : ChRecv → Chan
  | .ret _ c => c
  | .raised _ c => c
  | .blocked c => c

/-- At most `n` rounds of `for message in channel` (`__iter__`, base.py:145-151): the messages yielded, the channel, and whether
the iteration has ended regularly. -/
def chIter : Nat → Chan → List Bytes × Chan × Bool
  | 0, c => ([], c, false)
  | n + 1, c =>
    match chRecv c with
    | .blocked c => ([], c, false)
    | .raised _ c => ([], c, false)
    | .ret [] c => ([], c, true)
    | .ret (x :: m) c =>
      let r := chIter n c
      ((x :: m) :: r.1, r.2)

/-- Calls on a channel. -/
inductive ChOp where
  | recv
  | iterate (n : Nat)
  | close
  | attach (tr : List Raw)
  deriving DecidableEq, Repr

def chStep (c : Chan) : ChOp → Chan
  | .recv => (chRecv c).chan
  | .iterate n => (chIter n c).2.1
  | .close => c.close
  | .attach tr => c.attach tr

def chRun (c : Chan) : List ChOp → Chan
  | [] => c
  | op :: ops => chRun (chStep c op) ops

end Twink
