import Verif.Py

/-!
# `DgramServer`

`/repo/twink/base.py` L660-701.
-/

namespace Twink.Dgram

/-- What a call of the socket's `recv` waits for: nothing arrives in time, or a datagram with its sender. -/
inductive Attempt where
  | timeout
  | datagram (data : Bytes) (sender : Nat)
  deriving DecidableEq, Repr

/-- `socket.recv(bufsize[, flags])` of Python: without arguments it raises TypeError, whatever has arrived; else it returns the bytes of the
datagram (`none`: socket.timeout). -/
def sockRecv (args : List Nat) (a : Attempt) : Py (Option Bytes) :=
  match args with
  | [] => .error .typeError
  | n :: _ =>
    match a with
    | .timeout => .ok none
    | .datagram data _ => .ok (some (data.take n))

/-- `data, remote_address = v` for a byte string: the two characters, else ValueError. -/
def unpack2 (v : Bytes) : Py (UInt8 × UInt8) :=
  match v with
  | [a, b] => .ok (a, b)
  | _ => .error .valueError

/-- The server: the addresses with a channel, the tasks spawned (address, data), and whether the socket is closed. -/
structure St where
  remotes : List UInt8
  tasks : List (UInt8 × UInt8)
  sockClosed : Bool
  deriving DecidableEq, Repr

/-- `sock.recv()` and the assignment; `none`: timeout. base.py:677 -/
def receive (a : Attempt) : Py (Option (UInt8 × UInt8)) :=
  match sockRecv [] a with
  | .error e => .error e
  | .ok none => .ok none
  | .ok (some v) => (unpack2 v).map some

/-- The rest of a round. base.py:681-692 -/
def register (s : St) (data remote : UInt8) : St :=
  { s with remotes := if remote ∈ s.remotes then s.remotes else s.remotes ++ [remote], tasks := s.tasks ++ [(remote, data)] }

/-- `run`: one round for each attempt, until `accepting` is False. base.py:673-693 -/
def run : St → List Attempt → St × Py Unit
  | s, [] => ({ s with sockClosed := true }, .ok ())
  | s, a :: as =>
    match receive a with
    | .error e => (s, .error e)
    | .ok none => run s as
    | .ok (some (d, r)) => run (register s d r) as

/-- The names that base.py imports or defines and that `locked_loop` could mean by `StringIO`: there is none. base.py:1-10 -/
def imported : List String :=
  ["absolute_import", "binascii", "contextlib", "logging", "os", "struct", "types", "weakref", "datetime", "namedtuple"]

/-- `locked_loop`: the data handed to the channel's loop. base.py:695-698 -/
def lockedLoop (data : Bytes) : Py Bytes := if "StringIO" ∈ imported then .ok data else .error .nameError

end Twink.Dgram
