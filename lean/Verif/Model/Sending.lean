import Verif.Model.Framing

/-!
# Sending messages

Models `Channel.send` (/repo/twink/base.py:113-119) for channels with a stream socket. `socket.send` accepts any non-empty prefix of the
message and returns its length, or raises an exception (for example `socket.timeout`, as the sockets have a timeout of 0.5 s,
base.py:90-97) after having accepted nothing. `Channel.send` ignores the returned length.
-/

namespace Twink

/-- What one call of `socket.send` does. -/
inductive Sent where
  | accepts (n : Nat)   -- returns `n`
  | raises (e : Err)
  deriving DecidableEq, Repr

/-- `Channel.send(message)` (base.py:113-119) on a stream: the stream after the call, and the exception the caller gets. -/
def chanSend (stream m : Bytes) : Sent → Bytes × Option Err
  | .accepts n => (stream ++ m.take n, none)
  | .raises e => (stream, some e)

/-- Successive calls of `send` by a caller that goes on after exceptions. -/
def chanSends (stream : Bytes) : List (Bytes × Sent) → Bytes
  | [] => stream
  | (m, r) :: l => chanSends (chanSend stream m r).1 l

end Twink
