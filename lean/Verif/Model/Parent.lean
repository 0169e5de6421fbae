import Verif.Model.Controller

/-!
# Parent channel, monitors and jack-in clients

Models `/repo/twink/base.py`: `ParentChannel.recv` (731-757), `ChildChannel.handle` (810-811), `WeakCallback` (814-819),
`JackinChildChannel` (822-835). Binding the unix domain socket a second time fails (the path exists), see `parentRecv`.
-/

namespace Twink

/-- A `ParentChannel` with `monitor` enabled or not: `serving` says whether the monitor server has been started,
`monitors` are the channels in `serv.channels`, `wrote` is what was written to monitor channels, oldest first (ghost). -/
structure Parent where
  monitor : Bool
  serving : Bool
  monitors : List Nat
  wrote : List (Nat × Bytes)
  deriving DecidableEq, Repr

/-- `for ch in list(self.monitors): ch.send(message)` (base.py:754-755); `ok k` says whether the write to `k` succeeds. -/
def fanout (ok : Nat → Bool) (m : Bytes) : List Nat → List (Nat × Bytes) → List (Nat × Bytes) × Py Unit
  | [], w => (w, .ok ())
  | k :: ks, w => if ok k then fanout ok m ks (w ++ [(k, m)]) else (w, .error .other)

/-- What `ParentChannel.recv` does with the message returned by `super().recv()` (base.py:731-757). `order` is the order in which
the set of monitors is traversed. A further hello would start a second server on the same path; `bind` fails. -/
def parentRecv (order : List Nat) (ok : Nat → Bool) (p : Parent) (m : Bytes) : Parent × Py Bytes :=
  if m = [] then (p, .ok m)
  else
    match parseHeader m with
    | .error e => (p, .error e)
    | .ok (_, oftype, _, _) =>
      if oftype = 0 then
        if p.monitor then
          if p.serving then (p, .error .other)
          else ({ p with serving := true, monitors := [] }, .ok m)
        else (p, .ok m)
      else
        match fanout ok m order p.wrote with
        | (w, .ok ()) => ({ p with wrote := w }, .ok m)
        | (w, .error e) => ({ p with wrote := w }, .error e)

/-- `JackinChildChannel.handle` (base.py:827-830): the message forwarded to the parent with the client's callback, if any. -/
def jackHandle (m : Bytes) : Py (Option Bytes) :=
  match parseHeader m with
  | .error e => .error e
  | .ok (_, oftype, _, _) => if oftype ≠ 0 then .ok (some m) else .ok none

/-- `WeakCallback.__call__` (base.py:818-819): what is written to client channels when the parent's handler passes a message on. -/
def weakCallback (isClient : Nat → Bool) (h : Handled) (m : Bytes) : List (Nat × Bytes) :=
  match h with
  | .callback k => if isClient k then [(k, m)] else []
  | _ => []

end Twink
