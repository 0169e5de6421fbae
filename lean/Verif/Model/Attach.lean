import Verif.Model.Chan
import Verif.Model.Server

/-!
# A channel that is attached to one connection after the other

Models `/repo/twink/base.py`: `Channel.attach` (93-98), `Channel.close` (106-111), `Channel.send` (113-119), `OpenflowChannel.attach` and
`start` (207-218), `OpenflowChannel.recv` (220-237), for a channel that gets its sockets from `attach` only.

Simplification: sockets accept what is sent, completely (see `Verif.Model.Sending` for the contrary).
-/

namespace Twink.Att
open Twink

/-- A channel: the receiving side, `_start`, the negotiated version, and what has been written to the connections, in the order in which
they were attached. -/
structure St where
  chan : Chan
  started : Bool
  version : Option Nat
  out : List (List Bytes)
  deriving DecidableEq, Repr

/-- A channel that has not been attached: `remote_address` is None. base.py:78-84, 138-143, 208 -/
def fresh : St := ⟨⟨true, [], []⟩, false, none, []⟩

/-- `self.send(message)` (base.py:113-119): to the connection attached last; ValueError if there is none. -/
def send (s : St) (m : Bytes) : St × Py Unit :=
  match s.out.getLast? with
  | none => (s, .error .valueError)
  | some l => ({ s with out := s.out.dropLast ++ [l ++ [m]] }, .ok ())

/-- `start()` (base.py:215-218). -/
def start (accept : PyVers) (xid : Nat) (s : St) : St × Py Unit :=
  if s.started then (s, .ok ())
  else
    match hello accept xid with
    | .error e => (s, .error e)
    | .ok h =>
      match send s h with
      | (s, .error e) => (s, .error e)
      | (s, .ok ()) => ({ s with started := true }, .ok ())

/-- `attach(stream, autostart=autostart)` (base.py:210-213, 93-98); `tr` is what reading the new connection will give. -/
def attach (accept : PyVers) (xid : Nat) (autostart : Bool) (tr : List Raw) (s : St) : St × Py Unit :=
  let s := { s with chan := s.chan.attach tr, out := s.out ++ [[]] }
  if autostart then start accept xid s else (s, .ok ())

/-- `close()` (base.py:106-111). -/
def close (s : St) : St := { s with chan := s.chan.close }

/-- `recv()` (base.py:220-237); `none`: waiting for the connection. -/
def recv (accept : PyVers) (xid : Nat) (s : St) : St × Option (Py Bytes) :=
  match chRecv s.chan with
  | .blocked c => ({ s with chan := c }, none)
  | .raised e c => ({ s with chan := c }, some (.error e))
  | .ret m c =>
    let s := { s with chan := c }
    let (h, r) := ofRecv accept xid ⟨s.version, []⟩ m
    let s := { s with version := h.version }
    match h.sent with
    | [] => (s, some r)
    | b :: _ =>
      match send s b with
      | (s, .error e) => (s, some (.error e))
      | (s, .ok ()) => (s, some r)

/-- Calls on a channel. -/
inductive Op where
  | attach (xid : Nat) (autostart : Bool) (tr : List Raw)
  | start (xid : Nat)
  | close
  | send (m : Bytes)
  | recv (xid : Nat)
  deriving DecidableEq, Repr

/-- One call by a user who goes on after exceptions. -/
def step (accept : PyVers) (s : St) : Op → St
  | .attach xid a tr => (attach accept xid a tr s).1
  | .start xid => (start accept xid s).1
  | .close => close s
  | .send m => (send s m).1
  | .recv xid => (recv accept xid s).1

def run (accept : PyVers) (s : St) : List Op → St
  | [] => s
  | op :: ops => run accept (step accept s op) ops

end Twink.Att
