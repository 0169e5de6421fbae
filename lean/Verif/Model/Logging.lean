import Verif.Model.Chan

/-!
# `LoggingChannel`

`/repo/twink/base.py` L179-204, on top of `OpenflowBaseChannel` (`Chan.lean`), and `ParallelChannel.close` (L533-535), which puts it under a lock.
Lines are the texts handed to the loggers; whether loggers print them is a matter of configuration.
-/

namespace Twink.Logging

/-- A text. -/
abbrev Text := List Char

/-- Lines, by logger. -/
structure Lines where
  channel : List Text
  send : List Text
  recv : List Text
  deriving DecidableEq, Repr

/-- The channel, what it has logged, and what has been handed to the transport. -/
structure St where
  chan : Chan
  lines : Lines
  sent : List Bytes

/-- One digit of `binascii.b2a_hex`. -/
def digit (n : Nat) : Char := Nat.digitChar n

/-- `binascii.b2a_hex`. -/
def b2aHex : Bytes → Text
  | [] => []
  | b :: bs => digit (b.toNat / 16) :: digit (b.toNat % 16) :: b2aHex bs

/-- `"%s %s" % (self, binascii.b2a_hex(message))`; `self` is the text of the channel. base.py:192, 198 -/
def line (self : Text) (m : Bytes) : Text := self ++ ' ' :: b2aHex m

/-- `"%s connect%s" % (self, self.remote)`. base.py:189 -/
def connectLine (self remote : Text) : Text := self ++ ' ' :: "connect".toList ++ remote

/-- `"%s close%s" % (self, self.remote)`. base.py:204 -/
def closeLine (self remote : Text) : Text := self ++ ' ' :: "close".toList ++ remote

/-- `__init__` on a channel that has been initialised: `remote` is set by then. base.py:185-189 -/
def init (self remote : Text) (c : Chan) : St := ⟨c, ⟨[connectLine self remote], [], []⟩, []⟩

/-- `send`: the line first, then `Channel.send`, which raises `fails`. base.py:191-193 -/
def send (self : Text) (s : St) (m : Bytes) (fails : Option Err) : St × Py Unit :=
  match fails with
  | none => ({ s with lines := { s.lines with send := s.lines.send ++ [line self m] }, sent := s.sent ++ [m] }, .ok ())
  | some e => ({ s with lines := { s.lines with send := s.lines.send ++ [line self m] } }, .error e)

/-- `recv`. base.py:195-199 -/
def recv (self : Text) (s : St) : St × Option (Py Bytes) :=
  match chRecv s.chan with
  | .ret m c =>
    if m ≠ [] then ({ s with chan := c, lines := { s.lines with recv := s.lines.recv ++ [line self m] } }, some (.ok m))
    else ({ s with chan := c }, some (.ok m))
  | .raised e c => ({ s with chan := c }, some (.error e))
  | .blocked c => ({ s with chan := c }, none)

/-- `close`. base.py:201-204 -/
def close (self remote : Text) (s : St) : St :=
  if s.chan.closed then s
  else { s with chan := s.chan.close, lines := { s.lines with channel := s.lines.channel ++ [closeLine self remote] } }

/-- Calls on a channel, in one thread. -/
inductive Op where
  | send (m : Bytes) (fails : Option Err)
  | recv
  | close
  | attach (tr : List Raw)

/-- A call: the new state, and the message that `recv` returned, if it did. -/
def step (self remote : Text) (s : St) : Op → St × List Bytes
  | .send m fails => ((send self s m fails).1, [])
  | .recv =>
    match recv self s with
    | (s', some (.ok m)) => (s', [m])
    | (s', _) => (s', [])
  | .close => (close self remote s, [])
  | .attach tr => ({ s with chan := s.chan.attach tr }, [])

/-- Calls, and the messages received. -/
def run (self remote : Text) : St → List Op → St × List Bytes
  | s, [] => (s, [])
  | s, op :: ops => ((run self remote (step self remote s op).1 ops).1, (step self remote s op).2 ++ (run self remote (step self remote s op).1 ops).2)

/-! ## `close` called by several threads -/

/-- Where a thread is in `close`. -/
inductive Pc where
  /-- about to call `close` -/
  | before
  /-- inside: `if not self.closed` comes next -/
  | entered
  /-- `super().close()` comes next -/
  | seenOpen
  /-- the line comes next -/
  | closing
  /-- about to return -/
  | leaving
  | done
  deriving DecidableEq, Repr

structure Threads where
  closed : Bool
  closeLines : Nat
  pc : Nat → Pc
  /-- the thread that holds `close_lock` -/
  holder : Option Nat

def setPc (t : Threads) (i : Nat) (p : Pc) : Threads := { t with pc := fun j => if j = i then p else t.pc j }

/-- One step of thread `i`; `locked`: the class has `ParallelChannel` before `LoggingChannel`, so that base.py:534 takes `close_lock`. -/
def tick (locked : Bool) (t : Threads) (i : Nat) : Threads :=
  match t.pc i with
  | .before =>
    if locked then
      if t.holder = none then { setPc t i .entered with holder := some i } else t
    else setPc t i .entered
  | .entered => if t.closed then setPc t i .leaving else setPc t i .seenOpen
  | .seenOpen => { setPc t i .closing with closed := true }
  | .closing => { setPc t i .leaving with closeLines := t.closeLines + 1 }
  | .leaving => if locked then { setPc t i .done with holder := none } else setPc t i .done
  | .done => t

def ticks (locked : Bool) : Threads → List Nat → Threads
  | t, [] => t
  | t, i :: is => ticks locked (tick locked t i) is

/-- All threads before `close`, on an open channel. -/
def threads0 : Threads := ⟨false, 0, fun _ => .before, none⟩

end Twink.Logging
