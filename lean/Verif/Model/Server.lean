import Verif.Model.Hello

/-!
# Starting a channel, the server loop, automatic echo replies

Models `/repo/twink/base.py`: `Channel.attach/closed/close/send` (93-119), `OpenflowChannel.attach/start` (210-218),
`OpenflowServerChannel.loop` (316-326), `AutoEchoChannel.handle_proxy` (335-346).
-/

namespace Twink

/-- Who wrote something to the transport (ghost information). -/
inductive Written where
  | handshake (b : Bytes)
  | user (b : Bytes)
  deriving DecidableEq, Repr

structure StartState where
  started : Bool
  written : List Written
  deriving DecidableEq, Repr

/-- The calls of interest on an `OpenflowChannel`. `xid` is what `hms_xid()` returns during the call;
`other` stands for any call that writes `bs` (a `send`, a negotiation error, an echo reply, or nothing for a plain `recv`). -/
inductive StartOp where
  | start (xid : Nat)
  | attach (autostart : Bool) (xid : Nat)
  | other (bs : List Bytes)
  deriving DecidableEq, Repr

/-- `OpenflowChannel.start` (base.py:215-218). -/
def doStart (accept : PyVers) (xid : Nat) (st : StartState) : StartState × Py Unit :=
  if st.started then (st, .ok ())
  else
    match hello accept xid with
    | .error e => (st, .error e)
    | .ok h => (⟨true, st.written ++ [.handshake h]⟩, .ok ())

/-- One call; `attach` is base.py:210-213 (the transport exchange itself is invisible here). -/
def startStep (accept : PyVers) (st : StartState) : StartOp → StartState × Py Unit
  | .start xid => doStart accept xid st
  | .attach true xid => doStart accept xid st
  | .attach false _ => (st, .ok ())
  | .other bs => ({ st with written := st.written ++ bs.map .user }, .ok ())

def startRun (accept : PyVers) (st : StartState) : List StartOp → StartState
  | [] => st
  | op :: ops => startRun accept (startStep accept st op).1 ops

/-- How the server loop stands. -/
inductive LoopExit where
  | waiting                 -- no further result of recv yet
  | finished                -- recv returned nothing
  | closed                  -- ChannelClose was raised, `self.close()` called
  | raised (e : Err)        -- another exception left the loop
  deriving DecidableEq, Repr

/-- `OpenflowServerChannel.loop` (base.py:316-326) with `handle_proxy(handle)` given as `h`: a state transformer that may
raise. The list holds the results of the successive `recv()` calls. Result: the messages handed over, final state, exit. -/
def loop {σ : Type} (h : σ → Bytes → σ × Py Unit) (s : σ) : List (Py Bytes) → List Bytes × σ × LoopExit
  | [] => ([], s, .waiting)
  | .error .channelClose :: _ => ([], s, .closed)
  | .error e :: _ => ([], s, .raised e)
  | .ok [] :: _ => ([], s, .finished)
  | .ok (b :: m) :: rs =>
    match h s (b :: m) with
    | (s', .ok ()) =>
      let r := loop h s' rs
      ((b :: m) :: r.1, r.2)
    | (s', .error .channelClose) => ([b :: m], s', .closed)
    | (s', .error e) => ([b :: m], s', .raised e)

/-- What an auto-echo channel wrote by itself, and the user's state. -/
structure EchoState (σ : Type) where
  sent : List Bytes
  user : σ

/-- `AutoEchoChannel.handle_proxy(handle)` (base.py:335-346); `version` is the negotiated version at that moment
(`none` makes `struct.pack` raise). -/
def autoEcho {σ : Type} (handle : σ → Bytes → σ × Py Unit) (version : Option Nat) (st : EchoState σ) (m : Bytes) :
    EchoState σ × Py Unit :=
  if m = [] then (st, .ok ())
  else
    match parseHeader m with
    | .error e => (st, .error e)
    | .ok (_, oftype, length, xid) =>
      if oftype = 2 then
        match version with
        | none => (st, .error .structError)
        | some v =>
          match pack hdrFmt [.int v, .int 3, .int length, .int xid] with
          | .error e => (st, .error e)
          | .ok hdr => ({ st with sent := st.sent ++ [hdr ++ m.drop 8] }, .ok ())
      else
        let r := handle st.user m
        ({ st with user := r.1 }, r.2)

/-- Successive messages, each with the version negotiated at that time. -/
def echoRun {σ : Type} (handle : σ → Bytes → σ × Py Unit) (st : EchoState σ) : List (Nat × Bytes) → EchoState σ × Py Unit
  | [] => (st, .ok ())
  | (v, m) :: ms =>
    match autoEcho handle (some v) st m with
    | (st', .ok ()) => echoRun handle st' ms
    | (st', .error e) => (st', .error e)

end Twink
