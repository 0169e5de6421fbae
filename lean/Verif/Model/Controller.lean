import Verif.Model.Hello
import Verif.Model.Xid

/-!
# Controller channel: reply callbacks separated by barriers

Models `/repo/twink/base.py:349-471` (`WeakCallbackCaller`, `Barrier`, `Chunk`, `ControllerChannel`).

Callbacks are numbers; `alive c` says whether the callback object is still referenced, i.e. whether the weak reference yields it.
`self.callback` of the channel itself always is `None`: the property reads `self.cbref`, but the code assigns `self.cbfunc` (376, 419).
All of `send` and the bookkeeping part of the intercepting handler run under `seq_lock`, so each is one atomic operation.
-/

namespace Twink

/-- Elements of `self.seq` (base.py:356-370). -/
inductive Elem where
  | barrier (xid : Nat) (cb : Option Nat)
  | chunk (cb : Option Nat)
  deriving DecidableEq, Repr

/-- The `callback` property (base.py:349-353): the referenced object, or `None` if there is none or it died. -/
def live (alive : Nat → Bool) : Option Nat → Option Nat
  | some c => if alive c then some c else none
  | none => none

/-- What was written to the transport (ghost tag: inserted automatically or on behalf of the user). -/
inductive Wire where
  | inserted (b : Bytes)
  | user (m : Bytes) (cb : Option Nat)
  deriving DecidableEq, Repr

/-- The parts of a `ControllerChannel` involved (base.py:373-381); `dedup` is the state of `hms_xid`. -/
structure Ctl where
  version : Option Nat
  seq : List Elem
  wire : List Wire
  dedup : Option Nat
  deriving DecidableEq, Repr

/-- `(oftype==18 and version==1) or (oftype==20 and version!=1)` (base.py:396). -/
def isBarrierRequest (version oftype : Nat) : Bool :=
  (oftype = 18 && version = 1) || (oftype = 20 && version ≠ 1)

/-- `(oftype==19 and version==1) or (oftype==21 and version!=1)` (base.py:444). -/
def isBarrierReply (version oftype : Nat) : Bool :=
  (oftype = 19 && version = 1) || (oftype = 21 && version ≠ 1)

/-- The inserted barrier request (base.py:403-406); version `None` makes `struct.pack` raise. -/
def barrierMsg (version : Option Nat) (bxid : Nat) : Py Bytes :=
  if version = some 1 then pack hdrFmt [.int 1, .int 18, .int 8, .int bxid]
  else
    match version with
    | none => .error .structError
    | some v => pack hdrFmt [.int v, .int 20, .int 8, .int bxid]

/-- `super().send(message)` (base.py:410, 421): the transport write may fail. -/
def ctlWrite (ok : Bool) (st : Ctl) (w : Wire) : Ctl × Py Unit :=
  if ok then ({ st with wire := st.wire ++ [w] }, .ok ()) else (st, .error .other)

/-- `locked_send(message, callback=cb)` (base.py:387-421). `now` is the clock for `hms_xid`, `wb`/`wm` say whether the writes
of the inserted barrier and of the message succeed. -/
def ctlSend (alive : Nat → Bool) (now : Clock) (wb wm : Bool) (st : Ctl) (m : Bytes) (cb : Option Nat) : Ctl × Py Unit :=
  match parseHeader m with
  | .error e => (st, .error e)
  | .ok (version, oftype, _, xid) =>
    if isBarrierRequest version oftype then
      ctlWrite wm { st with seq := st.seq ++ [.barrier xid cb] } (.user m cb)
    else
      match st.seq.getLast? with
      | some (.chunk c) =>
        if live alive c ≠ cb then
          let bxid := hmsXid st.dedup now
          let st := { st with dedup := some bxid }
          match barrierMsg st.version bxid with
          | .error e => (st, .error e)
          | .ok b =>
            let st := { st with seq := st.seq ++ [.barrier bxid none, .chunk cb] }
            match ctlWrite wb st (.inserted b) with
            | (st, .error e) => (st, .error e)
            | (st, .ok ()) => ctlWrite wm st (.user m cb)
        else ctlWrite wm st (.user m cb)
      | some (.barrier _ _) => ctlWrite wm { st with seq := st.seq ++ [.chunk cb] } (.user m cb)
      | none =>
        -- `if self.callback != message_handler` with `self.callback` always None
        let st := if none ≠ cb then { st with seq := st.seq ++ [.chunk cb] } else st
        ctlWrite wm st (.user m cb)

/-- What the intercepting handler does with a message. -/
inductive Handled where
  | callback (c : Nat)     -- passed to this reply callback
  | default                -- passed on to the channel's own handler
  | async                  -- passed to `handle_async`
  | swallowed              -- `return True`
  | missingBarrier         -- AssertionError "missing barrier"
  | multipleChunks         -- AssertionError "dropping multiple chunks at a time"
  | unknownBarrier         -- AssertionError "got unknown barrier"
  | badHeader              -- struct.error
  deriving DecidableEq, Repr

/-- `if e.callback: return e.callback(message, self)`, otherwise `dflt` (base.py:450-452, 462-463). -/
def cbOr (alive : Nat → Bool) (cb : Option Nat) (dflt : Handled) : Handled :=
  match live alive cb with
  | some c => .callback c
  | none => dflt

/-- The loop over `self.seq` for a barrier reply (base.py:445-458): result and new `self.seq`. -/
def scan (alive : Nat → Bool) (xid : Nat) (orig : List Elem) : Bool → List Elem → List Elem × Handled
  | _, [] => (orig, .unknownBarrier)
  | _, .barrier x cb :: rest =>
    if x = xid then (rest, cbOr alive cb .swallowed)
    else (orig, .missingBarrier)
  | true, .chunk _ :: _ => (orig, .multipleChunks)
  | false, .chunk _ :: rest => scan alive xid orig true rest

/-- `ControllerChannel.handle_proxy(handle)` applied to a message (base.py:434-471). -/
def ctlHandle (hasAsync : Bool) (alive : Nat → Bool) (st : Ctl) (m : Bytes) : Ctl × Handled :=
  match parseHeader m with
  | .error _ => (st, .badHeader)
  | .ok (version, oftype, _, xid) =>
    if hasAsync && (oftype = 10 || oftype = 11 || oftype = 12) then (st, .async)
    else
      match st.seq with
      | [] => (st, .default)
      | e :: rest =>
        if isBarrierReply version oftype then
          let r := scan alive xid (e :: rest) false (e :: rest)
          ({ st with seq := r.1 }, r.2)
        else
          match e with
          | .barrier _ _ => (st, .default)
          | .chunk c => (st, cbOr alive c .default)

/-- The attributes set by `ControllerChannel.recv`. -/
structure Features where
  datapath : Option Nat
  auxiliary : Option Nat
  deriving DecidableEq, Repr

open Fmt in
/-- `ControllerChannel.recv` (base.py:423-432) on the message returned by the lower layers; `version` is the negotiated version
(`None < 4` is true in Python 2). -/
def featuresRecv (version : Option Nat) (st : Features) (m : Bytes) : Features × Py Bytes :=
  if m = [] then (st, .ok m)
  else
    match parseHeader m with
    | .error e => (st, .error e)
    | .ok (_, oftype, _, _) =>
      if oftype = 6 then
        if (match version with | none => true | some v => decide (v < 4)) then
          match unpackFrom [Q] m 8 with
          | .ok [.int d] => ({ st with datapath := some d }, .ok m)
          | .ok _ => (st, .error .valueError)
          | .error e => (st, .error e)
        else
          match unpackFrom [Q, I, B, B] m 8 with
          | .ok [.int d, .int _, .int _, .int a] => (⟨some d, some a⟩, .ok m)
          | .ok _ => (st, .error .valueError)
          | .error e => (st, .error e)
      else (st, .ok m)

end Twink
