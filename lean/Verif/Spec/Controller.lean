import Verif.Model.Controller
import Verif.Spec.Hello

/-!
# Environment of a controller channel

The histories a controller channel can see, and a switch that processes messages in order.
-/

namespace Twink.Spec

/-- BARRIER_REQUEST is type 18 in OpenFlow 1.0 and type 20 in later versions. -/
def IsBarrierReq (m : Bytes) : Prop := if u8 m 0 = 1 then u8 m 1 = 18 else u8 m 1 = 20
/-- BARRIER_REPLY is type 19 in OpenFlow 1.0 and type 21 in later versions. -/
def IsBarrierRep (m : Bytes) : Prop := if u8 m 0 = 1 then u8 m 1 = 19 else u8 m 1 = 21
/-- PACKET_IN, FLOW_REMOVED and PORT_STATUS. -/
def IsAsyncMsg (m : Bytes) : Prop := u8 m 1 = 10 ∨ u8 m 1 = 11 ∨ u8 m 1 = 12

instance : DecidablePred IsBarrierReq := fun m => by unfold IsBarrierReq; infer_instance
instance : DecidablePred IsBarrierRep := fun m => by unfold IsBarrierRep; infer_instance
instance : DecidablePred IsAsyncMsg := fun m => by unfold IsAsyncMsg; infer_instance

/-! ## Arbitrary histories -/

/-- One operation on the channel: a send (with the outcomes of its writes), or a received message handled. `alive` is the set of
callbacks referenced at that moment. -/
inductive CtlOp where
  | send (alive : Nat → Bool) (now : Clock) (wb wm : Bool) (m : Bytes) (cb : Option Nat)
  | handle (hasAsync : Bool) (alive : Nat → Bool) (m : Bytes)
  | otherXid (now : Clock)    -- somebody else calls hms_xid

def ctlStep (st : Ctl) : CtlOp → Ctl
  | .send alive now wb wm m cb => (ctlSend alive now wb wm st m cb).1
  | .handle a alive m => (ctlHandle a alive st m).1
  | .otherXid now => { st with dedup := some (hmsXid st.dedup now) }

def ctlRun (st : Ctl) : List CtlOp → Ctl
  | [] => st
  | op :: ops => ctlRun (ctlStep st op) ops

/-- A fresh channel. -/
def freshCtl (version : Option Nat) (dedup : Option Nat) : Ctl := ⟨version, [], [], dedup⟩

/-- The user's messages on the wire. -/
def userPart (ws : List Wire) : List (Bytes × Option Nat) :=
  ws.filterMap fun | .user m cb => some (m, cb) | .inserted _ => none

/-- The inserted messages on the wire. -/
def insertedPart (ws : List Wire) : List Bytes :=
  ws.filterMap fun | .user _ _ => none | .inserted b => some b

/-- The messages of the send calls that were carried out completely, in call order. -/
def sentMessages (st : Ctl) : List CtlOp → List (Bytes × Option Nat)
  | [] => []
  | .send alive now wb wm m cb :: ops =>
    (if (ctlSend alive now wb wm st m cb).2 = .ok () then [(m, cb)] else []) ++
      sentMessages (ctlStep st (.send alive now wb wm m cb)) ops
  | op :: ops => sentMessages (ctlStep st op) ops

/-! ## An in-order switch -/

/-- A request on its way to the switch: its bytes, the callback it was sent with (none for inserted barriers), and whether
anything was outstanding when it was sent. -/
structure Req where
  bytes : Bytes
  cb : Option Nat
  busy : Bool
  deriving DecidableEq

/-- A message on its way to the controller: its bytes and the request that caused it (none: unsolicited). -/
structure Rep where
  bytes : Bytes
  origin : Option Req
  deriving DecidableEq

/-- Controller channel, living callbacks, requests and replies in transit. -/
structure Sys where
  ctl : Ctl
  alive : Nat → Bool
  toSwitch : List Req
  toCtl : List Rep

/-- The requests that a send puts on the wire. -/
def newReqs (busy : Bool) (ws : List Wire) : List Req :=
  ws.map fun | .inserted b => ⟨b, none, true⟩ | .user m cb => ⟨m, cb, busy⟩

/-- The effect of a received message on the outstanding requests: a barrier reply with the id of the oldest outstanding barrier
request completes that request and everything before it. -/
def complete (m : Bytes) (out : List Req) : List Req :=
  match out.dropWhile (fun q => ¬ IsBarrierReq q.bytes) with
  | q :: rest => if 8 ≤ m.length ∧ IsBarrierRep m ∧ u32 m 4 = u32 q.bytes 4 then rest else out
  | [] => out

/-- Histories with arbitrary received messages (no assumption about the switch): the channel, the living callbacks, and the
outstanding requests. -/
inductive OutReach : Ctl → (Nat → Bool) → List Req → Prop
  | init (version dedup : Option Nat) (alive : Nat → Bool) : OutReach (freshCtl version dedup) alive []
  | send {c alive out} (m : Bytes) (cb : Option Nat) (now : Clock) (hcb : ∀ k, cb = some k → alive k = true) :
      OutReach c alive out →
      OutReach (ctlSend alive now true true c m cb).1 alive
        (out ++ newReqs (c.seq ≠ []) ((ctlSend alive now true true c m cb).1.wire.drop c.wire.length))
  | handle {c alive out} (hasAsync : Bool) (m : Bytes) : OutReach c alive out →
      OutReach (ctlHandle hasAsync alive c m).1 alive (complete m out)
  | die {c alive out} (alive' : Nat → Bool) (hle : ∀ k, alive' k = true → alive k = true) : OutReach c alive out →
      OutReach c alive' out
  | otherXid {c alive out} (now : Clock) : OutReach c alive out →
      OutReach { c with dedup := some (hmsXid c.dedup now) } alive out

/-- `rep` is the reply of a switch to the barrier request `req`: barrier reply of the same version with the same id. -/
def AnswersBarrier (req rep : Bytes) : Prop :=
  8 ≤ rep.length ∧ u8 rep 0 = u8 req 0 ∧ IsBarrierRep rep ∧ u32 rep 4 = u32 req 4

/-- A send whose transport writes succeed: what is written goes to the switch. -/
def sysSend (s : Sys) (m : Bytes) (cb : Option Nat) (now : Clock) : Sys :=
  let c := (ctlSend s.alive now true true s.ctl m cb).1
  { s with ctl := c, toSwitch := s.toSwitch ++ newReqs (s.ctl.seq ≠ []) (c.wire.drop s.ctl.wire.length) }

/-- One step of channel, network and switch. The channel's handlers run with `handle_async` present iff `hasAsync`. -/
inductive SysStep (hasAsync : Bool) : Sys → Sys → Prop
  /-- the user sends a message, with a callback the user still holds; transport writes succeed -/
  | send (s : Sys) (m : Bytes) (cb : Option Nat) (now : Clock)
      (hlen : 8 ≤ m.length) (hcb : ∀ c, cb = some c → s.alive c = true) :
      SysStep hasAsync s (sysSend s m cb now)
  /-- the switch processes the next request, if it is no barrier request: any number of non-barrier replies -/
  | work (s : Sys) (q : Req) (rest : List Req) (reps : List Bytes)
      (hq : s.toSwitch = q :: rest) (hnb : ¬ IsBarrierReq q.bytes)
      (hreps : ∀ b ∈ reps, 8 ≤ b.length ∧ ¬ IsBarrierRep b ∧ (hasAsync = true → ¬ IsAsyncMsg b)) :
      SysStep hasAsync s { s with toSwitch := rest, toCtl := s.toCtl ++ reps.map (⟨·, some q⟩) }
  /-- the switch answers a barrier request -/
  | barrier (s : Sys) (q : Req) (rest : List Req) (b : Bytes)
      (hq : s.toSwitch = q :: rest) (hnb : IsBarrierReq q.bytes) (hb : AnswersBarrier q.bytes b) :
      SysStep hasAsync s { s with toSwitch := rest, toCtl := s.toCtl ++ [⟨b, some q⟩] }
  /-- the switch sends something on its own -/
  | unsolicited (s : Sys) (b : Bytes) (hlen : 8 ≤ b.length) (hnb : ¬ IsBarrierRep b) :
      SysStep hasAsync s { s with toCtl := s.toCtl ++ [⟨b, none⟩] }
  /-- the channel handles the next received message -/
  | deliver (s : Sys) (p : Rep) (rest : List Rep) (hp : s.toCtl = p :: rest) :
      SysStep hasAsync s { s with ctl := (ctlHandle hasAsync s.alive s.ctl p.bytes).1, toCtl := rest }
  /-- callbacks die -/
  | die (s : Sys) (alive' : Nat → Bool) (hle : ∀ c, alive' c = true → s.alive c = true) :
      SysStep hasAsync s { s with alive := alive' }
  /-- somebody else draws a transaction id -/
  | otherXid (s : Sys) (now : Clock) :
      SysStep hasAsync s { s with ctl := { s.ctl with dedup := some (hmsXid s.ctl.dedup now) } }

/-- Reachable from a fresh channel. -/
inductive SysReach (hasAsync : Bool) : Sys → Prop
  | init (version dedup : Option Nat) (alive : Nat → Bool) : SysReach hasAsync ⟨freshCtl version dedup, alive, [], []⟩
  | step {s s' : Sys} : SysReach hasAsync s → SysStep hasAsync s s' → SysReach hasAsync s'

/-- Where a reply caused by request `q` belongs: the callback of the request if it still is referenced, the default handler
otherwise; the reply to a barrier request without (living) callback is consumed silently. -/
def belongsTo (alive : Nat → Bool) (q : Req) : Handled :=
  match q.cb with
  | some c => if alive c then .callback c else if IsBarrierReq q.bytes then .swallowed else .default
  | none => if IsBarrierReq q.bytes then .swallowed else .default

end Twink.Spec
