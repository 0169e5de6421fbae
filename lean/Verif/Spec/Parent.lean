import Verif.Model.Parent
import Verif.Spec.Controller

/-! Environment of a parent channel: monitors coming and going, jack-in clients. -/

namespace Twink.Spec

/-- What happens around a parent channel. -/
inductive PEvent where
  | connect (k : Nat)
  | disconnect (k : Nat)
  | message (m : Bytes) (order : List Nat) (ok : Nat → Bool)

/-- The parent channel after an event, and the message handed on, if any (`none` as result of a message: `recv` raised). -/
def pStep (p : Parent) : PEvent → Parent × List (Option Bytes)
  | .connect k => ({ p with monitors := p.monitors ++ [k] }, [])
  | .disconnect k => ({ p with monitors := p.monitors.filter (· != k) }, [])
  | .message m order ok =>
    match parentRecv order ok p m with
    | (p', .ok m') => (p', [some m'])
    | (p', .error _) => (p', [none])

def pRun (p : Parent) : List PEvent → Parent × List (Option Bytes)
  | [] => (p, [])
  | e :: es =>
    let r := pStep p e
    let r' := pRun r.1 es
    (r'.1, r.2 ++ r'.2)

/-- Events that can happen to a running parent channel whose writes to monitors all succeed: a monitor connects once at a time,
the monitors are traversed in some order, messages are complete and not hellos. -/
inductive Possible : List Nat → List PEvent → Prop
  | nil (ms : List Nat) : Possible ms []
  | connect {ms : List Nat} {es : List PEvent} (k : Nat) (hk : k ∉ ms) (h : Possible (ms ++ [k]) es) : Possible ms (.connect k :: es)
  | disconnect {ms : List Nat} {es : List PEvent} (k : Nat) (h : Possible (ms.filter (· != k)) es) :
      Possible ms (.disconnect k :: es)
  | message {ms : List Nat} {es : List PEvent} (m : Bytes) (order : List Nat) (ok : Nat → Bool) (hm : 8 ≤ m.length)
      (hh : u8 m 1 ≠ 0) (ho : order.Perm ms) (hok : ∀ k ∈ ms, ok k = true) (h : Possible ms es) :
      Possible ms (.message m order ok :: es)

/-- The messages received while monitor `k` is connected. -/
def seenBy (k : Nat) : Bool → List PEvent → List Bytes
  | _, [] => []
  | b, .connect j :: es => seenBy k (b || j = k) es
  | b, .disconnect j :: es => seenBy k (b && j ≠ k) es
  | b, .message m _ _ :: es => (if b then [m] else []) ++ seenBy k b es

/-- All messages received. -/
def received : List PEvent → List Bytes
  | [] => []
  | .message m _ _ :: es => m :: received es
  | _ :: es => received es

/-- What was written to monitor `k`. -/
def wroteTo (k : Nat) (p : Parent) : List Bytes := (p.wrote.filter (·.1 = k)).map (·.2)

/-! ## Jack-in clients -/

/-- The parent's system, and ghost logs: the messages the clients sent (with the outcome of handling them), what was written to the
clients, and how each message from the switch was handled (with the callbacks alive at that moment). -/
structure Jack where
  sys : Sys
  requests : List (Nat × Bytes × Py Unit)
  toClient : List (Nat × Bytes)
  handled : List (Rep × (Nat → Bool) × Handled)

/-- A client's message is handled by its child channel. -/
def jackRequest (j : Jack) (k : Nat) (m : Bytes) (now : Clock) : Jack :=
  match jackHandle m with
  | .error e => { j with requests := j.requests ++ [(k, m, .error e)] }
  | .ok none => { j with requests := j.requests ++ [(k, m, .ok ())] }
  | .ok (some m') =>
    { j with sys := sysSend j.sys m' (some k) now,
             requests := j.requests ++ [(k, m, (ctlSend j.sys.alive now true true j.sys.ctl m' (some k)).2)] }

/-- The parent's handler receives a message from the switch. -/
def jackDeliver (hasAsync : Bool) (isClient : Nat → Bool) (j : Jack) (p : Rep) (rest : List Rep) : Jack :=
  let r := ctlHandle hasAsync j.sys.alive j.sys.ctl p.bytes
  { j with sys := { j.sys with ctl := r.1, toCtl := rest },
           toClient := j.toClient ++ weakCallback isClient r.2 p.bytes,
           handled := j.handled ++ [(p, j.sys.alive, r.2)] }

/-- Steps of a parent channel shared by jack-in clients (ids `k` with `isClient k`), an in-order switch, and other users of the
parent channel. -/
inductive JackStep (hasAsync : Bool) (isClient : Nat → Bool) : Jack → Jack → Prop
  /-- a connected client sends a message -/
  | request (j : Jack) (k : Nat) (m : Bytes) (now : Clock) (hk : isClient k = true) (ha : j.sys.alive k = true)
      (hlen : 8 ≤ m.length) : JackStep hasAsync isClient j (jackRequest j k m now)
  /-- other users of the parent channel send -/
  | other (j : Jack) (m : Bytes) (cb : Option Nat) (now : Clock) (hlen : 8 ≤ m.length)
      (hcb : ∀ c, cb = some c → j.sys.alive c = true ∧ isClient c = false) :
      JackStep hasAsync isClient j { j with sys := sysSend j.sys m cb now }
  /-- the switch works, callbacks die (clients disconnect), ids are drawn -/
  | env (j : Jack) (s' : Sys) (h : SysStep hasAsync j.sys s') (hc : s'.ctl.wire = j.sys.ctl.wire ∧ s'.ctl.seq = j.sys.ctl.seq)
      (hd : j.sys.toCtl.length ≤ s'.toCtl.length) : JackStep hasAsync isClient j { j with sys := s' }
  /-- a message from the switch is handled -/
  | deliver (j : Jack) (p : Rep) (rest : List Rep) (hp : j.sys.toCtl = p :: rest) :
      JackStep hasAsync isClient j (jackDeliver hasAsync isClient j p rest)

inductive JackReach (hasAsync : Bool) (isClient : Nat → Bool) : Jack → Prop
  | init (version dedup : Option Nat) (alive : Nat → Bool) :
      JackReach hasAsync isClient ⟨⟨freshCtl version dedup, alive, [], []⟩, [], [], []⟩
  | step {j j' : Jack} : JackReach hasAsync isClient j → JackStep hasAsync isClient j j' → JackReach hasAsync isClient j'

/-- What was forwarded to the switch on behalf of client `k`. -/
def forwardedFor (k : Nat) (j : Jack) : List Bytes := ((userPart j.sys.ctl.wire).filter (·.2 = some k)).map (·.1)

/-- The non-hello messages of client `k` whose handling did not fail. -/
def requestsOf (k : Nat) (j : Jack) : List Bytes :=
  (j.requests.filter (fun r => r.1 = k ∧ u8 r.2.1 1 ≠ 0 ∧ r.2.2 = .ok ())).map (·.2.1)

end Twink.Spec
