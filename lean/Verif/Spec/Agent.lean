import Verif.Spec.Of13
import Verif.Spec.Ports
import Verif.Model.Agent

/-!
# Specification of the software switch

Histories of the agent: messages from the controller and calls of the port manager in any order.
-/

namespace Twink.Agent
open Of13 Spec

/-- Something that happens to the agent. -/
inductive Ev where
  | msg (m : Bytes)
  | op (a : Op)

/-- An event with the order of iteration and the random number in force at that time. -/
abbrev Happening := Order × Nat × Ev

/-- State, messages sent, and value returned by the port manager. -/
def step (st : St) (h : Happening) : St × List Eff × Option Ret :=
  match h with
  | (o, rnd, .op a) =>
    match portOp o rnd st a with
    | (st', es, .ok r) => (st', es, some r)
    | (st', es, .error _) => (st', es, none)
  | (o, rnd, .msg m) =>
    match switchProc o rnd st m with
    | .ok (st', es) => (st', es, none)
    | .error _ => (st, [], none)

/-- The state after a history. -/
def after (st : St) : List Happening → St
  | [] => st
  | h :: hs => after (step st h).1 hs

/-- The values returned by the port manager. -/
def returned (st : St) : List Happening → List Ret
  | [] => []
  | h :: hs => (step st h).2.2.toList ++ returned (step st h).1 hs

/-- Everything sent. -/
def sent (st : St) : List Happening → List Eff
  | [] => []
  | h :: hs => (step st h).2.1 ++ sent (step st h).1 hs

/-- The number of an added port. -/
def Ret.number : Ret → Option Nat
  | .added n => some n
  | _ => none

/-- The digits of hexadecimal numbers. -/
def digitOf (c : UInt8) (d : Nat) : Prop :=
  (d < 10 ∧ c.toNat = 48 + d) ∨ (10 ≤ d ∧ d < 16 ∧ (c.toNat = 87 + d ∨ c.toNat = 55 + d))

/-- A text in hexadecimal and the bytes it means. -/
inductive HexText : Bytes → Bytes → Prop
  | nil : HexText [] []
  | cons (a b : UInt8) (d e : Nat) (v : UInt8) {r s : Bytes} (ha : digitOf a d) (hb : digitOf b e) (hv : v.toNat = 16 * d + e)
      (h : HexText r s) : HexText (a :: b :: r) (v :: s)

/-- A port of the agent as the specification of ports describes it. -/
def asPort (p : PortT) : Spec.Port :=
  let name := match p.name with | .str b => b | .uni b => b
  ⟨p.portNo, p.hwAddr, name ++ zeros (16 - name.length),
    [p.config, p.state, p.curr, p.advertised, p.supported, p.peer, p.currSpeed, p.maxSpeed]⟩

/-- The ports of the agent, by number. -/
def swPorts (st : St) : SwPorts := fun n => (st.ports.lookup n).map fun p => asPort p.desc

/-- The messages to the controller among the effects. -/
def messages (es : List Eff) : List Bytes := es.filterMap fun | .send m => some m | .out .. => none

/-- All calls of the port manager in the history return normally. -/
def Smooth (st : St) : List Happening → Prop
  | [] => True
  | (o, rnd, .op a) :: hs => (step st (o, rnd, .op a)).2.2 ≠ none ∧ Smooth (step st (o, rnd, .op a)).1 hs
  | h :: hs => Smooth (step st h).1 hs

/-- What a switch does with a packet and a list of actions: the packet is sent through the socket of the port named, for each
output action. -/
def forwards (st : St) (actions : List Action) (data : Bytes) : List Eff :=
  actions.filterMap fun
    | .output _ _ port _ => ((st.ports.lookup port).bind (·.sock)).map fun s => .out s data
    | _ => none

/-- The type of the reply a request asks for; `none` for other messages.  Of the multipart requests those for the description of
the switch, for flows, and for ports are supported. -/
def replyType (m : Bytes) : Option Nat :=
  if u8 m 1 = 5 then some 6
  else if u8 m 1 = 7 then some 8
  else if u8 m 1 = 24 then some 25
  else if u8 m 1 = 18 ∧ (u16 m 8 = 0 ∨ u16 m 8 = 1 ∨ u16 m 8 = 13) then some 19
  else none

/-- `r` is a reply of type `t` to the message `m`: it has a header, which says version 1.3, the type, the number of bytes, and the id of `m`; a
multipart reply has the multipart type of the request. -/
def Replies (m : Bytes) (t : Nat) (r : Bytes) : Prop :=
  8 ≤ r.length ∧ u8 r 0 = 4 ∧ u8 r 1 = t ∧ u16 r 2 = r.length ∧ u32 r 4 = u32 m 4 ∧ (t = 19 → u16 r 8 = u16 m 8)

end Twink.Agent
