import Verif.Model.Server
import Verif.Model.Agent
import Verif.Model.Oxm

/-!
# A whole connection of a switch

Models `test/example_switch.py` L1-60 and the channel of `bess_of_agent.py` L198-205 from the reads of the transport to the messages sent: a class made of
`AutoEchoChannel` and `LoggingChannel` with `accept_versions = [4]` and a function `switch_proc` as `handle`.  The layers are those of the other modules:
`recv` (framing), `ofRecv` (negotiation), `AutoEchoChannel.handle_proxy`, `OpenflowServerChannel.loop`.
Not modelled: logging (C83), partial writes (C68), and what becomes of the connection after an exception (C63 to C65).
-/

namespace Twink.Session

/-- A function given as `handle`: its state, what it has sent, and whether it has raised. -/
abbrev Handle (σ : Type) := σ → Bytes → σ × List Bytes × Py Unit

/-- The channel: the version agreed upon, everything sent, the state of the handler. -/
structure Sess (σ : Type) where
  version : Option Nat
  sent : List Bytes
  user : σ
  deriving DecidableEq, Repr

/-- `AutoEchoChannel.handle_proxy(handle)(message, self)`; as `autoEcho`, with one list of what is sent. base.py L335-346 -/
def intercept (h : Handle σ) (s : Sess σ) (m : Bytes) : Sess σ × Py Unit :=
  match parseHeader m with
  | .error e => (s, .error e)
  | .ok (_, oftype, length, xid) =>
    if oftype = 2 then
      match s.version with
      | none => (s, .error .structError)
      | some v =>
        match pack hdrFmt [.int v, .int 3, .int length, .int xid] with
        | .error e => (s, .error e)
        | .ok hdr => ({ s with sent := s.sent ++ [hdr ++ m.drop 8] }, .ok ())
    else
      let r := h s.user m
      ({ s with user := r.1, sent := s.sent ++ r.2.1 }, r.2.2)

/-- One message: `OpenflowChannel.recv` above the framing, then the handler; `xid` is what `hms_xid()` returns. base.py L220-237, L316-326 -/
def message (accept : PyVers) (xid : Nat) (h : Handle σ) (s : Sess σ) (m : Bytes) : Sess σ × Py Unit :=
  match ofRecv accept xid ⟨s.version, s.sent⟩ m with
  | (t, .error e) => ({ s with version := t.version, sent := t.sent }, .error e)
  | (t, .ok m) => intercept h { s with version := t.version, sent := t.sent } m

/-- `OpenflowServerChannel.loop`, at most `n` rounds, on a buffer and what the reads of the transport return. base.py L145-176, L316-326 -/
def loop (accept : PyVers) (xid : Nat) (h : Handle σ) : Nat → Sess σ → Bytes → List Ev → Sess σ × LoopExit
  | 0, s, _, _ => (s, .waiting)
  | n + 1, s, buf, evs =>
    match recv buf evs with
    | .blocked _ => (s, .waiting)
    | .raised .channelClose _ _ => (s, .closed)
    | .raised e _ _ => (s, .raised e)
    | .ret [] _ _ => (s, .finished)
    | .ret (x :: m) buf evs =>
      match message accept xid h s (x :: m) with
      | (s, .ok ()) => loop accept xid h n s buf evs
      | (s, .error .channelClose) => (s, .closed)
      | (s, .error e) => (s, .raised e)

/-- `ch.attach(s)`, which says hello, then `ch.loop()`: everything sent, and how the loop has ended.
base.py L210-218; example_switch.py L49-60, bess_of_agent.py L198-210 -/
def connection (accept : PyVers) (xid : Nat) (h : Handle σ) (user : σ) (n : Nat) (evs : List Ev) : Sess σ × LoopExit :=
  match hello accept xid with
  | .error e => (⟨none, [], user⟩, .raised e)
  | .ok b => loop accept xid h n ⟨none, [b], user⟩ [] evs

open Of13 Agent in
/-- The body of the reply about flows. example_switch.py L18-27.  `OFPCML_MAX` is 0xffe5; the address has four bytes. -/
def exFlows : Py Body := do
  let inPort ← Oxm.build none 0 false (.int 222) none
  let ethSrc ← Oxm.build none 4 false (.str [0x00, 0x11, 0x22, 0x33]) none
  let mt ← buildMatch ⟨none, none, .raw (inPort ++ ethSrc)⟩
  let act ← buildAction (.output none none 1111 0xffe5)
  let ins ← buildInstr (.actions (some 4) none (.items [.raw act]))
  .ok (.many [.raw (← buildRec (.flowStats none 0 10 20 30 40 50 0 1 2 3 (.raw mt) (.items [.raw ins])))])

open Of13 Agent in
/-- `switch_proc(message, channel)`: the messages sent. example_switch.py L11-27 -/
def exProc (rnd : Nat) (m : Bytes) : Py (List Bytes) := do
  let msg ← parse m 0
  let x := (hdrOf msg).xid
  if (hdrOf msg).type = 5 then
    .ok [← buildFeatures rnd (← replyHdr rnd 6 x) 1 2 3 0 0xf]
  else if (hdrOf msg).type = 7 then
    .ok [← buildConfig rnd (← replyHdr rnd 8 x) 0 (some 0xffe5)]
  else if (hdrOf msg).type = 18 then
    match msg with
    | .mpRequest _ type _ _ =>
      if type = 1 then do .ok [← buildMpReply rnd (← replyHdr rnd 19 x) type 0 (← exFlows)] else .ok []
    | _ => .error .attributeError
  else .ok []

/-- The handler of the example. -/
def exHandle (rnd : Nat) : Handle Unit := fun _ m =>
  match exProc rnd m with
  | .ok bs => ((), bs, .ok ())
  | .error e => ((), [], .error e)

open Agent in
/-- The handler of the agent, `switch_proc` of bess_of_agent.py. -/
def agentHandle (o : Order) (rnd : Nat) : Handle St := fun st m =>
  match switchProc o rnd st m with
  | .ok (st', es) => (st', es.filterMap (fun | .send m => some m | .out .. => none), .ok ())
  | .error e => (st, [], .error e)

end Twink.Session
