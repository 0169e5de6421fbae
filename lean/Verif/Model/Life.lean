import Verif.Model.Session

/-!
# The life of the software switch, bess_of_agent.py L188-211, L218-254, L298-306

The agent connects to the controller, then the thread `Switch Loop` handles what the controller sends, and the main thread serves the calls of the port manager,
which tell the controller of the ports through the same channel.  Simplified: a handler or a call of the port manager runs as a whole (for their interleaving see
Model/Race.lean); a send either writes the whole message or, when the connection is broken, raises; the frames are given (see Model/Framing.lean).
Not modelled: signals (`cleanup`), the thread that prints, an exception in `zerorpc`.
-/

namespace Twink.Life
open Session

/-- The main thread: it is trying to connect (L298-299), serves the port manager (L306), or has died of an exception. -/
inductive Phase where
  | trying | serving | dead
  deriving DecidableEq, Repr

/-- The connection: the loop runs; the loop has ended, but the socket is open and takes what is sent; or sends raise `socket.error`. -/
inductive Link where
  | live | deaf | broken
  deriving DecidableEq, Repr

/-- The agent: `calls` are the results of the calls of the port manager. -/
structure St where
  phase : Phase
  link : Link
  sess : Sess Agent.St
  calls : List (Py Agent.Ret)

/-- How `of_agent_start` ends: `ECONNREFUSED` (L197-198); another `socket.error` (L196), or one raised while the hello is sent (L206), which nothing catches; or the
loop is started (L209-211). -/
inductive Dial where
  | refused | failed | connected
  deriving DecidableEq, Repr

/-- What happens.  `xid` is what `hms_xid()` returns, `rnd` the random ids, `o` the order of the dictionaries. -/
inductive Op where
  | dial (d : Dial) (xid : Nat)
  | message (o : Agent.Order) (rnd xid : Nat) (m : Bytes)
  | hangup
  | cut
  | call (o : Agent.Order) (rnd : Nat) (op : Agent.Op)

/-- What the agent sends. -/
def sends (es : List Agent.Eff) : List Bytes := es.filterMap (fun | .send m => some m | .out .. => none)

/-- One message on the thread of the loop, `[]` is what a frame of length 0 gives: the loop ends at it.  At `ChannelClose` the channel is closed, at any other exception the
thread ends and the socket stays open, as `channel` (L207) refers to it. base.py L316-326, L106-111 -/
def receive (o : Agent.Order) (rnd xid : Nat) (s : St) (m : Bytes) : St :=
  if m = [] then { s with link := .deaf }
  else
    match message (.seq [.int 4]) xid (agentHandle o rnd) s.sess m with
    | (t, .ok ()) => { s with sess := t }
    | (t, .error .channelClose) => { s with sess := t, link := .broken }
    | (t, .error _) => { s with sess := t, link := .deaf }

/-- A call of the port manager while the socket takes what is sent. bess_of_agent.py L218-254 -/
def call (o : Agent.Order) (rnd : Nat) (s : St) (op : Agent.Op) : St :=
  match Agent.portOp o rnd s.sess.user op with
  | (u, es, r) => { s with sess := { s.sess with user := u, sent := s.sess.sent ++ sends es }, calls := s.calls ++ [r] }

/-- A call of the port manager while `channel.send` raises.  `add_port` has put the port into the table when it sends (L227, L231), `del_port` sends before it
does anything else (L243, L248-250). -/
def callBroken (o : Agent.Order) (rnd : Nat) (s : St) (op : Agent.Op) : St :=
  match op with
  | .add dev mac created sock =>
    match Agent.addPort rnd s.sess.user dev mac created sock with
    | (u, [], r) => { s with sess := { s.sess with user := u }, calls := s.calls ++ [r] }
    | (u, _ :: _, _) => { s with sess := { s.sess with user := u }, calls := s.calls ++ [.error .other] }
  | .del dev destroyed =>
    match Agent.delPort o rnd s.sess.user dev destroyed with
    | (u, [], r) => { s with sess := { s.sess with user := u }, calls := s.calls ++ [r] }
    | (_, _ :: _, _) => { s with calls := s.calls ++ [.error .other] }

/-- One step.  A step that cannot happen in the state changes nothing.  `hangup`: the controller has closed its side, or the read of the thread failed with `EAGAIN`,
`ECONNRESET` or `EBADF`: `recv` returns nothing, and the loop ends (base.py L30-45, L159-160, L170-171, L319-321).  `cut`: from now on sends raise. -/
def step (s : St) : Op → St
  | .dial d xid =>
    match s.phase, d with
    | .trying, .failed => { s with phase := .dead }
    | .trying, .connected =>
      match hello (.seq [.int 4]) xid with
      | .ok b => { s with phase := .serving, link := .live, sess := { s.sess with sent := s.sess.sent ++ [b] } }
      | .error _ => { s with phase := .dead }
    | _, _ => s
  | .message o rnd xid m => if s.phase = .serving ∧ s.link = .live then receive o rnd xid s m else s
  | .hangup => if s.phase = .serving ∧ s.link = .live then { s with link := .deaf } else s
  | .cut => if s.phase = .serving then { s with link := .broken } else s
  | .call o rnd op =>
    if s.phase = .serving then if s.link = .broken then callBroken o rnd s op else call o rnd s op
    else s

/-- Steps one after another. -/
def runs (s : St) (ops : List Op) : St := ops.foldl step s

/-- The agent before its first attempt, `channel` is not set yet; `u` are the tables of the start. bess_of_agent.py L275-298 -/
def init (u : Agent.St) : St := ⟨.trying, .deaf, ⟨none, [], u⟩, []⟩

end Twink.Life
