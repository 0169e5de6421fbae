import Verif.Model.Sync
import Verif.Model.Session

/-!
# A controller and a switch on one connection

The controller is a `SyncChannel` (base.py L829-929, `Verif/Model/Sync.lean`) with any number of threads in `send_sync` and `multi`; the switch is a class made of
`AutoEchoChannel` and a handler with `accept_versions = [4]` (test/example_switch.py L49-60, bess_of_agent.py L198-210, `Verif/Model/Session.lean`).  Between them there
are two queues of messages: the transport delivers whole messages in order (C01 to C04 say that the framing does this).  Both sides have said hello and agreed on 1.3.
All sides move independently of each other.
Not modelled: the end of the connection as the controller sees it, and writes that fail on the side of the switch.
-/

namespace Twink.Wired
open Session

/-- Both sides. `up` and `down` are the messages on the way to the switch and to the controller; `alive` says that the loop of the switch still runs.  Ghost: `log`
has the messages handled by the switch, each with what was sent while it was handled. -/
structure Net (σ : Type) where
  ctl : SyncSt
  up : List Bytes
  sw : Sess σ
  alive : Bool
  down : List Bytes
  log : List (Bytes × List Bytes)

/-- Steps of the whole: any step of the controller except `recv`, which needs a message on the way; the switch handles the next message (`xid` is what `hms_xid()` returns if
it is called); another thread of the switch sends messages and changes the state (the ports of the agent, bess_of_agent.py L212-300); the controller receives the next message. -/
inductive NOp (σ : Type) where
  | ctl (op : SyncOp)
  | switch (xid : Nat)
  | own (u : σ) (bs : List Bytes)
  | deliver

/-- Did the handler return? -/
def returned : Py Unit → Bool
  | .ok _ => true
  | .error _ => false

/-- One step. The loop of the switch (base.py L316-326) ends when an exception leaves the handler. -/
def step (h : Handle σ) (n : Net σ) : NOp σ → Net σ
  | .ctl (.recv _) => n
  | .ctl op =>
    let c := syncOp n.ctl op
    { n with ctl := c, up := n.up ++ (c.sent.drop n.ctl.sent.length).map (·.1) }
  | .switch xid =>
    if n.alive then
      match n.up with
      | [] => n
      | m :: up =>
        let r := message (.seq [.int 4]) xid h n.sw m
        let out := r.1.sent.drop n.sw.sent.length
        { n with up := up, sw := r.1, alive := returned r.2, down := n.down ++ out, log := n.log ++ [(m, out)] }
    else n
  | .own u bs =>
    if n.alive then { n with sw := { n.sw with user := u, sent := n.sw.sent ++ bs }, down := n.down ++ bs } else n
  | .deliver =>
    match n.ctl.rpc, n.down with
    | .idle, m :: down => { n with ctl := syncOp n.ctl (.recv m), down := down }
    | _, _ => n

def run (h : Handle σ) (n : Net σ) : List (NOp σ) → Net σ
  | [] => n
  | op :: ops => run h (step h n op) ops

/-- After the handshake (C92, C93). -/
def start (u : σ) : Net σ := ⟨freshSync (some 4), [], ⟨some 4, [], u⟩, true, [], []⟩

end Twink.Wired
