import Verif.Model.Ovs

/-!
# `rule2ofp`, twink/ovs.py L11-45, with its server and the processes of `ovs-ofctl`

The caller's thread, the thread of `spawn(serv.start)` (L27), the thread of `StreamServer.run` (base.py L625-637), that of the connection and the running
`ovs-ofctl` move independently of each other.

Assumed of `ovs-ofctl add-flow`: for a rule it does not understand it exits with an error; else it connects (exits with an error if nobody listens), sends its hello, the messages for the rule
and a barrier request, and exits without error when it has got the reply to that.
Simplifications: the version is agreed on (both sides offer the same one), writes do not fail, a connection that has been made ends only when `ovs-ofctl` exits.
-/

namespace Twink.Rule2
open Ovs

/-- A rule: its text, and the messages that `ovs-ofctl` makes of it with the id of the barrier that follows them; `none` if it does not understand the rule. -/
structure Rule where
  text : Str
  mods : Option (List Bytes × Nat)
  deriving DecidableEq

/-- `serv.start()` in its thread. base.py L618-623 -/
inductive Starter where
  | fresh                  -- before `self.accepting = True`
  | flagged                -- before `sock.listen(10)`
  | listened               -- before `sched.spawn(self.run)`
  | done
  deriving DecidableEq

/-- `serv.run()`. base.py L625-637 -/
inductive Runner where
  | none                   -- no thread yet
  | top                    -- before `while self.accepting`
  | accept                 -- in `self.sock.accept()`
  | ended                  -- after `self.sock.close()`
  deriving DecidableEq

/-- A running `ovs-ofctl` and its connection. -/
inductive Client where
  | connecting
  | queued                                                    -- connected, not yet accepted
  | accepted (toServer : List Bytes) (toClient : List Bytes)  -- messages on the way
  deriving DecidableEq

/-- The caller's thread. twink/ovs.py L29-42 -/
inductive Main where
  | loop (todo : List Rule)                      -- before the next round of `for rule in rules`
  | busy (rule : Rule) (todo : List Rule) (c : Client)   -- in `check_output`
  | stop (e : Option Err)                        -- in `finally`, before `serv.stop()`
  | join (e : Option Err)                        -- before `th.join()`
  | ended (r : Py (List Bytes))                  -- returned or raised
  deriving DecidableEq

structure St where
  version : Nat
  accepting : Bool
  listening : Bool
  starter : Starter
  runner : Runner
  main : Main
  results : List Bytes
  cmds : List (List Str)

/-- `"OpenFlow1%d" % (version-1)` for the versions 1 to 10. twink/ovs.py L32 -/
def proto (version : Nat) : Str := "OpenFlow1".toList ++ [Nat.digitChar (version - 1)]

/-- The command. twink/ovs.py L31-35; `addr` stands for `"tcp:%s:%d" % serv.server_address`. -/
def command (version : Nat) (addr text : Str) : List Str :=
  ["ovs-ofctl".toList, "-O".toList, proto version, "add-flow".toList, addr, text]

/-- Hello of `ovs-ofctl` (OpenFlow 1.0 to 1.4: at least a header). -/
def helloMsg (version : Nat) : Bytes := [UInt8.ofNat version, 0, 0, 8, 0, 0, 0, 1]

/-- Its barrier request. -/
def barrierReq (version x : Nat) : Bytes :=
  [UInt8.ofNat version, if version = 1 then 18 else 20, 0, 8] ++ encBE 4 x

/-- The reply it waits for. -/
def barrierRep (version x : Nat) : Bytes :=
  [UInt8.ofNat version, if version = 1 then 19 else 21, 0, 8] ++ encBE 4 x

/-- What it sends. -/
def script (version : Nat) (mods : List Bytes) (x : Nat) : List Bytes := helloMsg version :: (mods ++ [barrierReq version x])

/-- Who moves. `run timeout`: `accept` of the runner times out, or takes a connection if there is one. -/
inductive Op where
  | main
  | starter
  | run (timeout : Bool)
  | client
  | serve
  deriving DecidableEq

/-- The caller's thread moves. twink/ovs.py L29-42, base.py L654-657 -/
def mainStep (addr : Str) (s : St) : St :=
  match s.main with
  | .loop [] => { s with main := .stop none }
  | .loop (r :: todo) => { s with main := .busy r todo .connecting, cmds := s.cmds ++ [command s.version addr r.text] }
  | .busy .. => s
  | .stop e => { s with accepting := false, main := .join e }
  | .join e =>
    if s.starter = .done then
      { s with main := .ended (match e with | none => .ok s.results | some e => .error e) }
    else s
  | .ended _ => s

/-- The thread of `serv.start` moves. -/
def startStep (s : St) : St :=
  match s.starter with
  | .fresh => { s with accepting := true, starter := .flagged }
  | .flagged => { s with listening := true, starter := .listened }
  | .listened => { s with runner := .top, starter := .done }
  | .done => s

/-- The thread of `serv.run` moves; an accepted connection has everything that `ovs-ofctl` has sent on the way. -/
def runStep (s : St) (timeout : Bool) : St :=
  match s.runner with
  | .none => s
  | .top => if s.accepting then { s with runner := .accept } else { s with runner := .ended, listening := false }
  | .accept =>
    if timeout then { s with runner := .top }
    else
      match s.main with
      | .busy r todo .queued =>
        match r.mods with
        | some (mods, x) => { s with runner := .top, main := .busy r todo (.accepted (script s.version mods x) []) }
        | none => s
      | _ => s
  | .ended => s

/-- `ovs-ofctl` moves. `check_output` raises CalledProcessError (`other`) if it exits with an error. -/
def clientStep (s : St) : St :=
  match s.main with
  | .busy r todo .connecting =>
    match r.mods with
    | none => { s with main := .stop (some .other) }
    | some _ => if s.listening then { s with main := .busy r todo .queued } else { s with main := .stop (some .other) }
  | .busy r todo (.accepted _ toClient) =>
    match r.mods with
    | some (_, x) => if barrierRep s.version x ∈ toClient then { s with main := .loop todo } else s
    | none => s
  | _ => s

/-- The thread of the connection handles the next message. twink/ovs.py L14-21 -/
def serveStep (s : St) : St :=
  match s.main with
  | .busy r todo (.accepted (m :: toServer) toClient) =>
    match ruleHandle s.results m with
    | .ok (out, results) => { s with results := results, main := .busy r todo (.accepted toServer (toClient ++ out)) }
    | .error _ => s
  | _ => s

def step (addr : Str) (s : St) : Op → St
  | .main => mainStep addr s
  | .starter => startStep s
  | .run timeout => runStep s timeout
  | .client => clientStep s
  | .serve => serveStep s

def runs (addr : Str) (s : St) : List Op → St
  | [] => s
  | op :: ops => runs addr (step addr s op) ops

/-- After L27. -/
def init (version : Nat) (rules : List Rule) : St := ⟨version, false, false, .fresh, .none, .loop rules, [], []⟩

end Twink.Rule2
