import Verif.Model.Agent

/-!
# The software switch and its datapath: bess_of_agent.py L60-119, L214-254, L273-296

The functions that drive the BESS daemon, call by call.  A call of the daemon (or `s.connect`, L86) is carried out or raises;
which, is decided by the list of answers (`none`: no objection; an empty list raises no objection) and by `possible`, what
every daemon refuses.  A call that raises has changed nothing: that is an assumption about the daemon.  The daemon is kept as
far as these calls change it: ports, modules, links between modules, whether the workers run, and the sockets connected to its
ports.  Not modelled: the arguments `{'path': …}` and gates (always 0), printing, threads.
-/

namespace Twink.BessSide

abbrev Name := Bytes

/-- A module: `PortInc` (takes in what arrives at its port) or `PortOut`. -/
structure Mod where
  inc : Bool
  name : Name
  port : Name
  deriving DecidableEq, Repr

/-- The daemon. -/
structure Bess where
  running : Bool
  ports : List Name
  mods : List Mod
  links : List (Name × Name)
  socks : List (Nat × Name)
  nextSock : Nat
  deriving DecidableEq, Repr

/-- The calls of bess_of_agent.py L60-119, L224, L249. -/
inductive Call where
  | pauseAll
  | resumeAll
  | createPort (n : Name)
  | destroyPort (n : Name)
  | createModule (m : Mod)
  | destroyModule (m : Name)
  | connectModules (a b : Name)
  | disconnect (a : Name)
  | connectSocket (n : Name)
  deriving DecidableEq, Repr

/-- `bess.APIError` or `bess.Error`; `socket.error`; anything else. -/
inductive Exn where
  | api
  | sock
  | other
  deriving DecidableEq, Repr

/-- What the daemon can do: names are unique, ports and modules must exist, a port with modules is not destroyed. -/
def possible (b : Bess) : Call → Bool
  | .pauseAll => true
  | .resumeAll => true
  | .createPort n => !b.ports.contains n
  | .destroyPort n => b.ports.contains n && !b.mods.any (·.port == n)
  | .createModule m => b.ports.contains m.port && !b.mods.any (·.name == m.name)
  | .destroyModule m => b.mods.any (·.name == m)
  | .connectModules x y => b.mods.any (·.name == x) && b.mods.any (·.name == y)
  | .disconnect x => b.mods.any (·.name == x)
  | .connectSocket n => b.ports.contains n

/-- What a call changes. -/
def effect (b : Bess) : Call → Bess
  | .pauseAll => { b with running := false }
  | .resumeAll => { b with running := true }
  | .createPort n => { b with ports := b.ports ++ [n] }
  | .destroyPort n => { b with ports := b.ports.filter (· != n), socks := b.socks.filter (·.2 != n) }
  | .createModule m => { b with mods := b.mods ++ [m] }
  | .destroyModule m => { b with mods := b.mods.filter (·.name != m), links := b.links.filter (fun l => l.1 != m && l.2 != m) }
  | .connectModules x y => { b with links := b.links ++ [(x, y)] }
  | .disconnect x => { b with links := b.links.filter (·.1 != x) }
  | .connectSocket n => { b with socks := b.socks ++ [(b.nextSock, n)], nextSock := b.nextSock + 1 }

/-- What is raised when the daemon cannot do it: no one listens at the socket, or an error of the daemon. -/
def refusal : Call → Exn
  | .connectSocket _ => .sock
  | _ => .api

/-- The daemon, the answers to come, and the calls made with the exceptions raised. -/
structure World where
  bess : Bess
  ans : List (Option Exn)
  log : List (Call × Option Exn)
  deriving DecidableEq, Repr

/-- One call. -/
def call (w : World) (c : Call) : World × Option Exn :=
  match w.ans.head? with
  | some (some e) => (⟨w.bess, w.ans.tail, w.log ++ [(c, some e)]⟩, some e)
  | _ =>
    if possible w.bess c then (⟨effect w.bess c, w.ans.tail, w.log ++ [(c, none)]⟩, none)
    else (⟨w.bess, w.ans.tail, w.log ++ [(c, some (refusal c))]⟩, some (refusal c))

/-- Statements one after another, up to the first exception. -/
def run (w : World) : List Call → World × Option Exn
  | [] => (w, none)
  | c :: cs =>
    match call w c with
    | (w', some e) => (w', some e)
    | (w', none) => run w' cs

/-- The texts 'br-int', 'vxlan', 'dpif'. bess_of_agent.py L20, L31-33 -/
def brInt : Name := [98, 114, 45, 105, 110, 116]
def vxlan : Name := [118, 120, 108, 97, 110]
def dpif : Name := [100, 112, 105, 102]

/-- `PKTINOUT_NAME % name`, 'pktinout_%s'. bess_of_agent.py L72 -/
def pkt (name : Name) : Name := [112, 107, 116, 105, 110, 111, 117, 116, 95] ++ name

/-- `'PI_' + PKTINOUT_NAME % name` -/
def pi (name : Name) : Name := [80, 73, 95] ++ pkt name

/-- `'PO_' + name` -/
def po (name : Name) : Name := [80, 79, 95] ++ name

/-- The body of the `try` in `init_pktinout_port`. bess_of_agent.py L83-86 -/
def initTry (name : Name) : List Call := [.pauseAll, .createPort (pkt name), .connectSocket (pkt name)]

/-- The `else`. bess_of_agent.py L93-97 -/
def initElse (name : Name) : List Call :=
  (if name = vxlan then []
   else [.createModule ⟨true, pi name, pkt name⟩, .createModule ⟨false, po name, name⟩, .connectModules (pi name) (po name)]) ++
  [.resumeAll]

/-- `init_pktinout_port`, the socket it returns. bess_of_agent.py L76-98 -/
def initPkt (w : World) (name : Name) : World × Except Exn (Option Nat) :=
  if name = brInt then (w, .ok none)
  else
    match run w (initTry name) with
    | (w1, some .other) => (w1, .error .other)
    | (w1, some _) =>
      match call w1 .resumeAll with
      | (w2, some e) => (w2, .error e)
      | (w2, none) => (w2, .ok none)
    | (w1, none) =>
      match run w1 (initElse name) with
      | (w2, some e) => (w2, .error e)
      | (w2, none) => (w2, .ok (some (w1.bess.nextSock - 1)))

/-- The body of the `try` in `deinit_pktinout_port`. bess_of_agent.py L108-115 -/
def deinitTry (name : Name) : List Call :=
  [.pauseAll] ++
  (if name = vxlan then []
   else [.disconnect (pi name), .destroyModule (pi name), .destroyModule (po name), .destroyPort (pkt name)]) ++
  [.resumeAll]

/-- `deinit_pktinout_port`, the exception it raises. bess_of_agent.py L101-119 -/
def deinitPkt (w : World) (name : Name) : World × Option Exn :=
  if name = brInt then (w, none)
  else
    match run w (deinitTry name) with
    | (w1, some .api) => call w1 .resumeAll
    | (w1, r) => (w1, r)

/-- `PortManager.add_port`: the calls; what it keeps and sends is `Agent.addPort`. bess_of_agent.py L218-237 -/
def addPort (rnd : Nat) (w : World) (st : Agent.St) (dev mac : Bytes) : World × Agent.St × List Agent.Eff × Py Agent.Ret :=
  if st.lastNo + 1 = 0xfffffffe then (w, Agent.addPort rnd st dev mac true (some none))
  else
    match call w (.createPort dev) with
    | (w1, some _) => (w1, Agent.addPort rnd st dev mac false none)
    | (w1, none) =>
      match initPkt w1 dev with
      | (w2, .error _) => (w2, Agent.addPort rnd st dev mac true none)
      | (w2, .ok s) => (w2, Agent.addPort rnd st dev mac true (some s))

/-- `PortManager.del_port`: the calls; what it keeps and sends is `Agent.delPort`. bess_of_agent.py L239-254 -/
def delPort (o : Agent.Order) (rnd : Nat) (w : World) (st : Agent.St) (dev : Bytes) :
    World × Agent.St × List Agent.Eff × Py Agent.Ret :=
  match (o.items st.ports).find? (fun p => p.2.desc.name = .str dev) with
  | none => (w, Agent.delPort o rnd st dev true)
  | some (_, p) =>
    match Agent.statusMsg rnd 1 p.desc with
    | .error _ => (w, Agent.delPort o rnd st dev true)
    | .ok _ =>
      match deinitPkt w dev with
      | (w1, some _) => (w1, Agent.delPort o rnd st dev false)
      | (w1, none) =>
        match call w1 (.destroyPort dev) with
        | (w2, some _) => (w2, Agent.delPort o rnd st dev false)
        | (w2, none) => (w2, Agent.delPort o rnd st dev true)

/-- `init_phy_port(dp, 'dpif', 0)`: `false` if it raised. bess_of_agent.py L60-69 -/
def initPhy (w : World) : World × Bool :=
  match run w [.createPort dpif, .resumeAll] with
  | (w1, some .api) => (w1, true)
  | (w1, some _) => (w1, false)
  | (w1, none) => (w1, true)

/-- The name of an entry of `of_ports`. -/
def nameOf (p : Agent.OfPort) : Name := match p.desc.name with | .str n => n | .uni n => n

/-- The loop over `of_ports` at the start; `none` if it raised. bess_of_agent.py L293-296 -/
def setupLoop (w : World) (st : Agent.St) : List (Nat × Agent.OfPort) → World × Option Agent.St
  | [] => (w, some st)
  | (no, p) :: es =>
    match initPkt w (nameOf p) with
    | (w1, .error _) => (w1, none)
    | (w1, .ok s) => setupLoop w1 { st with ports := Agent.put st.ports no { p with sock := s } } es

/-- The main program up to the first connection, with a daemon in any state; `none` if it raised. bess_of_agent.py L275-296 -/
def setup (o : Agent.Order) (w : World) : World × Option Agent.St :=
  match call w .resumeAll with
  | (w1, some _) => (w1, none)
  | (w1, none) =>
    match initPhy w1 with
    | (w2, false) => (w2, none)
    | (w2, true) => setupLoop w2 (Agent.start none none) (o.items (Agent.start none none).ports)

end Twink.BessSide
