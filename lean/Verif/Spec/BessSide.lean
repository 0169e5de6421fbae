import Verif.Model.BessSide

/-!
# Specification of what the software switch does to its datapath

Histories of the switch with its daemon: calls of the port manager and messages from the controller, in any order, each with
the answers of the daemon.  Where a packet given to a socket leaves.
-/

namespace Twink.BessSide

/-- Something that happens: the answers are those of the daemon to the calls it leads to. -/
inductive Act where
  | add (rnd : Nat) (dev mac : Bytes) (ans : List (Option Exn))
  | del (o : Agent.Order) (rnd : Nat) (dev : Bytes) (ans : List (Option Exn))
  | msg (o : Agent.Order) (rnd : Nat) (m : Bytes)

/-- The calls it leads to, and the daemon and the switch afterwards. -/
def act (b : Bess) (st : Agent.St) : Act → World × Agent.St
  | .add rnd dev mac ans => let r := addPort rnd ⟨b, ans, []⟩ st dev mac; (r.1, r.2.1)
  | .del o rnd dev ans => let r := delPort o rnd ⟨b, ans, []⟩ st dev; (r.1, r.2.1)
  | .msg o rnd m =>
    match Agent.switchProc o rnd st m with
    | .ok (st', _) => (⟨b, [], []⟩, st')
    | .error _ => (⟨b, [], []⟩, st)

/-- The daemon and the switch after a history. -/
def after (b : Bess) (st : Agent.St) : List Act → Bess × Agent.St
  | [] => (b, st)
  | a :: as => after (act b st a).1.bess (act b st a).2 as

/-- All calls made in a history, with what they raised. -/
def calls (b : Bess) (st : Agent.St) : List Act → List (Call × Option Exn)
  | [] => []
  | a :: as => (act b st a).1.log ++ calls (act b st a).1.bess (act b st a).2 as

/-- A packet sent on the socket leaves the datapath at this device: it arrives at the port the socket is connected to, is taken in
there by a module, handed to the next module, and put out. -/
def Leaves (b : Bess) (sock : Nat) (dev : Name) : Prop :=
  ∃ q m m', (sock, q) ∈ b.socks ∧ ⟨true, m, q⟩ ∈ b.mods ∧ (m, m') ∈ b.links ∧ ⟨false, m', dev⟩ ∈ b.mods

/-- A daemon just started, its workers running or not. -/
def new (r : Bool) : Bess := ⟨r, [], [], [], [], 0⟩

/-- The names of the ports listed from the start. -/
def given : List Name := [brInt, vxlan, dpif]

/-- A name for a device that is none of those given and does not look like the name of an auxiliary port. -/
def Plain (dev : Name) : Prop := dev ∉ given ∧ ∀ n, dev ≠ pkt n

/-- Devices added have plain names, and nothing fails when a device is deleted. -/
def Careful : Act → Prop
  | .add _ dev _ _ => Plain dev
  | .del _ _ _ ans => ∀ a ∈ ans, a = none
  | .msg .. => True

/-- Ports used by modules exist, links join modules, sockets are connected to ports. -/
structure Sound (b : Bess) : Prop where
  mods : ∀ m ∈ b.mods, m.port ∈ b.ports
  links : ∀ l ∈ b.links, (∃ m ∈ b.mods, m.name = l.1) ∧ ∃ m ∈ b.mods, m.name = l.2
  socks : ∀ s ∈ b.socks, s.2 ∈ b.ports

/-- The name is in use: as a port, or one of the things made for it is there. -/
def InUse (b : Bess) (dev : Name) : Prop :=
  dev ∈ b.ports ∨ pkt dev ∈ b.ports ∨ ∃ m ∈ b.mods, m.name = pi dev ∨ m.name = po dev

/-- Nothing but messages and calls about this device. -/
def Only (dev : Name) : Act → Prop
  | .add _ d _ _ => d = dev
  | .del _ _ d _ => d = dev
  | .msg .. => True

/-- The failures that the functions handle: errors of the daemon where ports and modules are removed or a port is created,
a socket that cannot be connected, and anything when the workers are to be paused. -/
def Handled : Call × Option Exn → Prop
  | (_, none) => True
  | (.createPort _, some e) => e ≠ .other
  | (.connectSocket _, some e) => e ≠ .other
  | (.pauseAll, some _) => True
  | (.disconnect _, some e) => e = .api
  | (.destroyModule _, some e) => e = .api
  | (.destroyPort _, some e) => e = .api
  | (_, some _) => False

end Twink.BessSide
