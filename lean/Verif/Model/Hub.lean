import Verif.Py

/-!
The switching hub of test/example_controller_switchinghub.py together with the two flow tables of its switch.

`handle` and `handle_async` run in threads of their own (`ParallelChannel.handle_proxy`, twink/base.py L537-559), so that the handlers of several messages
interleave: one step is one call of `ofctl`.  What the switch does with the flow entries (OpenFlow 1.3 as in Open vSwitch): the entry of highest priority counts,
a packet that no entry matches is dropped, an entry with the same match and priority is replaced, a group of type all sends to the port of every bucket, but
no packet leaves by the port it came from; entries with `idle_timeout` vanish at some time.
-/

namespace Twink.Hub

/-- A frame that reaches the switch. -/
structure Frame where
  dst : Bytes
  src : Bytes
  more : Bytes
  inPort : Nat
  deriving DecidableEq, Repr

def Frame.data (f : Frame) : Bytes := f.dst ++ (f.src ++ f.more)

/-- `dl_dst=01:00:00:00:00:00/01:00:00:00:00:00`: broadcast and multicast. -/
def multicast (m : Bytes) : Bool :=
  match m with
  | b :: _ => b.toNat % 2 == 1
  | [] => false

/-- A thread in `handle_async` (L19-32): what it has got from the PACKET_IN, and how many of its calls are done. -/
structure Task where
  mac : Bytes
  port : Nat
  done : Nat
  deriving DecidableEq, Repr

/-- Tables of the switch and state of the channel. `stage`: calls done by `handle` (L34-41): 1 the group, 2 the entry of table 0, 3 the entry for multicast, 4 the
last entry of table 1, 5 `init` is set. -/
structure Hub where
  stage : Nat
  group : List Nat
  t0 : List (Bytes × Nat)
  t1 : List (Bytes × Nat)
  tasks : List Task
  deriving DecidableEq, Repr

/-- Before HELLO. -/
def start : Hub := ⟨0, [], [], [], []⟩

/-- L36-41: the next call of `handle`. `ports` is what `self.ports` gives. -/
def Hub.setup (s : Hub) (ports : List Nat) : Hub :=
  match s.stage with
  | 0 => { s with stage := 1, group := ports }
  | 1 => { s with stage := 2 }
  | 2 => { s with stage := 3 }
  | 3 => { s with stage := 4 }
  | 4 => { s with stage := 5 }
  | _ => s

/-- Group 1. -/
def Hub.flood (s : Hub) (f : Frame) : List Nat := if s.stage < 1 then [] else s.group.filter (· ≠ f.inPort)

/-- Table 1: priority 3 for multicast (L39), 2 for what has been learnt (L29), 1 for the rest (L40). -/
def Hub.table1 (s : Hub) (f : Frame) : List Nat :=
  if 3 ≤ s.stage ∧ multicast f.dst then s.flood f
  else
    match s.t1.lookup f.dst with
    | some p => if p = f.inPort then [] else [p]
    | none => if 4 ≤ s.stage then s.flood f else []

/-- Table 0: priority 2 for known sources (L28), 1 for the rest (L38); the ports by which the frame leaves. -/
def Hub.out (s : Hub) (f : Frame) : List Nat :=
  if (f.src, f.inPort) ∈ s.t0 then s.table1 f
  else if 2 ≤ s.stage then s.table1 f
  else []

/-- The frame is sent to the controller as well (`actions=controller`, L38), where `handle_async` runs, or returns if not `init` (L20). -/
def Hub.frame (s : Hub) (f : Frame) : Hub :=
  if (f.src, f.inPort) ∈ s.t0 then s
  else if 5 ≤ s.stage then { s with tasks := s.tasks ++ [⟨(f.data.drop 6).take 6, f.inPort, 0⟩] }
  else s

/-- L28-30: the next call of a thread: `add_flow` to table 0, `add_flow` to table 1, then the PACKET_OUT without actions, which sends nothing. -/
def Hub.step (s : Hub) (i : Nat) : Hub :=
  match s.tasks[i]? with
  | none => s
  | some t =>
    match t.done with
    | 0 => { s with t0 := if (t.mac, t.port) ∈ s.t0 then s.t0 else (t.mac, t.port) :: s.t0, tasks := s.tasks.set i { t with done := 1 } }
    | 1 => { s with t1 := (t.mac, t.port) :: s.t1.filter (·.1 ≠ t.mac), tasks := s.tasks.set i { t with done := 2 } }
    | _ => { s with tasks := s.tasks.eraseIdx i }

/-- What may happen. -/
inductive Event where
  | setup (ports : List Nat)
  | frame (f : Frame)
  | step (i : Nat)
  | idle0 (mac : Bytes) (port : Nat)
  | idle1 (mac : Bytes)
  deriving DecidableEq, Repr

def Hub.next (s : Hub) : Event → Hub
  | .setup ports => s.setup ports
  | .frame f => s.frame f
  | .step i => s.step i
  | .idle0 mac port => { s with t0 := s.t0.filter (· ≠ (mac, port)) }
  | .idle1 mac => { s with t1 := s.t1.filter (·.1 ≠ mac) }

def Hub.run (s : Hub) (l : List Event) : Hub := l.foldl Hub.next s

end Twink.Hub
