/-!
# Classes, method resolution order and `super`

The channel classes of `/repo/twink/base.py` and `/repo/twink/ovs.py` are mixins: users combine them in a class statement or by `type(name, bases, dict)`
(`twink/__main__.py:18`, `ovs.py:175-184`, `test/example_controller_switchinghub.py:10-15`, base.py:757-777), and every method calls the next one by `super`.  This file
models what Python makes of such a combination: the linearisation (C3) which Python computes when a class is created, lookup of a method, and `super`.

A program is a list of class definitions; a class is identified by a number (`user`) or is one of those of the library.  Classes have at least one base, as in
the code (old-style classes of Python 2 do not occur).
-/

namespace Twink.Mro

/-- The classes of the library that take part, and those of users. -/
inductive Cls where
  | object | channel | base | logging | openflow | server | autoEcho | weakCaller | controller | parallel
  | parent | jackin | monitor | child | jackinChild | sync | portMonitor | ovs | autoPacketOut
  | user (n : Nat)
  deriving DecidableEq, Repr

/-- `tail_contains` in any of the lists (Python 2.7, Objects/typeobject.c, `pmerge`). -/
def inTail (ls : List (List Cls)) (c : Cls) : Bool := ls.any (fun l => l.tail.contains c)

/-- The first list whose head is in no tail gives the next class. -/
def pick (ls : List (List Cls)) : List (List Cls) → Option Cls
  | [] => none
  | [] :: r => pick ls r
  | (c :: _) :: r => if inTail ls c then pick ls r else some c

/-- `c` is taken from the head of every list. -/
def advance (c : Cls) (l : List Cls) : List Cls :=
  match l with
  | [] => []
  | d :: r => if d = c then r else d :: r

/-- The loop of `pmerge`; `none` is the TypeError "Cannot create a consistent method resolution order (MRO)".  Each turn shortens a list, so that the total
length bounds the number of turns (`merge_eq` in Proof/Mro.lean). -/
def mergeN : Nat → List (List Cls) → Option (List Cls)
  | 0, ls => if ls.all (·.isEmpty) then some [] else none
  | n + 1, ls =>
    if ls.all (·.isEmpty) then some []
    else
      match pick ls ls with
      | none => none
      | some c => (mergeN n (ls.map (advance c))).map (c :: ·)

def merge (ls : List (List Cls)) : Option (List Cls) := mergeN (ls.map List.length).sum ls

/-- The classes that exist, with their `__mro__`. -/
abbrev Env := List (Cls × List Cls)

/-- A class statement: name and bases. -/
abbrev Def := Cls × List Cls

/-- `class c(bases)`: Python 2.7 `mro_implementation`: "duplicate base class" is a TypeError, an unknown base a NameError, and the order is that of `pmerge` of the
orders of the bases and the list of bases.  A class statement makes a new class: using an identity twice is excluded (`none`). -/
def define (env : Env) (d : Def) : Option Env :=
  if (env.lookup d.1).isSome ∨ d.2 = [] ∨ ¬ d.2.Nodup then none
  else
    match d.2.mapM (fun c => env.lookup c) with
    | none => none
    | some ls =>
      match merge (ls ++ [d.2]) with
      | none => none
      | some m => some ((d.1, d.1 :: m) :: env)

/-- A program, statement by statement. -/
def run : List Def → Env → Option Env
  | [], env => some env
  | d :: r, env => (define env d).bind (run r)

/-- Before any statement. -/
def builtin : Env := [(.object, [.object])]

/-- The class statements of base.py (L69, 137, 179, 207, 316, 334, 349, 373, 523, 704, 781, 789, 796, 814, 836, 932) and ovs.py (L44, 138). -/
def library : List Def :=
  [(.channel, [.object]), (.base, [.channel]), (.logging, [.base]), (.openflow, [.base]), (.server, [.openflow]), (.autoEcho, [.server]),
   (.weakCaller, [.object]), (.controller, [.server, .weakCaller]), (.parallel, [.server]), (.parent, [.controller, .parallel]), (.jackin, [.parent]),
   (.monitor, [.parent]), (.child, [.openflow]), (.jackinChild, [.child]), (.sync, [.parallel]), (.portMonitor, [.controller, .parallel]),
   (.ovs, [.controller, .parallel]), (.autoPacketOut, [.controller])]

/-! ## Methods -/

/-- The methods by which the layers of a channel pass on a call.  `close` is `close()` on a channel that is not closed, `reclose` is `close()` on a closed one. -/
inductive Meth where
  | init | attach | send | recv | close | reclose
  deriving DecidableEq, Repr

/-- How a method continues: not defined in the class; `super(C, self).m(...)` with `C` the class itself, or with another class; not at all. -/
inductive Body where
  | absent
  | super
  | superOf (c : Cls)
  | last
  deriving DecidableEq, Repr

/-- The methods in the classes of base.py and ovs.py.  `LoggingChannel.close` (L201-204) continues only if the channel is not closed.
`OpenflowBaseChannel.recv` (L153) calls `_recv`, which one class only defines. -/
def libBody : Meth → Cls → Body
  | .init, .channel => .last          -- L78-91
  | .init, .base => .super            -- L141-143
  | .init, .logging => .super         -- L185-189
  | .init, .controller => .super      -- L378-381
  | .init, .parallel => .super        -- L528-531
  | .init, .jackinChild => .super     -- L815-817
  | .init, .sync => .super            -- L840-843
  | .init, .portMonitor => .super     -- L936-945
  | .attach, .channel => .last        -- L93-98
  | .attach, .openflow => .superOf .base  -- L210-213: `super(OpenflowBaseChannel, self)`
  | .send, .channel => .last          -- L113-119
  | .send, .logging => .super         -- L191-193
  | .send, .controller => .super      -- L383-421
  | .send, .child => .super           -- L799-800
  | .recv, .base => .last             -- L153-176
  | .recv, .logging => .super         -- L195-199
  | .recv, .openflow => .super        -- L220-237
  | .recv, .controller => .super      -- L423-432
  | .recv, .parent => .super          -- L728-753
  | .recv, .sync => .super            -- L845-862
  | .recv, .portMonitor => .super     -- L947-1002
  | .close, .channel => .last         -- L106-111
  | .close, .logging => .super        -- L201-204
  | .close, .parallel => .super       -- L533-535
  | .close, .parent => .super         -- L711-726
  | .close, .jackinChild => .super    -- L824-826
  | .close, .sync => .super           -- L885-890
  | .close, .portMonitor => .super    -- L1096-1098
  | .reclose, .channel => .last       -- L106-111
  | .reclose, .logging => .last       -- L202: `if not self.closed`
  | .reclose, .parallel => .super     -- L533-535
  | .reclose, .parent => .super       -- L711-726
  | .reclose, .jackinChild => .super  -- L824-826
  | .reclose, .sync => .super         -- L885-890
  | .reclose, .portMonitor => .super  -- L1096-1098
  | _, _ => .absent

/-- The classes whose method runs, in order, when the method is looked up in the classes `l` (the `__mro__` of the object's class for a call on the object; what follows
`C` there for `super(C, self)`); the flag is false if the search ends without a method (AttributeError).  `super(D, self)` in a method of `C` searches what follows `D`:
`skip` is the class that the search has yet to pass; it is sought among what follows `C`, where every ancestor of `C` is (C107_order). -/
def chain (body : Cls → Body) : (skip : Option Cls) → List Cls → List Cls × Bool
  | _, [] => ([], false)
  | some d, c :: r => chain body (if c = d then none else some d) r
  | none, c :: r =>
    match body c with
    | .absent => chain body none r
    | .super => let q := chain body none r; (c :: q.1, q.2)
    | .superOf d => let q := chain body (some d) r; (c :: q.1, q.2)
    | .last => ([c], true)

/-- A call of the method on an object whose class has this `__mro__`. -/
def call (body : Cls → Body) (mro : List Cls) : List Cls × Bool := chain body none mro

end Twink.Mro
