import Verif.Py

/-!
# `serve_forever` and the choice of the scheduler

`/repo/twink/sched_basic.py` L57-71, `/repo/twink/sched_gevent.py` L12-20, `/repo/twink/base.py` L13-28.
-/

namespace Twink.Serve

/-- A server, by what its methods raise. -/
structure Server where
  start : Option Err
  stop : Option Err
  deriving DecidableEq, Repr

/-- What happens to servers: `start()` has returned; `stop()` is called. -/
inductive Ev where
  | started (i : Nat)
  | stopped (i : Nat)
  deriving DecidableEq, Repr

/-- `for serv in servers: serv.start()`, from number `i` on. sched_basic.py:62-63, sched_gevent.py:13-14 -/
def startAll (i : Nat) : List Server → List Ev × Py Unit
  | [] => ([], .ok ())
  | s :: ss =>
    match s.start with
    | some e => ([], .error e)
    | none => (.started i :: (startAll (i + 1) ss).1, (startAll (i + 1) ss).2)

/-- `for serv in servers: serv.stop()`. sched_basic.py:69-70 -/
def stopAll (i : Nat) : List Server → List Ev × Py Unit
  | [] => ([], .ok ())
  | s :: ss =>
    match s.stop with
    | some e => ([.stopped i], .error e)
    | none => (.stopped i :: (stopAll (i + 1) ss).1, (stopAll (i + 1) ss).2)

/-- `serve_forever` of sched_basic; `wait` is how waiting for the event ends.  An exception in `finally` replaces that of the `try`.
sched_basic.py:57-70 -/
def serveBasic (servers : List Server) (wait : Py Unit) : List Ev × Py Unit :=
  match startAll 0 servers with
  | (evs, .error e) => (evs, .error e)
  | (evs, .ok ()) =>
    match stopAll 0 servers with
    | (evs', .error e) => (evs ++ evs', .error e)
    | (evs', .ok ()) => (evs ++ evs', wait)

/-- `for job in [spawn(serv.stop) for serv in servers]: job.join()`: every `stop` runs in its own greenlet, and `join` does not raise what
the greenlet raised. sched_gevent.py:19-20 -/
def spawnStops (i : Nat) : List Server → List Ev
  | [] => []
  | _ :: ss => .stopped i :: spawnStops (i + 1) ss

/-- `serve_forever` of sched_gevent. sched_gevent.py:12-20 -/
def serveGevent (servers : List Server) (wait : Py Unit) : List Ev × Py Unit :=
  match startAll 0 servers with
  | (evs, .error e) => (evs, .error e)
  | (evs, .ok ()) => (evs ++ spawnStops 0 servers, wait)

/-! ## The scheduler -/

/-- The schedulers. -/
inductive Sched where
  | basic
  | gevent
  deriving DecidableEq, Repr

/-- Names of base.py that matter here: the global `_use_gevent`. base.py:13 -/
structure Globals where
  useGevent : Bool
  deriving DecidableEq, Repr

def globals0 : Globals := ⟨false⟩

/-- A call of a function: its locals, and the globals. -/
structure Frame where
  locals_ : List (String × Bool)
  globals : Globals
  deriving DecidableEq, Repr

/-- `name = value` inside a function: a local, unless the function declares the name `global`. -/
def assign (declared : List String) (f : Frame) (name : String) (v : Bool) : Frame :=
  if name ∈ declared then { f with globals := if name = "_use_gevent" then ⟨v⟩ else f.globals }
  else { f with locals_ := (name, v) :: f.locals_ }

/-- `use_gevent`: it declares nothing `global`. base.py:14-15 -/
def useGevent (g : Globals) : Globals := (assign [] ⟨[], g⟩ "_use_gevent" true).globals

/-- `"subprocess socket Queue Lock Event spawn serve_forever".split()`. base.py:24 -/
def attributes : List String := ["subprocess", "socket", "Queue", "Lock", "Event", "spawn", "serve_forever"]

/-- `sched.name`. base.py:17-26 -/
def getattr (g : Globals) (name : String) : Py (Sched × String) :=
  if name ∈ attributes then .ok (if g.useGevent then .gevent else .basic, name) else .error .attributeError

/-- Calls of `use_gevent`. -/
def calls : Nat → Globals → Globals
  | 0, g => g
  | n + 1, g => calls n (useGevent g)

/-- Every attribute of `sched` that the package asks for.  base.py:32, 380, 478-507, 530, 558, 582, 602-635, 665-692, 772, 843, 866, 914, 939-941,
1107, 1126; ovs.py:7, 27, 36, 66, 186; __main__.py:17; bess_of_agent.py:191 -/
def asked : List String := ["socket", "Lock", "spawn", "Event", "subprocess", "serve_forever"]

end Twink.Serve
