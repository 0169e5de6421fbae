import Verif.Model.Framing
import Verif.Model.Rate

/-!
# Channels that handle messages in parallel

Models `ParallelChannel.handle_proxy` (/repo/twink/base.py:538-563) as called by `OpenflowServerChannel.loop` (317-326): the receiving
thread hands every message to a new thread or, for asynchronous messages if `async_rate` is set, to the rate limiter (`Model.Rate`).

Simplifications: `handle` is an opaque function that returns, raises `ChannelClose`, or raises another exception; logging is left out;
`channel.close()` is one step (it is done under `close_lock`, 534-536) and does not raise.
-/

namespace Twink.Par

/-- How a call of `handle` ends. -/
inductive Outcome where
  | returns
  | close    -- raises `ChannelClose`
  | raises   -- raises another exception
  deriving DecidableEq, Repr

/-- Position of a thread that runs `proxy(message, channel)` (base.py:540-548). -/
inductive TPc where
  | start      -- before the call of `handle`
  | handling   -- in `handle`
  | closing    -- before `channel.close()` (545, 548)
  | done
  deriving DecidableEq, Repr

structure Thread where
  msg : Bytes
  pc : TPc
  deriving DecidableEq, Repr

/-- `got`, `handled` and `ends` are ghosts: the messages that `loop` has passed on, the calls of `handle` and the ends of such calls, all
in order of time. `tasks` are the arguments of the tasks submitted to the pool, `died` is the exception that reached the receiving
thread. -/
structure Chan where
  rate : Nat
  threads : List Thread
  tasks : List Bytes
  pool : Rate
  closed : Bool
  died : Option Err
  got : List Bytes
  handled : List Bytes
  ends : List Outcome
  deriving DecidableEq, Repr

/-- `ParallelChannel.__init__` (base.py:528-531). -/
def fresh (rate : Nat) : Chan := ⟨rate, [], [], freshRate rate, false, none, [], [], []⟩

inductive Op where
  | recv (m : Bytes)                  -- the receiving thread gets message `m` and calls `intercept`
  | thread (j : Nat) (o : Outcome)    -- thread `j` moves; `o` is used at the end of `handle`
  | pool (op : ROp) (o : Outcome)     -- a thread of the rate limiter moves
  deriving DecidableEq, Repr

/-- `if self.async_rate: …` (base.py:550-554): is the message handed to the rate limiter? -/
def ratedCall (rate : Nat) (m : Bytes) : Py Bool :=
  if rate = 0 then .ok false
  else
    match parseHeader m with
    | .error e => .error e
    | .ok (_, oftype, _, _) => .ok (oftype = 10 ∨ oftype = 11 ∨ oftype = 12)

/-- `intercept(message, channel)` (base.py:539-559). An exception ends the receiving thread. -/
def recvStep (s : Chan) (m : Bytes) : Chan :=
  match s.died with
  | some _ => s
  | none =>
    match ratedCall s.rate m with
    | .error e => { s with died := some e, got := s.got ++ [m] }
    | .ok true => { s with got := s.got ++ [m], tasks := s.tasks ++ [m], pool := rstep s.pool .submit }
    | .ok false => { s with got := s.got ++ [m], threads := s.threads ++ [⟨m, .start⟩] }

/-- One step of `proxy` in thread `j` (base.py:540-548). -/
def threadStep (s : Chan) (j : Nat) (t : Thread) (o : Outcome) : Chan :=
  match t.pc with
  | .start => { s with threads := s.threads.set j { t with pc := .handling }, handled := s.handled ++ [t.msg] }
  | .handling =>
    match o with
    | .returns => { s with threads := s.threads.set j { t with pc := .done }, ends := s.ends ++ [o] }
    | .close => { s with threads := s.threads.set j { t with pc := .closing }, ends := s.ends ++ [o] }
    | .raises => { s with threads := s.threads.set j { t with pc := .closing }, ends := s.ends ++ [o] }
  | .closing => { s with threads := s.threads.set j { t with pc := .done }, closed := true }
  | .done => s

/-- What a thread of the rate limiter does to the channel: `func(*args, **kwargs)` is `proxy(message, channel)` for the message in `args`.
All tasks have the same `func` up to the closure, and empty `kwargs`. `proxy` raises no exception. -/
def poolProxy (s : Chan) (j : Nat) (o : Outcome) : Chan :=
  match s.pool.proxies[j]? with
  | none => s
  | some p =>
    match p.pc with
    | .gotA _ a =>
      { s with pool := rstep s.pool (.proxy j false), handled := s.handled ++ (a.bind (s.tasks[·]?)).toList }
    | .running =>
      { s with pool := rstep s.pool (.proxy j false), ends := s.ends ++ [o], closed := s.closed || decide (o ≠ .returns) }
    | _ => { s with pool := rstep s.pool (.proxy j false) }

/-- One step of the system; submissions to the pool come from `recv` only. -/
def step (s : Chan) : Op → Chan
  | .recv m => recvStep s m
  | .thread j o =>
    match s.threads[j]? with
    | some t => threadStep s j t o
    | none => s
  | .pool .submit _ => s
  | .pool (.proxy j _) o => poolProxy s j o
  | .pool op _ => { s with pool := rstep s.pool op }

def runs (s : Chan) : List Op → Chan
  | [] => s
  | op :: ops => runs (step s op) ops

end Twink.Par
