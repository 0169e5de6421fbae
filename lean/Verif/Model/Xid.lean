import Verif.Py

/-!
# Transaction ids

Models `/repo/twink/base.py:253-261` (`hms_xid`), sequentially and as interleaved steps of several threads.
-/

namespace Twink

/-- A wall clock reading (`datetime.datetime.now()`), reduced to the fields used (base.py:255-256). -/
structure Clock where
  hour : Fin 24
  minute : Fin 60
  second : Fin 60
  micro : Fin 1000000
  deriving DecidableEq, Repr

/-- The decimal digits of `"%02d"` for numbers below 100. -/
def digits2 (n : Nat) : List Nat := [n / 10, n % 10]
/-- The decimal digits of `"%04d"` for numbers below 10000. -/
def digits4 (n : Nat) : List Nat := [n / 1000, n / 100 % 10, n / 10 % 10, n % 10]
/-- `int(...)` of a string of decimal digits. -/
def intOfDigits (ds : List Nat) : Nat := ds.foldl (fun a d => 10 * a + d) 0

/-- `int(("%02d"*3+"%04d") % (hour, minute, second, microsecond/100))` (base.py:256; integer division). -/
def candidate (c : Clock) : Nat :=
  intOfDigits (digits2 c.hour ++ digits2 c.minute ++ digits2 c.second ++ digits4 (c.micro / 100))

/-- `hms_xid()` (base.py:253-261): `dedup` is the function attribute (`none`: not set yet);
returns the new attribute value, which is also the result. -/
def hmsXid (dedup : Option Nat) (c : Clock) : Nat :=
  match dedup with
  | none => candidate c
  | some d => if d ≥ candidate c then d + 1 else candidate c

/-- The results of successive calls. -/
def hmsXids (dedup : Option Nat) : List Clock → List Nat
  | [] => []
  | c :: cs => hmsXid dedup c :: hmsXids (some (hmsXid dedup c)) cs

/-- Where a thread is inside `hms_xid` (each step performs one access to the shared attribute). -/
inductive XPc where
  | idle                       -- not in a call
  | has (cand : Nat)           -- before `hasattr(hms_xid, "dedup")` (257)
  | cmp (cand : Nat)           -- before reading `hms_xid.dedup` in the comparison (258)
  | inc (cand : Nat)           -- before reading `hms_xid.dedup` in `dedup+1` (259)
  | wr (cand : Nat)            -- before `setattr` (260)
  deriving DecidableEq, Repr

/-- Shared attribute, program counters of the threads, and ids returned so far (newest last, with the thread). -/
structure XState where
  dedup : Option Nat
  pc : Nat → XPc
  out : List (Nat × Nat)

/-- Change the program counter of one thread. -/
def setPc (pc : Nat → XPc) (t : Nat) (p : XPc) : Nat → XPc := fun u => if u = t then p else pc u

/-- One step of thread `t`; `c` is the clock reading if the step starts a call (base.py:253-261). -/
def xstep (s : XState) (t : Nat) (c : Clock) : XState :=
  match s.pc t with
  | .idle => { s with pc := setPc s.pc t (.has (candidate c)) }
  | .has k => { s with pc := setPc s.pc t (if s.dedup.isSome then .cmp k else .wr k) }
  | .cmp k =>
    match s.dedup with
    | some d => { s with pc := setPc s.pc t (if d ≥ k then .inc k else .wr k) }
    | none => s
  | .inc k =>
    match s.dedup with
    | some d => { s with pc := setPc s.pc t (.wr (d + 1)) }
    | none => { s with pc := setPc s.pc t (.wr k) }
  | .wr k => { dedup := some k, pc := setPc s.pc t .idle, out := s.out ++ [(t, k)] }

/-- An interleaving: which thread moves, and the clock at that time. -/
def xrun (s : XState) : List (Nat × Clock) → XState
  | [] => s
  | (t, c) :: sched => xrun (xstep s t c) sched

end Twink
