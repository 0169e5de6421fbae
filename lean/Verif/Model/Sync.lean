import Verif.Model.Controller

/-!
# Synchronous requests

Models `/repo/twink/base.py:829-929` (`SyncTracker`, `SyncChannel`) as a transition system: any number of threads inside
`send_sync` and `multi`, one receiving thread, any number of threads inside `close`. A step is one access to shared
state (only `x.data += message`, which reads and writes `x.data`, is a single step). Which thread moves next, whether a write succeeds and whether a wait times out is chosen by the schedule.

`Tracker.since`, `Tracker.killed`, `SCall.byEvent` and `MCall.taken` are ghost data: they are written, but never influence a step.
-/

namespace Twink

/-- `SyncTracker` (base.py:829-833): `ev` is the event, `data` the reply. Ghost: `since` is the number of messages received when the
tracker was created, `killed` says that `close` has set `data`. -/
structure Tracker where
  xid : Nat
  ev : Bool
  data : Option Bytes
  since : Nat
  killed : Bool
  deriving DecidableEq

/-- Position of a `send_sync` call (base.py:862-871). -/
inductive SPc where
  | sending                     -- registered, before `self.send(message, **kwargs)`
  | waiting                     -- in `x.ev.wait(timeout=...)`
  | popping                     -- before `self.syncs.pop(x.xid)`
  | reading                     -- before `return x.data`
  | done (d : Option Bytes)     -- returned `d`
  | failed (e : Err)            -- raised
  deriving DecidableEq

/-- A `send_sync(msg)` call; `tr` is the index of its tracker. Ghost: `byEvent` if the wait ended because the event was set. -/
structure SCall where
  xid : Nat
  tr : Nat
  pc : SPc
  byEvent : Bool
  msg : Bytes
  deriving DecidableEq

/-- Position of a `multi` call (base.py:908-929). -/
inductive MPc where
  | next                        -- head of the loop over the messages
  | sending                     -- registered the last element of `prepared`, before `self.send`
  | barrier (c : SCall)         -- in the `send_sync` of `self.barrier()`
  | collect                     -- head of the loop over `prepared`
  | reading                     -- before `results.append(self.syncs[xid].data)`
  | popping                     -- before `self.syncs.pop(xid)`
  | done                        -- returned `results`
  | failed (e : Err)
  deriving DecidableEq

/-- A `multi` call: the messages not yet looked at, the registered ids still to be collected (with tracker), the results so
far, the current message. Ghost: `taken` are the entries already collected, `all` is the argument, `bxid` and `btr` are id and tracker of the barrier. -/
structure MCall where
  all : List Bytes
  todo : List Bytes
  prepared : List (Nat × Nat)
  taken : List (Nat × Nat)
  results : List (Option Bytes)
  bxid : Nat
  btr : Nat
  cur : Bytes
  pc : MPc
  deriving DecidableEq

inductive SThread where
  | sync (c : SCall)
  | multi (c : MCall)
  deriving DecidableEq

/-- Position of the receiving thread in `recv` (base.py:844-860). -/
inductive RPc where
  | idle
  | checked (m : Bytes)              -- `xid in self.syncs` was true
  | found (m : Bytes) (tr : Nat)     -- `x = self.syncs[xid]` done
  | stored (m : Bytes) (tr : Nat)    -- `x.data` assigned
  deriving DecidableEq

/-- Shared state. `heap` holds the trackers, `syncs` is the dictionary, `rx` the messages looked up by the receiving thread so
far, `rerr` the exception `recv` raised last, `sent` the messages sent (ghost: with the number of messages received by then). -/
structure SyncSt where
  version : Option Nat
  heap : List Tracker
  syncs : Nat → Option Nat
  rx : List Bytes
  rpc : RPc
  rerr : Option Err
  closers : List (List Nat × Bool)
  sent : List (Bytes × Nat)
  threads : List SThread

/-- Choices of the environment for a step: does the write succeed, does the wait end by timeout, which id does `hms_xid` give. -/
structure Choice where
  sendOk : Bool
  timeout : Bool
  bxid : Nat

/-- `x = SyncTracker(xid, Event()); self.syncs[x.xid] = x` (base.py:864-866, 912-914). -/
def register (st : SyncSt) (xid : Nat) : SyncSt :=
  { st with
    heap := st.heap ++ [⟨xid, false, none, st.rx.length, false⟩]
    syncs := fun x => if x = xid then some st.heap.length else st.syncs x }

/-- `self.syncs.pop(xid)` without the exception. -/
def unregister (st : SyncSt) (xid : Nat) : SyncSt :=
  { st with syncs := fun x => if x = xid then none else st.syncs x }

def trackerData (st : SyncSt) (t : Nat) : Option Bytes := (st.heap[t]?).bind (·.data)

/-- One step inside `send_sync` (base.py:862-871). -/
def syncStep (ch : Choice) (st : SyncSt) (c : SCall) : SyncSt × SCall :=
  match c.pc with
  | .sending =>
    if ch.sendOk then ({ st with sent := st.sent ++ [(c.msg, st.rx.length)] }, { c with pc := .waiting })
    else (st, { c with pc := .failed .other })
  | .waiting =>
    if (match st.heap[c.tr]? with | some t => t.ev | none => false) then (st, { c with pc := .popping, byEvent := true })
    else if ch.timeout then (st, { c with pc := .popping })
    else (st, c)
  | .popping =>
    match st.syncs c.xid with
    | some _ => (unregister st c.xid, { c with pc := .reading })
    | none => (st, { c with pc := .failed .keyError })
  | .reading => (st, { c with pc := .done (trackerData st c.tr) })
  | .done _ | .failed _ => (st, c)

/-- The rest of `_sync_simple` in `barrier()` (base.py:873-882, 901-905): what `multi` sees after the `send_sync` returned `d`. -/
def barrierResult (version : Option Nat) (d : Option Bytes) : Py Unit :=
  match d with
  | none => .error .channelClose
  | some [] => .error .channelClose
  | some m =>
    match parseHeader m with
    | .error e => .error e
    | .ok (_, oftype, _, _) =>
      if oftype ≠ (if version = some 1 then 19 else 21) then .error .nameError   -- `OpenflowError` is not defined
      else .ok ()

/-- One step inside `multi` (base.py:908-929). -/
def multiStep (ch : Choice) (st : SyncSt) (c : MCall) : SyncSt × MCall :=
  match c.pc with
  | .next =>
    match c.todo with
    | m :: rest =>
      match parseHeader m with
      | .error e => (st, { c with pc := .failed e })
      | .ok (_, _, _, xid) =>
        (register st xid, { c with todo := rest, cur := m, prepared := c.prepared ++ [(xid, st.heap.length)], pc := .sending })
    | [] =>
      match barrierMsg st.version ch.bxid with
      | .error e => (st, { c with pc := .failed e })
      | .ok b => (register st ch.bxid, { c with
          bxid := ch.bxid, btr := st.heap.length, pc := .barrier ⟨ch.bxid, st.heap.length, .sending, false, b⟩ })
  | .sending =>
    if ch.sendOk then ({ st with sent := st.sent ++ [(c.cur, st.rx.length)] }, { c with pc := .next })
    else (st, { c with pc := .failed .other })
  | .barrier s =>
    match s.pc with
    | .done d =>
      match barrierResult st.version d with
      | .ok () => (st, { c with pc := .collect })
      | .error e => (st, { c with pc := .failed e })
    | .failed e => (st, { c with pc := .failed e })
    | _ => let r := syncStep ch st s; (r.1, { c with pc := .barrier r.2 })
  | .collect =>
    match c.prepared with
    | [] => (st, { c with pc := .done })
    | p :: rest =>
      match st.syncs p.1 with
      | some _ => (st, { c with pc := .reading })
      | none => (st, { c with prepared := rest, taken := c.taken ++ [p], results := c.results ++ [none] })
  | .reading =>
    match c.prepared with
    | [] => (st, c)
    | p :: _ =>
      match st.syncs p.1 with
      | some t => (st, { c with results := c.results ++ [trackerData st t], pc := .popping })
      | none => (st, { c with pc := .failed .keyError })
  | .popping =>
    match c.prepared with
    | [] => (st, c)
    | p :: rest =>
      match st.syncs p.1 with
      | some _ => (unregister st p.1, { c with prepared := rest, taken := c.taken ++ [p], pc := .collect })
      | none => (st, { c with pc := .failed .keyError })
  | .done | .failed _ => (st, c)

/-- `(version==1 and oftype==17) or (version!=1 and oftype==19)` (base.py:850). -/
def isMultipart (version oftype : Nat) : Bool :=
  (version = 1 && oftype = 17) || (version ≠ 1 && oftype = 19)

/-- Assignment to `x.data` for a message (base.py:850-858). -/
def storeData (multipart : Bool) (m : Bytes) (old : Option Bytes) : Option Bytes :=
  if multipart then
    match old with
    | none => some m
    | some d => some (d ++ m)
  else some m

def updTracker (st : SyncSt) (t : Nat) (f : Tracker → Tracker) : SyncSt :=
  { st with heap := st.heap.modify t f }

open Fmt in
/-- One step of the receiving thread (base.py:844-860). -/
def recvStep (st : SyncSt) : SyncSt :=
  match st.rpc with
  | .idle => st
  | .checked m =>
    match parseHeader m with
    | .error e => { st with rpc := .idle, rerr := some e }
    | .ok (_, _, _, xid) =>
      match st.syncs xid with
      | some t => { st with rpc := .found m t, rx := st.rx ++ [m] }
      | none => { st with rpc := .idle, rx := st.rx ++ [m], rerr := some .keyError }
  | .found m t =>
    match parseHeader m with
    | .error e => { st with rpc := .idle, rerr := some e }
    | .ok (version, oftype, _, _) =>
      { updTracker st t (fun x => { x with data := storeData (isMultipart version oftype) m x.data }) with rpc := .stored m t }
  | .stored m t =>
    match parseHeader m with
    | .error e => { st with rpc := .idle, rerr := some e }
    | .ok (version, oftype, _, _) =>
      if isMultipart version oftype then
        match unpackFrom [H] m 10 with
        | .ok [.int flags] =>
          if flags % 2 = 0 then { updTracker st t (fun x => { x with ev := true }) with rpc := .idle }
          else { st with rpc := .idle }
        | .ok _ => { st with rpc := .idle, rerr := some .valueError }
        | .error e => { st with rpc := .idle, rerr := some e }
      else { updTracker st t (fun x => { x with ev := true }) with rpc := .idle }

/-- The receiving thread gets a message from the lower layers and evaluates `xid in self.syncs` (base.py:845-848). -/
def recvBegin (st : SyncSt) (m : Bytes) : SyncSt :=
  match st.rpc with
  | .idle =>
    if m = [] then st
    else
      match parseHeader m with
      | .error e => { st with rerr := some e }
      | .ok (_, _, _, xid) =>
        if (st.syncs xid).isSome then { st with rpc := .checked m } else { st with rx := st.rx ++ [m] }
  | _ => st

/-- One step of a thread in `close` (base.py:886-889): alternately `x.data = ""` and `x.ev.set()` for the trackers that were
registered when the loop began. -/
def closeStep (st : SyncSt) (i : Nat) : SyncSt :=
  match st.closers[i]? with
  | some (t :: ts, false) =>
    { updTracker st t (fun x => { x with data := some [], killed := true }) with closers := st.closers.set i (t :: ts, true) }
  | some (t :: ts, true) =>
    { updTracker st t (fun x => { x with ev := true }) with closers := st.closers.set i (ts, false) }
  | _ => st

/-- `tuple(self.syncs.items())`: the trackers registered now. -/
def registered (st : SyncSt) : List Nat :=
  (List.range st.heap.length).filter fun t =>
    match st.heap[t]? with
    | some x => st.syncs x.xid = some t
    | none => false

/-- Steps of the whole system. -/
inductive SyncOp where
  | sendSync (m : Bytes)                 -- a thread calls `send_sync(m)`
  | multi (ms : List Bytes)              -- a thread calls `multi(ms)`
  | thread (i : Nat) (ch : Choice)       -- thread `i` moves
  | recv (m : Bytes)                     -- `recv` obtained a message
  | recvStep                             -- the receiving thread moves
  | close                                -- a thread calls `close()`
  | closeStep (i : Nat)                  -- closing thread `i` moves

def syncOp (st : SyncSt) : SyncOp → SyncSt
  | .sendSync m =>
    match parseHeader m with
    | .error e => { st with threads := st.threads ++ [.sync ⟨0, 0, .failed e, false, m⟩] }
    | .ok (_, _, _, xid) =>
      { register st xid with threads := st.threads ++ [.sync ⟨xid, st.heap.length, .sending, false, m⟩] }
  | .multi ms => { st with threads := st.threads ++ [.multi ⟨ms, ms, [], [], [], 0, 0, [], .next⟩] }
  | .thread i ch =>
    match st.threads[i]? with
    | some (.sync c) => let r := syncStep ch st c; { r.1 with threads := st.threads.set i (.sync r.2) }
    | some (.multi c) => let r := multiStep ch st c; { r.1 with threads := st.threads.set i (.multi r.2) }
    | none => st
  | .recv m => recvBegin st m
  | .recvStep => recvStep st
  | .close => { st with closers := st.closers ++ [(registered st, false)] }
  | .closeStep i => closeStep st i

def syncRun (st : SyncSt) : List SyncOp → SyncSt
  | [] => st
  | op :: ops => syncRun (syncOp st op) ops

/-- A fresh channel (base.py:839-842). -/
def freshSync (version : Option Nat) : SyncSt := ⟨version, [], fun _ => none, [], .idle, none, [], [], []⟩

end Twink
