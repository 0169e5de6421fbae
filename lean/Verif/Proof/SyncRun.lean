import Verif.Proof.SyncThreads

/-! Runs of the synchronous request machine: registered requests, closing, sent messages. -/

namespace Twink
open Spec Fmt

/-- What a step of a thread does to the shared state and to its outstanding requests. -/
inductive Move (st : SyncSt) : SyncSt → List (Nat × Nat) → List (Nat × Nat) → Prop
  | same {o o'} : (∀ p ∈ o', p ∈ o) → Move st st o o'
  | sent {o o'} (l) : (∀ p ∈ o', p ∈ o) → Move st { st with sent := st.sent ++ l } o o'
  | reg {o} (x) : Move st (register st x) o (o ++ [(x, st.heap.length)])
  | unreg (x t a b) : Move st (unregister st x) (a ++ (x, t) :: b) (a ++ b)

theorem Move.pre {st st' : SyncSt} {o o' : List (Nat × Nat)} (h : Move st st' o o') (p : List (Nat × Nat)) :
    Move st st' (p ++ o) (p ++ o') := by
  cases h with
  | same hs => exact .same (fun q hq => by
      rw [List.mem_append] at hq ⊢; exact hq.imp id (hs q))
  | sent l hs => exact .sent l (fun q hq => by
      rw [List.mem_append] at hq ⊢; exact hq.imp id (hs q))
  | reg x => rw [← List.append_assoc]; exact .reg x
  | unreg x t a b => rw [← List.append_assoc, ← List.append_assoc]; exact .unreg x t (p ++ a) b

theorem syncStep_move (ch : Choice) (st : SyncSt) (c : SCall) :
    Move st (syncStep ch st c).1 (outCall c) (outCall (syncStep ch st c).2) := by
  obtain ⟨x, t, pc, be, msg⟩ := c
  cases pc with
  | sending =>
    simp only [syncStep]
    split
    · exact .sent _ (fun p hp => hp)
    · exact .same (by simp [outCall])
  | waiting =>
    have e : ∀ b : Bool, Move st (if b = true then (st, (⟨x, t, SPc.popping, true, msg⟩ : SCall))
        else if ch.timeout = true then (st, (⟨x, t, SPc.popping, be, msg⟩ : SCall)) else (st, ⟨x, t, .waiting, be, msg⟩)).1
        (outCall ⟨x, t, .waiting, be, msg⟩)
        (outCall (if b = true then (st, (⟨x, t, SPc.popping, true, msg⟩ : SCall))
        else if ch.timeout = true then (st, (⟨x, t, SPc.popping, be, msg⟩ : SCall)) else (st, ⟨x, t, .waiting, be, msg⟩)).2) := by
      intro b; split
      · exact .same (fun p hp => hp)
      · split
        · exact .same (fun p hp => hp)
        · exact .same (fun p hp => hp)
    exact e _
  | popping =>
    simp only [syncStep]
    cases st.syncs x with
    | some t' => exact .unreg x t [] []
    | none => exact .same (by simp [outCall])
  | reading => exact .same (by simp [outCall, syncStep])
  | done d => exact .same (by simp [outCall, syncStep])
  | failed e => exact .same (by simp [outCall, syncStep])

theorem multiStep_move (ch : Choice) (st : SyncSt) (c : MCall) :
    Move st (multiStep ch st c).1 (outstanding (.multi c)) (outstanding (.multi (multiStep ch st c).2)) := by
  obtain ⟨all, todo, prepared, taken, results, bxid, btr, cur, pc⟩ := c
  cases pc with
  | next =>
    cases todo with
    | cons m rest =>
      simp only [multiStep]
      cases parseHeader m with
      | error e => exact .same (by simp [outstanding])
      | ok r => exact .reg _
    | nil =>
      simp only [multiStep]
      cases barrierMsg st.version ch.bxid with
      | error e => exact .same (by simp [outstanding])
      | ok r => exact .reg _
  | sending =>
    simp only [multiStep]
    split
    · exact .sent _ (fun p hp => hp)
    · exact .same (by simp [outstanding])
  | barrier s =>
    have hm := (syncStep_move ch st s).pre prepared
    simp only [multiStep]
    cases hs : s.pc with
    | done d =>
      simp only
      cases barrierResult st.version d with
      | ok u => exact .same (fun p hp => by simp only [outstanding] at hp ⊢; exact List.mem_append_left _ hp)
      | error e => exact .same (by simp [outstanding])
    | failed e => exact .same (by simp [outstanding])
    | sending => exact hm
    | waiting => exact hm
    | popping => exact hm
    | reading => exact hm
  | collect =>
    simp only [multiStep]
    cases prepared with
    | nil => exact .same (by simp [outstanding])
    | cons p rest =>
      simp only
      cases st.syncs p.1 with
      | some t => exact .same (fun p hp => hp)
      | none => exact .same (fun q hq => by simp only [outstanding] at hq ⊢; exact List.mem_cons_of_mem _ hq)
  | reading =>
    simp only [multiStep]
    cases prepared with
    | nil => exact .same (fun p hp => hp)
    | cons p rest =>
      simp only
      cases st.syncs p.1 with
      | some t => exact .same (fun p hp => hp)
      | none => exact .same (by simp [outstanding])
  | popping =>
    simp only [multiStep]
    cases prepared with
    | nil => exact .same (fun p hp => hp)
    | cons p rest =>
      simp only
      cases st.syncs p.1 with
      | some t => exact .unreg p.1 p.2 [] rest
      | none => exact .same (by simp [outstanding])
  | done => exact .same (fun p hp => hp)
  | failed e => exact .same (fun p hp => hp)

/-- Steps of the receiving and closing threads leave the dictionary, the version, the threads and the sent messages alone. -/
structure Passive (st st' : SyncSt) : Prop where
  syncs : st'.syncs = st.syncs
  version : st'.version = st.version
  threads : st'.threads = st.threads
  sent : st'.sent = st.sent

theorem passive_recvBegin (st : SyncSt) (m : Bytes) : Passive st (recvBegin st m) := by
  unfold recvBegin
  cases st.rpc with
  | idle =>
    simp only
    split
    · exact ⟨rfl, rfl, rfl, rfl⟩
    · cases parseHeader m with
      | error e => exact ⟨rfl, rfl, rfl, rfl⟩
      | ok r => simp only; split <;> exact ⟨rfl, rfl, rfl, rfl⟩
  | _ => exact ⟨rfl, rfl, rfl, rfl⟩

theorem passive_recvStep (st : SyncSt) : Passive st (recvStep st) := by
  unfold recvStep
  cases st.rpc with
  | idle => exact ⟨rfl, rfl, rfl, rfl⟩
  | checked m =>
    simp only
    cases parseHeader m with
    | error e => exact ⟨rfl, rfl, rfl, rfl⟩
    | ok r => simp only; split <;> exact ⟨rfl, rfl, rfl, rfl⟩
  | found m t => simp only; cases parseHeader m <;> exact ⟨rfl, rfl, rfl, rfl⟩
  | stored m t =>
    simp only
    cases parseHeader m with
    | error e => exact ⟨rfl, rfl, rfl, rfl⟩
    | ok r =>
      simp only
      split
      · split
        · split <;> exact ⟨rfl, rfl, rfl, rfl⟩
        · exact ⟨rfl, rfl, rfl, rfl⟩
        · exact ⟨rfl, rfl, rfl, rfl⟩
      · exact ⟨rfl, rfl, rfl, rfl⟩

theorem passive_closeStep (st : SyncSt) (i : Nat) : Passive st (closeStep st i) := by
  unfold closeStep; split <;> exact ⟨rfl, rfl, rfl, rfl⟩

/-- Every operation is a passive step, a new thread, or a move of one thread. -/
inductive OpKind (st : SyncSt) : SyncSt → Prop
  | passive {st'} : Passive st st' → OpKind st st'
  | new (st1 : SyncSt) (th : SThread) : Move st st1 [] (outstanding th) → OpKind st { st1 with threads := st.threads ++ [th] }
  | move (st1 : SyncSt) (i : Nat) (th th' : SThread) : st.threads[i]? = some th → Move st st1 (outstanding th) (outstanding th') →
      OpKind st { st1 with threads := st.threads.set i th' }

theorem opKind (st : SyncSt) (op : SyncOp) : OpKind st (syncOp st op) := by
  cases op with
  | sendSync m =>
    simp only [syncOp]
    cases parseHeader m with
    | error e => exact .new st _ (.same (by simp [outstanding, outCall]))
    | ok r => exact .new (register st _) _ (.reg (o := []) _)
  | multi ms => exact .new st _ (.same (by simp [outstanding]))
  | thread i ch =>
    simp only [syncOp]
    cases hth : st.threads[i]? with
    | none => exact .passive ⟨rfl, rfl, rfl, rfl⟩
    | some th =>
      cases th with
      | sync c => exact .move _ i _ _ hth (syncStep_move ch st c)
      | multi c => exact .move _ i _ _ hth (multiStep_move ch st c)
  | recv m => exact .passive (passive_recvBegin st m)
  | recvStep => exact .passive (passive_recvStep st)
  | close => exact .passive ⟨rfl, rfl, rfl, rfl⟩
  | closeStep i => exact .passive (passive_closeStep st i)

theorem Move.version {st st' : SyncSt} {o o'} (h : Move st st' o o') : st'.version = st.version := by
  cases h <;> rfl

theorem Move.sentGrows {st st' : SyncSt} {o o'} (h : Move st st' o o') : ∃ l, st'.sent = st.sent ++ l := by
  cases h with
  | sent l => exact ⟨l, rfl⟩
  | _ => exact ⟨[], by simp [register, unregister]⟩

theorem version_step (st : SyncSt) (op : SyncOp) : (syncOp st op).version = st.version := by
  have h := opKind st op
  generalize syncOp st op = st' at h
  cases h with
  | passive h => exact h.version
  | new st1 th h => exact h.version
  | move st1 i th th' _ h => exact h.version

theorem sent_step (st : SyncSt) (op : SyncOp) : ∃ l, (syncOp st op).sent = st.sent ++ l := by
  have h := opKind st op
  generalize syncOp st op = st' at h
  cases h with
  | passive h => exact ⟨[], by simp [h.sent]⟩
  | new st1 th h => exact h.sentGrows
  | move st1 i th th' _ h => exact h.sentGrows

/-- The outstanding requests are registered. -/
def BoundInv (st : SyncSt) : Prop :=
  ∀ (i : Nat) (th : SThread), st.threads[i]? = some th → ∀ p ∈ outstanding th, st.syncs p.1 = some p.2

/-- A registration or removal under an id that no other request uses does not disturb the others. -/
theorem Move.bound_other {st st1 : SyncSt} {o o'} (h : Move st st1 o o') {p : Nat × Nat} (hp : st.syncs p.1 = some p.2)
    (hne : ∀ q ∈ o, p.1 ≠ q.1) (hne' : ∀ q ∈ o', p.1 ≠ q.1) : st1.syncs p.1 = some p.2 := by
  cases h with
  | same _ => exact hp
  | sent l _ => exact hp
  | reg x =>
    have : ¬ p.1 = x := hne' (x, st.heap.length) (by simp)
    simp [register, this, hp]
  | unreg x t a b =>
    have : ¬ p.1 = x := hne (x, t) (by simp)
    simp [unregister, this, hp]

theorem Move.bound_own {st st1 : SyncSt} {o o'} (h : Move st st1 o o') (hb : ∀ p ∈ o, st.syncs p.1 = some p.2)
    (hn : (o.map (·.1)).Nodup) (hn' : (o'.map (·.1)).Nodup) : ∀ p ∈ o', st1.syncs p.1 = some p.2 := by
  cases h with
  | same hs => exact fun p hp => hb p (hs p hp)
  | sent l hs => exact fun p hp => hb p (hs p hp)
  | reg x =>
    intro p hp
    rw [List.map_append, List.nodup_append] at hn'
    simp only [List.mem_append, List.mem_singleton] at hp
    rcases hp with hp | rfl
    · have : ¬ p.1 = x := hn'.2.2 p.1 (List.mem_map_of_mem hp) x (by simp)
      simp [register, this, hb p hp]
    · simp [register]
  | unreg x t a b =>
    intro p hp
    have hmem : p ∈ a ++ (x, t) :: b := by
      simp only [List.mem_append, List.mem_cons] at hp ⊢; tauto
    have : ¬ p.1 = x := by
      rw [List.map_append, List.map_cons, List.nodup_append] at hn
      intro e
      rcases List.mem_append.1 hp with hp | hp
      · exact hn.2.2 p.1 (List.mem_map_of_mem hp) x (by simp) e
      · exact (List.nodup_cons.1 hn.2.1).1 (e ▸ List.mem_map_of_mem (f := (·.1)) hp)
    simp [unregister, this, hb p hmem]

theorem bound_step {st : SyncSt} (op : SyncOp) (h : BoundInv st) (hd : DistinctIds st) (hd' : DistinctIds (syncOp st op)) :
    BoundInv (syncOp st op) := by
  have hk := opKind st op
  generalize syncOp st op = st' at hk hd'
  cases hk with
  | passive hp =>
    intro i th hi
    rw [hp.threads] at hi; rw [hp.syncs]; exact h i th hi
  | new st1 th0 hm =>
    intro i th hi p hp
    have hnew : (st.threads ++ [th0])[st.threads.length]? = some th0 := by simp
    rcases getElem?_snoc hi with hi' | ⟨rfl, rfl⟩
    · have hlt := lt_of_getElem? hi'
      exact hm.bound_other (h i th hi' p hp) (by simp)
        (fun q hq => hd'.2 i st.threads.length th th0 hi hnew (by omega) p hp q hq)
    · exact hm.bound_own (by simp) (by simp) (hd'.1 _ _ hnew) p hp
  | move st1 i0 th0 th0' hth hm =>
    intro i th hi p hp
    have hlt := lt_of_getElem? hth
    have hnew : (st.threads.set i0 th0')[i0]? = some th0' := by simp [hlt]
    rcases getElem?_set_some hi with ⟨rfl, rfl, _⟩ | ⟨hne, hi'⟩
    · exact hm.bound_own (h _ _ hth) (hd.1 _ _ hth) (hd'.1 _ _ hnew) p hp
    · exact hm.bound_other (h i th hi' p hp) (fun q hq => hd.2 i i0 th th0 hi' hth (Ne.symm hne) p hp q hq)
        (fun q hq => hd'.2 i i0 th th0' hi hnew (Ne.symm hne) p hp q hq)

/-- Nobody is closing and no tracker was touched by `close`. -/
def Alive (st : SyncSt) : Prop := st.closers = [] ∧ ∀ (t : Nat) (tr : Tracker), st.heap[t]? = some tr → tr.killed = false

theorem alive_upd {st : SyncSt} (h : Alive st) (t : Nat) (f : Tracker → Tracker) (hf : ∀ x, (f x).killed = x.killed) :
    ∀ (t' : Nat) (tr : Tracker), (st.heap.modify t f)[t']? = some tr → tr.killed = false := by
  intro t' tr ht
  rw [List.getElem?_modify] at ht
  cases hg : st.heap[t']? with
  | none => simp [hg] at ht
  | some x =>
    rw [hg] at ht
    simp only [Option.map_eq_map, Option.map_some] at ht
    injection ht with ht
    subst ht
    split
    · rw [hf]; exact h.2 t' x hg
    · exact h.2 t' x hg

theorem alive_recvBegin {st : SyncSt} (h : Alive st) (m : Bytes) : Alive (recvBegin st m) := by
  unfold recvBegin
  cases st.rpc with
  | idle =>
    simp only
    split
    · exact h
    · cases parseHeader m with
      | error e => exact h
      | ok r => simp only; split <;> exact h
  | _ => exact h

theorem alive_recvStep {st : SyncSt} (h : Alive st) : Alive (recvStep st) := by
  unfold recvStep
  cases st.rpc with
  | idle => exact h
  | checked m =>
    simp only
    cases parseHeader m with
    | error e => exact h
    | ok r => simp only; split <;> exact h
  | found m t =>
    simp only
    cases parseHeader m with
    | error e => exact h
    | ok r => exact ⟨h.1, alive_upd h _ _ (fun _ => rfl)⟩
  | stored m t =>
    simp only
    cases parseHeader m with
    | error e => exact h
    | ok r =>
      simp only
      split
      · split
        · split
          · exact ⟨h.1, alive_upd h _ _ (fun _ => rfl)⟩
          · exact h
        · exact h
        · exact h
      · exact ⟨h.1, alive_upd h _ _ (fun _ => rfl)⟩

theorem Move.alive {st st' : SyncSt} {o o'} (h : Move st st' o o') (ha : Alive st) : Alive st' := by
  cases h with
  | same _ => exact ha
  | sent l _ => exact ha
  | reg x =>
    refine ⟨ha.1, ?_⟩
    intro t tr ht
    rcases getElem?_snoc ht with ht | ⟨_, rfl⟩
    · exact ha.2 t tr ht
    · rfl
  | unreg x t a b => exact ha

theorem alive_step {st : SyncSt} (h : Alive st) (op : SyncOp) (hop : op ≠ .close) : Alive (syncOp st op) := by
  cases op with
  | close => exact absurd rfl hop
  | recv m => exact alive_recvBegin h m
  | recvStep => exact alive_recvStep h
  | closeStep i => simp [syncOp, closeStep, h.1]; exact h
  | sendSync m =>
    simp only [syncOp]
    cases parseHeader m with
    | error e => exact h
    | ok r => exact (Move.reg (st := st) (o := []) _).alive h
  | multi ms => exact h
  | thread i ch =>
    simp only [syncOp]
    cases hth : st.threads[i]? with
    | none => exact h
    | some th =>
      cases th with
      | sync c => exact (syncStep_move ch st c).alive h
      | multi c => exact (multiStep_move ch st c).alive h

theorem alive_run {st : SyncSt} (h : Alive st) (ops : List SyncOp) (hn : NoClose ops) : Alive (syncRun st ops) := by
  induction ops generalizing st with
  | nil => exact h
  | cons op ops ih =>
    exact ih (alive_step h op (hn op (by simp))) (fun o ho => hn o (by simp [ho]))

theorem alive_fresh (v : Option Nat) : Alive (freshSync v) := ⟨rfl, by simp [freshSync]⟩

theorem distinctRun_head {st : SyncSt} {ops : List SyncOp} (h : DistinctRun st ops) : DistinctIds st := by
  cases ops with
  | nil => exact h
  | cons op ops => exact h.1

theorem bound_run {st : SyncSt} (h : BoundInv st) (ops : List SyncOp) (hd : DistinctRun st ops) : BoundInv (syncRun st ops) := by
  induction ops generalizing st with
  | nil => exact h
  | cons op ops ih => exact ih (bound_step op h hd.1 (distinctRun_head hd.2)) hd.2

theorem bound_fresh (v : Option Nat) : BoundInv (freshSync v) := by intro i th hi; simp [freshSync] at hi

theorem version_run (st : SyncSt) (ops : List SyncOp) : (syncRun st ops).version = st.version := by
  induction ops generalizing st with
  | nil => rfl
  | cons op ops ih => exact (ih _).trans (version_step st op)

theorem sent_run (st : SyncSt) (ops : List SyncOp) : ∃ l, (syncRun st ops).sent = st.sent ++ l := by
  induction ops generalizing st with
  | nil => exact ⟨[], by simp [syncRun]⟩
  | cons op ops ih =>
    obtain ⟨l1, h1⟩ := sent_step st op
    obtain ⟨l2, h2⟩ := ih (syncOp st op)
    exact ⟨l1 ++ l2, by simp only [syncRun]; rw [h2, h1, List.append_assoc]⟩

theorem syncRun_append (st : SyncSt) (a b : List SyncOp) : syncRun st (a ++ b) = syncRun (syncRun st a) b := by
  induction a generalizing st with
  | nil => rfl
  | cons op a ih => exact ih _

theorem distinctRun_append {st : SyncSt} {a b : List SyncOp} (h : DistinctRun st (a ++ b)) :
    DistinctRun st a ∧ DistinctRun (syncRun st a) b := by
  induction a generalizing st with
  | nil => exact ⟨distinctRun_head h, h⟩
  | cons op a ih => obtain ⟨h1, h2⟩ := ih h.2; exact ⟨⟨h.1, h1⟩, h2⟩

theorem noClose_append {a b : List SyncOp} (h : NoClose (a ++ b)) : NoClose a ∧ NoClose b :=
  ⟨fun o ho => h o (List.mem_append_left _ ho), fun o ho => h o (List.mem_append_right _ ho)⟩

/-- Only its own steps change a thread. -/
theorem thread_other {st : SyncSt} (op : SyncOp) {i : Nat} {th : SThread} (h : st.threads[i]? = some th) :
    (syncOp st op).threads[i]? = some th ∨ ∃ ch, op = .thread i ch := by
  have hlt := lt_of_getElem? h
  cases op with
  | sendSync m =>
    left
    simp only [syncOp]
    cases parseHeader m <;> simp [List.getElem?_append_left hlt, h]
  | multi ms => left; simp only [syncOp, List.getElem?_append_left hlt, h]
  | thread j ch =>
    by_cases hj : j = i
    · exact .inr ⟨ch, by rw [hj]⟩
    · left
      simp only [syncOp]
      cases hth : st.threads[j]? with
      | none => exact h
      | some th' => cases th' <;> simp [hj, h]
  | recv m => left; rw [syncOp, (passive_recvBegin st m).threads]; exact h
  | recvStep => left; rw [syncOp, (passive_recvStep st).threads]; exact h
  | close => exact .inl h
  | closeStep j => left; rw [syncOp, (passive_closeStep st j).threads]; exact h

theorem thread_own_sync {st : SyncSt} {i : Nat} {c : SCall} (ch : Choice) (h : st.threads[i]? = some (.sync c)) :
    (syncOp st (.thread i ch)).threads[i]? = some (.sync (syncStep ch st c).2) := by
  have hlt := lt_of_getElem? h
  simp only [syncOp, h]; simp [hlt]

theorem thread_own_multi {st : SyncSt} {i : Nat} {c : MCall} (ch : Choice) (h : st.threads[i]? = some (.multi c)) :
    (syncOp st (.thread i ch)).threads[i]? = some (.multi (multiStep ch st c).2) := by
  have hlt := lt_of_getElem? h
  simp only [syncOp, h]; simp [hlt]

theorem syncStep_ids (ch : Choice) (st : SyncSt) (c : SCall) :
    (syncStep ch st c).2.xid = c.xid ∧ (syncStep ch st c).2.tr = c.tr ∧ (syncStep ch st c).2.msg = c.msg := by
  obtain ⟨x, t, pc, be, msg⟩ := c
  cases pc with
  | sending => simp only [syncStep]; split <;> exact ⟨rfl, rfl, rfl⟩
  | waiting =>
    have e : ∀ b : Bool, ∀ r : SCall, r = (if b = true then (st, (⟨x, t, SPc.popping, true, msg⟩ : SCall))
        else if ch.timeout = true then (st, (⟨x, t, SPc.popping, be, msg⟩ : SCall)) else (st, ⟨x, t, .waiting, be, msg⟩)).2 →
        r.xid = x ∧ r.tr = t ∧ r.msg = msg := by
      intro b r hr; subst hr; split
      · exact ⟨rfl, rfl, rfl⟩
      · split <;> exact ⟨rfl, rfl, rfl⟩
    exact e _ _ rfl
  | popping => simp only [syncStep]; cases st.syncs x <;> exact ⟨rfl, rfl, rfl⟩
  | reading => exact ⟨rfl, rfl, rfl⟩
  | done d => exact ⟨rfl, rfl, rfl⟩
  | failed e => exact ⟨rfl, rfl, rfl⟩

/-- A `send_sync` call keeps its id and tracker. -/
theorem sync_run {st : SyncSt} {i : Nat} {c : SCall} (h : st.threads[i]? = some (.sync c)) (ops : List SyncOp) :
    ∃ c', (syncRun st ops).threads[i]? = some (.sync c') ∧ c'.xid = c.xid ∧ c'.tr = c.tr ∧ c'.msg = c.msg := by
  induction ops generalizing st c with
  | nil => exact ⟨c, h, rfl, rfl, rfl⟩
  | cons op ops ih =>
    rcases thread_other op h with h' | ⟨ch, rfl⟩
    · exact ih h'
    · obtain ⟨c', h1, h2, h3, h4⟩ := ih (thread_own_sync ch h)
      obtain ⟨e1, e2, e3⟩ := syncStep_ids ch st c
      exact ⟨c', h1, h2.trans e1, h3.trans e2, h4.trans e3⟩

theorem failed_run {st : SyncSt} {i : Nat} {c : SCall} {e : Err} (h : st.threads[i]? = some (.sync c)) (hf : c.pc = .failed e)
    (ops : List SyncOp) : (syncRun st ops).threads[i]? = some (.sync c) := by
  induction ops generalizing st with
  | nil => exact h
  | cons op ops ih =>
    rcases thread_other op h with h' | ⟨ch, rfl⟩
    · exact ih h'
    · have := thread_own_sync ch h
      have e1 : (syncStep ch st c).2 = c := by simp [syncStep, hf]
      rw [e1] at this
      exact ih this

end Twink
