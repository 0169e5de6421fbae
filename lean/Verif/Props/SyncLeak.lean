import Verif.Props.Sync
import Mathlib.Data.List.Induction

/-!
# C26: exactly which records remain registered
-/

namespace Twink.Leak
open Twink

/-- What a `send_sync` call has registered and not removed. -/
def heldCall (c : SCall) : List (Nat × Nat) :=
  match c.pc with
  | .sending | .waiting | .popping | .failed .other => [(c.xid, c.tr)]
  | _ => []

/-- A `multi` call whose barrier could not be sent. -/
def BarrierUnsent (c : MCall) : Prop := c.pc = .failed .other ∧ c.todo = [] ∧ ∀ p ∈ c.prepared, p.2 < c.btr

instance (c : MCall) : Decidable (BarrierUnsent c) := by unfold BarrierUnsent; infer_instance

/-- What a call has registered and not removed. -/
def held : SThread → List (Nat × Nat)
  | .sync c => heldCall c
  | .multi c => c.prepared ++ (match c.pc with | .barrier s => heldCall s | _ => []) ++ if BarrierUnsent c then [(c.bxid, c.btr)] else []

/-- The effect of a step on the records of the thread that makes it. -/
inductive HMove (st st1 : SyncSt) (o o' : List (Nat × Nat)) : Prop
  | same (h1 : st1.syncs = st.syncs) (h2 : st1.heap = st.heap) (h : o' = o)
  | reg (x : Nat) (h1 : st1.syncs = (register st x).syncs) (h2 : st1.heap = (register st x).heap) (h : o'.Perm ((x, st.heap.length) :: o))
  | unreg (x t : Nat) (h1 : st1.syncs = (unregister st x).syncs) (h2 : st1.heap = st.heap) (h : o.Perm ((x, t) :: o'))
  | lost (x t : Nat) (h1 : st1.heap = st.heap) (h : (x, t) ∈ o) (hn : st.syncs x = none)

theorem syncStep_hmove (ch : Choice) (st : SyncSt) (c : SCall) :
    HMove st (syncStep ch st c).1 (heldCall c) (heldCall (syncStep ch st c).2) := by
  obtain ⟨x, t, pc, be, msg⟩ := c
  cases pc with
  | sending =>
    simp only [syncStep]
    split <;> exact .same rfl rfl rfl
  | waiting =>
    have e : ∀ b : Bool, HMove st (if b = true then (st, (⟨x, t, SPc.popping, true, msg⟩ : SCall))
        else if ch.timeout = true then (st, (⟨x, t, SPc.popping, be, msg⟩ : SCall)) else (st, ⟨x, t, .waiting, be, msg⟩)).1
        [(x, t)] (heldCall (if b = true then (st, (⟨x, t, SPc.popping, true, msg⟩ : SCall))
        else if ch.timeout = true then (st, (⟨x, t, SPc.popping, be, msg⟩ : SCall)) else (st, ⟨x, t, .waiting, be, msg⟩)).2) := by
      intro b; split
      · exact .same rfl rfl rfl
      · split <;> exact .same rfl rfl rfl
    exact e _
  | popping =>
    simp only [syncStep]
    cases hx : st.syncs x with
    | some t' => exact .unreg x t rfl rfl (List.Perm.refl _)
    | none => exact .lost x t rfl (by simp [heldCall]) hx
  | reading => exact .same rfl rfl rfl
  | done d => exact .same rfl rfl rfl
  | failed e => exact .same rfl rfl rfl

/-- What a `multi` call knows of its trackers, when there are `n` of them. -/
def MInv (n : Nat) (c : MCall) : Prop :=
  match c.pc with
  | .next => c.btr = 0 ∧ ∀ p ∈ c.prepared, p.2 < n
  | .sending => c.btr = 0 ∧ c.prepared ≠ [] ∧ ∀ p ∈ c.prepared, p.2 < n
  | .barrier s => s.xid = c.bxid ∧ s.tr = c.btr ∧ c.todo = [] ∧ ∀ p ∈ c.prepared, p.2 < c.btr
  | .done => c.prepared = []
  | _ => True

theorem parseHeader_other {m : Bytes} {e : Err} (h : parseHeader m = .error e) : e ≠ .other := by
  rintro rfl
  unfold parseHeader at h
  cases hu : unpackFrom hdrFmt m 0 with
  | error e =>
    rw [hu] at h
    simp only [bind, Except.bind] at h
    injection h with h
    subst h
    unfold unpackFrom at hu
    split at hu <;> cases hu
  | ok l =>
    rw [hu] at h
    simp only [bind, Except.bind] at h
    split at h <;> cases h

theorem barrierMsg_other {v : Option Nat} {x : Nat} {e : Err} (h : barrierMsg v x = .error e) : e ≠ .other := by
  rintro rfl
  unfold barrierMsg pack at h
  repeat' split at h
  all_goals cases h

theorem barrierResult_other {v : Option Nat} {d : Option Bytes} {e : Err} (h : barrierResult v d = .error e) : e ≠ .other := by
  cases d with
  | none => simp only [barrierResult] at h; injection h with h; subst h; decide
  | some m =>
    cases m with
    | nil => simp only [barrierResult] at h; injection h with h; subst h; decide
    | cons a m =>
      simp only [barrierResult] at h
      cases hp : parseHeader (a :: m) with
      | error e' =>
        rw [hp] at h
        simp only at h
        injection h with h
        subst h
        exact parseHeader_other hp
      | ok r =>
        rw [hp] at h
        simp only at h
        generalize (if v = some 1 then 19 else 21) = n at h
        by_cases hc : r.2.1 ≠ n
        · rw [if_pos hc] at h
          injection h with h; subst h; decide
        · rw [if_neg hc] at h
          cases h

theorem heldCall_failed {c : SCall} {e : Err} (h : c.pc = .failed e) (he : e ≠ .other) : heldCall c = [] := by
  unfold heldCall
  rw [h]
  cases e <;> first | rfl | exact absurd rfl he

theorem syncStep_frame (ch : Choice) (st : SyncSt) (c : SCall) :
    (syncStep ch st c).2.xid = c.xid ∧ (syncStep ch st c).2.tr = c.tr ∧ (syncStep ch st c).1.heap = st.heap := by
  obtain ⟨x, t, pc, be, msg⟩ := c
  cases pc with
  | sending => simp only [syncStep]; split <;> exact ⟨rfl, rfl, rfl⟩
  | waiting =>
    have e : ∀ b : Bool, let r := (if b = true then (st, (⟨x, t, SPc.popping, true, msg⟩ : SCall))
        else if ch.timeout = true then (st, (⟨x, t, SPc.popping, be, msg⟩ : SCall)) else (st, ⟨x, t, .waiting, be, msg⟩))
        r.2.xid = x ∧ r.2.tr = t ∧ r.1.heap = st.heap := by
      intro b; split
      · exact ⟨rfl, rfl, rfl⟩
      · split <;> exact ⟨rfl, rfl, rfl⟩
    exact e _
  | popping => simp only [syncStep]; split <;> exact ⟨rfl, rfl, rfl⟩
  | reading => exact ⟨rfl, rfl, rfl⟩
  | done d => exact ⟨rfl, rfl, rfl⟩
  | failed e => exact ⟨rfl, rfl, rfl⟩

theorem unsent_not {c : MCall} (h : c.pc ≠ .failed .other) : ¬ BarrierUnsent c := fun hb => h hb.1

theorem held_plain {c : MCall} (h : c.pc ≠ .failed .other) (hb : ∀ s, c.pc ≠ .barrier s) : held (.multi c) = c.prepared := by
  simp only [held]
  rw [if_neg (unsent_not h)]
  simp

theorem multiStep_hmove (ch : Choice) (st : SyncSt) (c : MCall) (hi : MInv st.heap.length c) :
    HMove st (multiStep ch st c).1 (held (.multi c)) (held (.multi (multiStep ch st c).2)) ∧
      MInv (multiStep ch st c).1.heap.length (multiStep ch st c).2 := by
  obtain ⟨all, todo, prepared, taken, results, bxid, btr, cur, pc⟩ := c
  have plain : ∀ {c c' : MCall}, c.pc ≠ .failed .other → c'.pc ≠ .failed .other → (∀ s, c.pc ≠ .barrier s) → (∀ s, c'.pc ≠ .barrier s) →
      c'.prepared = c.prepared → HMove st st (held (.multi c)) (held (.multi c')) := by
    intro c c' h1 h2 h3 h4 h5
    rw [held_plain h1 h3, held_plain h2 h4]
    exact .same rfl rfl h5
  cases pc with
  | next =>
    obtain ⟨hb, hp⟩ : btr = 0 ∧ ∀ p ∈ prepared, p.2 < st.heap.length := hi
    cases todo with
    | cons m rest =>
      simp only [multiStep]
      cases hm : parseHeader m with
      | error e =>
        exact ⟨plain (by simp) (by simpa using parseHeader_other hm) (by simp) (by simp) rfl, trivial⟩
      | ok r =>
        refine ⟨?_, hb, by simp, ?_⟩
        · rw [held_plain (by simp) (by simp), held_plain (by simp) (by simp)]
          exact .reg _ rfl rfl (List.perm_append_comm)
        · intro p hp'
          simp only [register, List.length_append, List.length_singleton]
          rcases List.mem_append.1 hp' with h | h
          · exact Nat.lt_succ_of_lt (hp p h)
          · rw [List.mem_singleton.1 h]; exact Nat.lt_succ_self _
    | nil =>
      simp only [multiStep]
      cases hm : barrierMsg st.version ch.bxid with
      | error e => exact ⟨plain (by simp) (by simpa using barrierMsg_other hm) (by simp) (by simp) rfl, trivial⟩
      | ok r =>
        refine ⟨?_, rfl, rfl, rfl, hp⟩
        rw [held_plain (by simp) (by simp)]
        simp only [held, heldCall]
        rw [if_neg (unsent_not (by simp)), List.append_nil]
        exact .reg _ rfl rfl (List.perm_append_comm)
  | sending =>
    obtain ⟨hb, hne, hp⟩ : btr = 0 ∧ prepared ≠ [] ∧ ∀ p ∈ prepared, p.2 < st.heap.length := hi
    simp only [multiStep]
    split
    · refine ⟨?_, hb, hp⟩
      rw [held_plain (by simp) (by simp), held_plain (by simp) (by simp)]
      exact .same rfl rfl rfl
    · refine ⟨?_, trivial⟩
      rw [held_plain (by simp) (by simp)]
      simp only [held]
      rw [if_neg]
      · exact .same rfl rfl (by simp)
      · rintro ⟨_, _, h⟩
        obtain ⟨p, hp'⟩ := List.exists_mem_of_ne_nil _ hne
        have := h p hp'
        simp only [hb] at this
        omega
  | barrier s =>
    obtain ⟨h1, h2, h3, h4⟩ : s.xid = bxid ∧ s.tr = btr ∧ todo = [] ∧ ∀ p ∈ prepared, p.2 < btr := hi
    have heldb : ∀ s : SCall, held (.multi ⟨all, todo, prepared, taken, results, bxid, btr, cur, .barrier s⟩) = prepared ++ heldCall s := by
      intro s
      simp only [held]
      rw [if_neg (unsent_not (by simp)), List.append_nil]
    have gen : HMove st (syncStep ch st s).1 (held (.multi ⟨all, todo, prepared, taken, results, bxid, btr, cur, .barrier s⟩))
        (held (.multi ⟨all, todo, prepared, taken, results, bxid, btr, cur, .barrier (syncStep ch st s).2⟩)) := by
      rw [heldb, heldb]
      cases syncStep_hmove ch st s with
      | same e1 e2 e3 => exact .same e1 e2 (by rw [e3])
      | reg x e1 e2 e3 =>
        refine .reg x e1 e2 ((e3.append_left prepared).trans ?_)
        exact List.perm_middle
      | unreg x t e1 e2 e3 => exact .unreg x t e1 e2 ((e3.append_left prepared).trans List.perm_middle)
      | lost x t e1 e2 e3 => exact .lost x t e1 (List.mem_append_right _ e2) e3
    have keep : MInv (syncStep ch st s).1.heap.length ⟨all, todo, prepared, taken, results, bxid, btr, cur, .barrier (syncStep ch st s).2⟩ := by
      have := syncStep_frame ch st s
      exact ⟨this.1.trans h1, this.2.1.trans h2, h3, h4⟩
    simp only [multiStep]
    cases hs : s.pc with
    | done d =>
      simp only
      rw [heldb]
      have hh : heldCall s = [] := by simp [heldCall, hs]
      rw [hh, List.append_nil]
      cases hr : barrierResult st.version d with
      | ok u =>
        refine ⟨?_, trivial⟩
        simp only
        rw [held_plain (by simp) (by simp)]
        exact .same rfl rfl rfl
      | error e =>
        refine ⟨?_, trivial⟩
        simp only
        rw [held_plain (by simpa using barrierResult_other hr) (by simp)]
        exact .same rfl rfl rfl
    | failed e =>
      refine ⟨?_, trivial⟩
      simp only
      rw [heldb]
      by_cases he : e = .other
      · subst he
        have hh : heldCall s = [(bxid, btr)] := by simp [heldCall, hs, h1, h2]
        rw [hh]
        simp only [held]
        rw [if_pos ⟨rfl, h3, h4⟩]
        exact .same rfl rfl (by simp)
      · rw [heldCall_failed hs he, List.append_nil, held_plain (by simpa using he) (by simp)]
        exact .same rfl rfl rfl
    | sending => exact ⟨gen, keep⟩
    | waiting => exact ⟨gen, keep⟩
    | popping => exact ⟨gen, keep⟩
    | reading => exact ⟨gen, keep⟩
  | collect =>
    simp only [multiStep]
    cases prepared with
    | nil => exact ⟨plain (by simp) (by simp) (by simp) (by simp) rfl, rfl⟩
    | cons q rest =>
      simp only
      cases hq : st.syncs q.1 with
      | some t => exact ⟨plain (by simp) (by simp) (by simp) (by simp) rfl, trivial⟩
      | none => exact ⟨.lost q.1 q.2 rfl (by rw [held_plain (by simp) (by simp)]; simp) hq, trivial⟩
  | reading =>
    simp only [multiStep]
    cases prepared with
    | nil => exact ⟨plain (by simp) (by simp) (by simp) (by simp) rfl, trivial⟩
    | cons q rest =>
      simp only
      cases hq : st.syncs q.1 with
      | some t => exact ⟨plain (by simp) (by simp) (by simp) (by simp) rfl, trivial⟩
      | none => exact ⟨.lost q.1 q.2 rfl (by rw [held_plain (by simp) (by simp)]; simp) hq, trivial⟩
  | popping =>
    simp only [multiStep]
    cases prepared with
    | nil => exact ⟨plain (by simp) (by simp) (by simp) (by simp) rfl, trivial⟩
    | cons q rest =>
      simp only
      cases hq : st.syncs q.1 with
      | some t =>
        refine ⟨?_, trivial⟩
        rw [held_plain (by simp) (by simp), held_plain (by simp) (by simp)]
        exact .unreg q.1 q.2 rfl rfl (List.Perm.refl _)
      | none => exact ⟨.lost q.1 q.2 rfl (by rw [held_plain (by simp) (by simp)]; simp) hq, trivial⟩
  | done => exact ⟨.same rfl rfl rfl, hi⟩
  | failed e => exact ⟨.same rfl rfl rfl, trivial⟩

/-- The dictionary has exactly the records in `L`; `hx` are the ids of the trackers. -/
structure Led (hx : List Nat) (syncs : Nat → Option Nat) (L : List (Nat × Nat)) : Prop where
  nd : (L.map Prod.snd).Nodup
  ids : ∀ p ∈ L, hx[p.2]? = some p.1
  iff : ∀ x t, syncs x = some t ↔ (x, t) ∈ L

theorem Led.perm {hx : List Nat} {syncs : Nat → Option Nat} {L L' : List (Nat × Nat)} (h : Led hx syncs L) (hp : L.Perm L') : Led hx syncs L' :=
  ⟨((hp.map _).nodup_iff).1 h.nd, fun p h' => h.ids p (hp.mem_iff.2 h'), fun x t => (h.iff x t).trans hp.mem_iff⟩

theorem Led.reg {hx : List Nat} {syncs : Nat → Option Nat} {L : List (Nat × Nat)} (h : Led hx syncs L) {x : Nat} (hn : (hx ++ [x]).Nodup) :
    Led (hx ++ [x]) (fun y => if y = x then some hx.length else syncs y) ((x, hx.length) :: L) := by
  have hlt : ∀ p ∈ L, p.2 < hx.length := fun p hp => lt_of_getElem? (h.ids p hp)
  have hnx : ∀ t, (x, t) ∉ L := by
    intro t ht
    have hm : x ∈ hx := List.mem_of_getElem? (h.ids _ ht)
    rw [List.nodup_append] at hn
    exact hn.2.2 x hm x (by simp) rfl
  refine ⟨?_, ?_, ?_⟩
  · rw [List.map_cons, List.nodup_cons]
    refine ⟨fun hm => ?_, h.nd⟩
    obtain ⟨p, hp, e⟩ := List.mem_map.1 hm
    have := hlt p hp
    omega
  · intro p hp
    rcases List.mem_cons.1 hp with rfl | hp
    · simp
    · rw [List.getElem?_append_left (hlt p hp)]
      exact h.ids p hp
  · intro y t
    by_cases hy : y = x
    · subst hy
      rw [if_pos rfl]
      constructor
      · intro e; injection e with e; subst e; exact List.mem_cons_self
      · intro hm
        rcases List.mem_cons.1 hm with e | hm
        · injection e with _ e; rw [e]
        · exact absurd hm (hnx t)
    · rw [if_neg hy, h.iff]
      simp [hy]

theorem Led.unreg {hx : List Nat} {syncs : Nat → Option Nat} {L : List (Nat × Nat)} {x t : Nat} (h : Led hx syncs ((x, t) :: L)) :
    Led hx (fun y => if y = x then none else syncs y) L := by
  refine ⟨?_, fun p hp => h.ids p (List.mem_cons_of_mem _ hp), ?_⟩
  · have := h.nd
    rw [List.map_cons, List.nodup_cons] at this
    exact this.2
  · intro y u
    by_cases hy : y = x
    · subst hy
      rw [if_pos rfl]
      constructor
      · intro e; cases e
      · intro hm
        exfalso
        have h1 := (h.iff y t).2 List.mem_cons_self
        have h2 := (h.iff y u).2 (List.mem_cons_of_mem _ hm)
        rw [h1] at h2
        injection h2 with h2
        subst h2
        have := h.nd
        rw [List.map_cons, List.nodup_cons] at this
        exact this.1 (List.mem_map.2 ⟨_, hm, rfl⟩)
    · rw [if_neg hy, h.iff]
      simp [hy]

/-- The ids of the trackers, in the order of their registration. -/
def idsOf (st : SyncSt) : List Nat := st.heap.map (·.xid)

/-- All that is held by calls. -/
def allHeld (st : SyncSt) : List (Nat × Nat) := (st.threads.map held).flatten

structure Inv (st : SyncSt) : Prop where
  led : Led (idsOf st) st.syncs (allHeld st)
  multi : ∀ c, SThread.multi c ∈ st.threads → MInv st.heap.length c

theorem set_perm {l : List SThread} {i : Nat} {a b : SThread} (h : l[i]? = some a) :
    ∃ rest, ((l.map held).flatten).Perm (held a ++ rest) ∧ (((l.set i b).map held).flatten).Perm (held b ++ rest) := by
  induction l generalizing i with
  | nil => simp at h
  | cons c l ih =>
    cases i with
    | zero =>
      simp only [List.getElem?_cons_zero, Option.some.injEq] at h
      subst h
      exact ⟨(l.map held).flatten, by simp, by simp⟩
    | succ i =>
      simp only [List.getElem?_cons_succ] at h
      obtain ⟨rest, h1, h2⟩ := ih h
      refine ⟨held c ++ rest, ?_, ?_⟩
      · simp only [List.map_cons, List.flatten_cons]
        refine (h1.append_left (held c)).trans ?_
        rw [← List.append_assoc, ← List.append_assoc]
        exact List.perm_append_comm.append_right rest
      · simp only [List.set_cons_succ, List.map_cons, List.flatten_cons]
        refine (h2.append_left (held c)).trans ?_
        rw [← List.append_assoc, ← List.append_assoc]
        exact List.perm_append_comm.append_right rest

theorem ids_register (st : SyncSt) (x : Nat) : (register st x).heap.map (·.xid) = idsOf st ++ [x] := by simp [register, idsOf]

theorem updTracker_ids (st : SyncSt) (t : Nat) (f : Tracker → Tracker) (hf : ∀ x, (f x).xid = x.xid) : idsOf (updTracker st t f) = idsOf st := by
  simp only [idsOf, updTracker]
  apply List.ext_getElem?
  intro i
  simp only [List.getElem?_map, List.getElem?_modify]
  cases st.heap[i]? with
  | none => rfl
  | some a =>
    simp only [Option.map_some]
    split
    · simp [hf]
    · rfl

theorem ids_recvBegin (st : SyncSt) (m : Bytes) : idsOf (recvBegin st m) = idsOf st := by
  unfold recvBegin
  repeat' split
  all_goals rfl

theorem ids_recvStep (st : SyncSt) : idsOf (recvStep st) = idsOf st := by
  unfold recvStep
  repeat' split
  all_goals first
    | rfl
    | exact updTracker_ids _ _ _ fun _ => rfl

theorem ids_closeStep (st : SyncSt) (i : Nat) : idsOf (closeStep st i) = idsOf st := by
  unfold closeStep
  repeat' split
  all_goals first
    | rfl
    | exact updTracker_ids _ _ _ fun _ => rfl

theorem MInv.mono {n n' : Nat} {c : MCall} (h : MInv n c) (hn : n ≤ n') : MInv n' c := by
  unfold MInv at *
  split at h
  · exact ⟨h.1, fun p hp => Nat.lt_of_lt_of_le (h.2 p hp) hn⟩
  · exact ⟨h.1, h.2.1, fun p hp => Nat.lt_of_lt_of_le (h.2.2 p hp) hn⟩
  · exact h
  · exact h
  · trivial

theorem inv_passive {st st' : SyncSt} (h : Inv st) (hp : Passive st st') (hi : idsOf st' = idsOf st) : Inv st' := by
  have hlen : st'.heap.length = st.heap.length := by
    have := congrArg List.length hi
    simpa [idsOf] using this
  refine ⟨?_, ?_⟩
  · rw [hi, hp.syncs, show allHeld st' = allHeld st by simp only [allHeld, hp.threads]]
    exact h.led
  · intro c hc
    rw [hp.threads] at hc
    rw [hlen]
    exact h.multi c hc

theorem inv_move {st st1 : SyncSt} (h : Inv st) {i : Nat} {a b : SThread} (ha : st.threads[i]? = some a) (hm : HMove st st1 (held a) (held b))
    (hb : ∀ c, b = .multi c → MInv st1.heap.length c) (hn : (st1.heap.map (·.xid)).Nodup) :
    Inv { st1 with threads := st.threads.set i b } := by
  obtain ⟨rest, h1, h2⟩ := set_perm (b := b) ha
  have hl := h.led.perm h1
  have hlen : st.heap.length ≤ st1.heap.length := by
    cases hm with
    | same _ e _ => rw [e]
    | reg x _ e _ => rw [e]; simp [register]
    | unreg x t _ e _ => rw [e]
    | lost x t e _ _ => rw [e]
  refine ⟨?_, ?_⟩
  · have key : Led (st1.heap.map (·.xid)) st1.syncs (held b ++ rest) := by
      cases hm with
      | same e1 e2 e3 => rw [e1, e2, e3]; exact hl
      | reg x e1 e2 e3 =>
        rw [e2, ids_register] at hn
        have := hl.reg hn
        rw [e1, e2, ids_register]
        have hlen' : (idsOf st).length = st.heap.length := by simp [idsOf]
        rw [hlen'] at this
        exact this.perm (e3.append_right rest).symm
      | unreg x t e1 e2 e3 =>
        rw [e1, e2]
        exact (hl.perm (e3.append_right rest)).unreg
      | lost x t e1 e2 e3 =>
        have := (hl.iff x t).2 (List.mem_append_left _ e2)
        rw [e3] at this
        cases this
    exact key.perm h2.symm
  · intro c hc
    rcases List.mem_or_eq_of_mem_set hc with hc | hc
    · exact (h.multi c hc).mono hlen
    · exact hb c hc.symm

theorem ids_step (st : SyncSt) (op : SyncOp) : ∃ l, idsOf (syncOp st op) = idsOf st ++ l := by
  have sync : ∀ ch c, (syncStep ch st c).1.heap = st.heap := fun ch c => (syncStep_frame ch st c).2.2
  cases op with
  | sendSync m =>
    simp only [syncOp]
    cases parseHeader m with
    | error e => exact ⟨[], by simp [idsOf]⟩
    | ok r => exact ⟨_, ids_register st _⟩
  | multi ms => exact ⟨[], by simp [syncOp, idsOf]⟩
  | thread i ch =>
    simp only [syncOp]
    cases st.threads[i]? with
    | none => exact ⟨[], by simp⟩
    | some th =>
      cases th with
      | sync c => exact ⟨[], by simp [idsOf, sync]⟩
      | multi c =>
        simp only
        have : (multiStep ch st c).1.heap = st.heap ∨ ∃ x, (multiStep ch st c).1.heap = (register st x).heap := by
          unfold multiStep
          cases c.pc with
          | next =>
            simp only
            split
            · split
              · exact .inl rfl
              · exact .inr ⟨_, rfl⟩
            · split
              · exact .inl rfl
              · exact .inr ⟨_, rfl⟩
          | sending => simp only; split <;> exact .inl rfl
          | barrier s =>
            simp only
            split
            · split <;> exact .inl rfl
            · exact .inl rfl
            · exact .inl (sync ch s)
          | collect => simp only; repeat' split
                       all_goals exact .inl rfl
          | reading => simp only; repeat' split
                       all_goals exact .inl rfl
          | popping => simp only; repeat' split
                       all_goals exact .inl rfl
          | done => exact .inl rfl
          | failed e => exact .inl rfl
        rcases this with e | ⟨x, e⟩
        · exact ⟨[], by simp [idsOf, e]⟩
        · exact ⟨[x], by simp only [idsOf, e]; exact ids_register st x⟩
  | recv m => exact ⟨[], by rw [List.append_nil]; exact ids_recvBegin st m⟩
  | recvStep => exact ⟨[], by rw [List.append_nil]; exact ids_recvStep st⟩
  | close => exact ⟨[], by simp [syncOp, idsOf]⟩
  | closeStep i => exact ⟨[], by rw [List.append_nil]; exact ids_closeStep st i⟩

theorem inv_step {st : SyncSt} (h : Inv st) (op : SyncOp) (hn : (idsOf (syncOp st op)).Nodup) : Inv (syncOp st op) := by
  cases op with
  | sendSync m =>
    simp only [syncOp] at hn ⊢
    cases hm : parseHeader m with
    | error e =>
      rw [hm] at hn
      simp only
      refine ⟨?_, ?_⟩
      · have hh : heldCall ⟨0, 0, .failed e, false, m⟩ = [] := heldCall_failed rfl (parseHeader_other hm)
        show Led (idsOf st) st.syncs ((st.threads ++ [_]).map held).flatten
        rw [List.map_append, List.flatten_append, List.map_singleton, List.flatten_singleton]
        show Led (idsOf st) st.syncs (_ ++ heldCall _)
        rw [hh, List.append_nil]
        exact h.led
      · intro c hc
        rcases List.mem_append.1 hc with hc | hc
        · exact h.multi c hc
        · simp at hc
    | ok r =>
      rw [hm] at hn
      simp only at hn ⊢
      have hn : ((register st r.2.2.2).heap.map (·.xid)).Nodup := hn
      rw [ids_register] at hn
      refine ⟨?_, ?_⟩
      · show Led ((register st r.2.2.2).heap.map (·.xid)) (register st r.2.2.2).syncs ((st.threads ++ [_]).map held).flatten
        rw [ids_register, List.map_append, List.flatten_append, List.map_singleton, List.flatten_singleton]
        have := h.led.reg hn
        have hlen' : (idsOf st).length = st.heap.length := by simp [idsOf]
        rw [hlen'] at this
        exact this.perm (List.perm_append_comm (l₁ := [_]))
      · intro c hc
        rcases List.mem_append.1 hc with hc | hc
        · exact (h.multi c hc).mono (by simp [register])
        · simp at hc
  | multi ms =>
    refine ⟨?_, ?_⟩
    · show Led (idsOf st) st.syncs ((st.threads ++ [_]).map held).flatten
      rw [List.map_append, List.flatten_append, List.map_singleton, List.flatten_singleton, held_plain (by simp) (by simp), List.append_nil]
      exact h.led
    · intro c hc
      rcases List.mem_append.1 hc with hc | hc
      · exact h.multi c hc
      · simp only [List.mem_singleton, SThread.multi.injEq] at hc
        subst hc
        exact ⟨rfl, by simp⟩
  | thread i ch =>
    simp only [syncOp] at hn ⊢
    cases hth : st.threads[i]? with
    | none => exact h
    | some th =>
      rw [hth] at hn
      cases th with
      | sync c => exact inv_move h hth (syncStep_hmove ch st c) (by simp) hn
      | multi c =>
        obtain ⟨h1, h2⟩ := multiStep_hmove ch st c (h.multi c (List.mem_of_getElem? hth))
        exact inv_move h hth h1 (by rintro c' e; injection e with e; subst e; exact h2) hn
  | recv m => exact inv_passive h (passive_recvBegin st m) (ids_recvBegin st m)
  | recvStep => exact inv_passive h (passive_recvStep st) (ids_recvStep st)
  | close => exact inv_passive h ⟨rfl, rfl, rfl, rfl⟩ rfl
  | closeStep i => exact inv_passive h (passive_closeStep st i) (ids_closeStep st i)

theorem inv_run (v : Option Nat) (ops : List SyncOp) (hn : (idsOf (syncRun (freshSync v) ops)).Nodup) : Inv (syncRun (freshSync v) ops) := by
  induction ops using List.reverseRecOn with
  | nil => exact ⟨⟨List.nodup_nil, by simp [allHeld, freshSync, syncRun], by simp [allHeld, freshSync, syncRun]⟩, by simp [freshSync, syncRun]⟩
  | append_singleton ops op ih =>
    rw [syncRun_append] at hn ⊢
    simp only [syncRun] at hn ⊢
    obtain ⟨l, hl⟩ := ids_step (syncRun (freshSync v) ops) op
    refine inv_step (ih ?_) op hn
    rw [hl, List.nodup_append] at hn
    exact hn.1

/-- **C26, exactly, for runs in which no id is registered twice.** When all calls have ended, the ids that are still registered are those
of the `send_sync` calls that could not send their message, those of the messages that `multi` calls that raised had registered, and
those of the barriers that `multi` calls could not send. -/
theorem C26_exact {v : Option Nat} {ops : List SyncOp} {st : SyncSt} (h : st = syncRun (freshSync v) ops) (hn : (st.heap.map (·.xid)).Nodup)
    (hall : ∀ th ∈ st.threads, Returned th ∨ Raised th) (x : Nat) :
    st.syncs x ≠ none ↔ (∃ c, .sync c ∈ st.threads ∧ c.pc = .failed .other ∧ c.xid = x) ∨
      ∃ c e, .multi c ∈ st.threads ∧ c.pc = .failed e ∧ ((∃ t, (x, t) ∈ c.prepared) ∨ (BarrierUnsent c ∧ c.bxid = x)) := by
  subst h
  have hi := inv_run v ops hn
  have hmem : (syncRun (freshSync v) ops).syncs x ≠ none ↔ ∃ t, (x, t) ∈ allHeld (syncRun (freshSync v) ops) := by
    rw [Option.ne_none_iff_exists']
    exact exists_congr fun t => hi.led.iff x t
  rw [hmem]
  simp only [allHeld, List.mem_flatten, List.mem_map]
  constructor
  · rintro ⟨t, l, ⟨th, hth, rfl⟩, hl⟩
    cases th with
    | sync c =>
      left
      refine ⟨c, hth, ?_⟩
      simp only [held, heldCall] at hl
      rcases hall _ hth with ⟨d, hd⟩ | ⟨e, he⟩
      · rw [hd] at hl; simp at hl
      · rw [he] at hl
        split at hl
        · rename_i h; cases h
        · rename_i h; cases h
        · rename_i h; cases h
        · rename_i h
          rw [he, h]
          simp only [List.mem_singleton, Prod.mk.injEq] at hl
          exact ⟨rfl, hl.1.symm⟩
        · simp at hl
    | multi c =>
      right
      rcases hall _ hth with hd | ⟨e, he⟩
      · have hd : c.pc = .done := hd
        exfalso
        rw [held_plain (by simp [hd]) (by simp [hd])] at hl
        have := hi.multi c hth
        simp only [MInv, hd] at this
        rw [this] at hl
        cases hl
      · refine ⟨c, e, hth, he, ?_⟩
        simp only [held, he, List.append_nil] at hl
        rcases List.mem_append.1 hl with hl | hl
        · exact .inl ⟨t, hl⟩
        · right
          split at hl
          · rename_i hb
            simp only [List.mem_singleton, Prod.mk.injEq] at hl
            exact ⟨hb, hl.1.symm⟩
          · simp at hl
  · rintro (⟨c, hc, hf, rfl⟩ | ⟨c, e, hc, he, h⟩)
    · exact ⟨c.tr, _, ⟨_, hc, rfl⟩, by simp [held, heldCall, hf]⟩
    · rcases h with ⟨t, ht⟩ | ⟨hb, rfl⟩
      · exact ⟨t, _, ⟨_, hc, rfl⟩, by simp [held, ht]⟩
      · exact ⟨c.btr, _, ⟨_, hc, rfl⟩, by simp [held, hb]⟩

/-- The hypotheses are met by a run with a `multi` whose barrier is not answered in time and a `send_sync` that is answered: the
message of the `multi` stays registered, the others do not. -/
example : ∃ st, st = syncRun (freshSync (some 4)) ([.multi [exReq], .thread 0 go, .thread 0 go, .thread 0 ⟨true, false, 99⟩, .thread 0 go,
      .thread 0 timedOut, .thread 0 go, .thread 0 go, .thread 0 go, .sendSync [4, 5, 0, 8, 0, 0, 0, 8], .thread 1 go] ++
      recvAll [4, 6, 0, 8, 0, 0, 0, 8] ++ [.thread 1 go, .thread 1 go, .thread 1 go]) ∧
    (st.heap.map (·.xid)).Nodup ∧ (∀ th ∈ st.threads, Returned th ∨ Raised th) ∧ st.syncs 7 ≠ none ∧ st.syncs 8 = none ∧ st.syncs 99 = none := by
  refine ⟨_, rfl, by decide +kernel, ?_, by decide +kernel, by decide +kernel, by decide +kernel⟩
  have : (syncRun (freshSync (some 4)) ([.multi [exReq], .thread 0 go, .thread 0 go, .thread 0 ⟨true, false, 99⟩, .thread 0 go,
      .thread 0 timedOut, .thread 0 go, .thread 0 go, .thread 0 go, .sendSync [4, 5, 0, 8, 0, 0, 0, 8], .thread 1 go] ++
      recvAll [4, 6, 0, 8, 0, 0, 0, 8] ++ [.thread 1 go, .thread 1 go, .thread 1 go])).threads =
      [.multi ⟨[exReq], [], [(7, 0)], [], [], 99, 1, exReq, .failed .channelClose⟩,
       .sync ⟨8, 2, .done (some [4, 6, 0, 8, 0, 0, 0, 8]), true, [4, 5, 0, 8, 0, 0, 0, 8]⟩] := by decide +kernel
  rw [this]
  simp [Returned, Raised]

end Twink.Leak
