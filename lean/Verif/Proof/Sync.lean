import Verif.Spec.Sync
import Verif.Proof.Fields
import Verif.Proof.HelloSpec

/-! Invariants of the synchronous request machine. -/

namespace Twink
open Spec Fmt

theorem isMultipart_iff (m : Bytes) : isMultipart (u8 m 0) (u8 m 1) = true ↔ IsMultipartRep m := by
  unfold isMultipart IsMultipartRep
  by_cases h : u8 m 0 = 1 <;> simp [h]

theorem storeData_eq (m : Bytes) (old : Option Bytes) :
    storeData (isMultipart (u8 m 0) (u8 m 1)) m old =
      if IsMultipartRep m then some (old.getD [] ++ m) else some m := by
  unfold storeData
  by_cases h : IsMultipartRep m
  · rw [if_pos ((isMultipart_iff m).2 h), if_pos h]; cases old <;> simp
  · rw [if_neg (fun hh => h ((isMultipart_iff m).1 hh)), if_neg h]

theorem assembled_snoc (l : List Bytes) (m : Bytes) :
    assembled (l ++ [m]) = if IsMultipartRep m then some ((assembled l).getD [] ++ m) else some m := by
  simp [assembled, List.foldl_append]

theorem assembled_ne_none {l : List Bytes} (h : l ≠ []) : assembled l ≠ none := by
  rcases List.eq_nil_or_concat l with rfl | ⟨l', m, rfl⟩
  · exact absurd rfl h
  · rw [List.concat_eq_append, assembled_snoc]; split <;> simp

/-- The messages of `rx` from position `s` up to `n`. -/
def seg (rx : List Bytes) (s n : Nat) : List Bytes := (rx.take n).drop s

theorem seg_append (rx more : List Bytes) (s n : Nat) (h : n ≤ rx.length) : seg (rx ++ more) s n = seg rx s n := by
  simp [seg, List.take_append_of_le_length h]

theorem seg_snoc (rx : List Bytes) (m : Bytes) (s : Nat) (h : s ≤ rx.length) :
    seg (rx ++ [m]) s (rx.length + 1) = seg rx s rx.length ++ [m] := by
  simp only [seg]
  rw [show rx.length + 1 = (rx ++ [m]).length by simp, List.take_length, List.take_length, List.drop_append_of_le_length h]

/-- How states evolve: trackers are never removed, keep id and creation time; events and the closing mark are never reset;
received messages accumulate; new trackers are created now; a tracker that is not registered is never registered again. -/
structure Ext (a b : SyncSt) : Prop where
  old : ∀ (t : Nat) (tr : Tracker), a.heap[t]? = some tr → ∃ tr' : Tracker, b.heap[t]? = some tr' ∧ tr'.xid = tr.xid ∧ tr'.since = tr.since ∧
    (tr.ev = true → tr'.ev = true) ∧ (tr.killed = true → tr'.killed = true)
  rx : ∃ more, b.rx = a.rx ++ more
  new : ∀ (t : Nat) (tr : Tracker), b.heap[t]? = some tr → a.heap.length ≤ t → a.rx.length ≤ tr.since
  unbound : ∀ t, t < a.heap.length → (∀ x, a.syncs x ≠ some t) → ∀ x, b.syncs x ≠ some t

theorem Ext.length {a b : SyncSt} (h : Ext a b) : a.heap.length ≤ b.heap.length := by
  apply Nat.le_of_not_lt
  intro hlt
  obtain ⟨tr', h1, _⟩ := h.old b.heap.length _ (List.getElem?_eq_getElem hlt)
  simp at h1

theorem Ext.refl (a : SyncSt) : Ext a a where
  old := fun _ tr h => ⟨tr, h, rfl, rfl, id, id⟩
  rx := ⟨[], by simp⟩
  new := fun t tr h ht => by
    have : t < a.heap.length := by
      rcases Nat.lt_or_ge t a.heap.length with h' | h'
      · exact h'
      · rw [List.getElem?_eq_none h'] at h; simp at h
    omega
  unbound := fun _ _ h => h

theorem Ext.trans {a b c : SyncSt} (h1 : Ext a b) (h2 : Ext b c) : Ext a c where
  old := fun t tr h => by
    obtain ⟨tr', e1, e2, e3, e4, e5⟩ := h1.old t tr h
    obtain ⟨tr'', f1, f2, f3, f4, f5⟩ := h2.old t tr' e1
    exact ⟨tr'', f1, f2.trans e2, f3.trans e3, fun h => f4 (e4 h), fun h => f5 (e5 h)⟩
  rx := by
    obtain ⟨m1, e1⟩ := h1.rx
    obtain ⟨m2, e2⟩ := h2.rx
    exact ⟨m1 ++ m2, by rw [e2, e1, List.append_assoc]⟩
  new := fun t tr h ht => by
    rcases Nat.lt_or_ge t b.heap.length with hb | hb
    · obtain ⟨tr', f1, _, f3, _, _⟩ := h2.old t _ (List.getElem?_eq_getElem hb)
      rw [f1] at h; injection h with h; subst h
      rw [f3]
      exact h1.new t _ (List.getElem?_eq_getElem hb) ht
    · obtain ⟨m1, e1⟩ := h1.rx
      have := h2.new t tr h hb
      rw [e1, List.length_append] at this; omega
  unbound := fun t ht hu => h2.unbound t (Nat.lt_of_lt_of_le ht h1.length) (h1.unbound t ht hu)

/-- What is known about a tracker. -/
def TrackerInv (st : SyncSt) (t : Nat) (tr : Tracker) : Prop :=
  tr.killed = false → ∃ n, tr.since ≤ n ∧ n ≤ st.rx.length ∧
    tr.data = assembled (withId tr.xid (seg st.rx tr.since n)) ∧
    (tr.ev = true → ∃ m ∈ withId tr.xid (seg st.rx tr.since n), IsFinal m) ∧
    ((∃ m ∈ withId tr.xid (seg st.rx tr.since n), IsFinal m) → tr.ev = true ∨ ∃ m, st.rpc = .stored m t ∧ IsFinal m) ∧
    (∀ m, st.rpc = .found m t → n + 1 = st.rx.length ∧ ∃ r, st.rx = r ++ [m]) ∧
    (∀ m, st.rpc = .stored m t → m ∈ withId tr.xid (seg st.rx tr.since n)) ∧
    (st.syncs tr.xid = some t → (∀ m, st.rpc ≠ .found m t) → n = st.rx.length)

structure SyncInv (st : SyncSt) : Prop where
  bound : ∀ (x t : Nat), st.syncs x = some t → ∃ tr : Tracker, st.heap[t]? = some tr ∧ tr.xid = x
  tracker : ∀ (t : Nat) (tr : Tracker), st.heap[t]? = some tr → TrackerInv st t tr
  checked : ∀ m, st.rpc = .checked m → 8 ≤ m.length
  busy : ∀ m t, st.rpc = .found m t ∨ st.rpc = .stored m t → 8 ≤ m.length ∧ ∃ tr : Tracker, st.heap[t]? = some tr ∧ tr.xid = u32 m 4
  closer : ∀ (i t : Nat) (ts : List Nat), st.closers[i]? = some (t :: ts, true) → ∃ tr : Tracker, st.heap[t]? = some tr ∧ tr.killed = true
  range : ∀ (i : Nat) (l : List Nat) (b : Bool), st.closers[i]? = some (l, b) → ∀ t ∈ l, t < st.heap.length

theorem inv_fresh (v : Option Nat) : SyncInv (freshSync v) :=
  ⟨by simp [freshSync], by simp [freshSync], by simp [freshSync], by simp [freshSync], by simp [freshSync], by simp [freshSync]⟩

theorem lt_of_getElem? {α : Type _} {l : List α} {i : Nat} {a : α} (h : l[i]? = some a) : i < l.length := by
  rcases Nat.lt_or_ge i l.length with h' | h'
  · exact h'
  · rw [List.getElem?_eq_none h'] at h; simp at h

/-- The invariants do not mention the sent messages. -/
theorem inv_sent {st : SyncSt} (h : SyncInv st) (l : List (Bytes × Nat)) : SyncInv { st with sent := l } :=
  ⟨h.bound, h.tracker, h.checked, h.busy, h.closer, h.range⟩

theorem ext_sent {a st : SyncSt} (h : Ext a st) (l : List (Bytes × Nat)) : Ext a { st with sent := l } :=
  ⟨h.old, h.rx, h.new, h.unbound⟩

/-- The invariants do not mention the threads. -/
theorem inv_threads {st : SyncSt} (h : SyncInv st) (ths : List SThread) : SyncInv { st with threads := ths } :=
  ⟨h.bound, h.tracker, h.checked, h.busy, h.closer, h.range⟩

theorem ext_threads {a st : SyncSt} (h : Ext a st) (ths : List SThread) : Ext a { st with threads := ths } :=
  ⟨h.old, h.rx, h.new, h.unbound⟩

theorem inv_register {st : SyncSt} (h : SyncInv st) (x : Nat) : SyncInv (register st x) ∧ Ext st (register st x) := by
  have hget : ∀ (t : Nat) (tr : Tracker), (register st x).heap[t]? = some tr →
      st.heap[t]? = some tr ∨ (t = st.heap.length ∧ tr = ⟨x, false, none, st.rx.length, false⟩) := by
    intro t tr ht
    simp only [register] at ht
    rcases Nat.lt_trichotomy t st.heap.length with hl | hl | hl
    · left; rwa [List.getElem?_append_left hl] at ht
    · right; subst hl; simp at ht; exact ⟨rfl, ht.symm⟩
    · rw [List.getElem?_eq_none (by simp; omega)] at ht; simp at ht
  have hold : ∀ (t : Nat) (tr : Tracker), st.heap[t]? = some tr → (register st x).heap[t]? = some tr := by
    intro t tr ht
    simp only [register]; rw [List.getElem?_append_left (lt_of_getElem? ht)]; exact ht
  constructor
  · refine ⟨?_, ?_, h.checked, ?_, ?_, fun i l b hc t ht => by have := h.range i l b hc t ht; simp [register]; omega⟩
    · intro y t hy
      simp only [register] at hy
      split at hy
      · injection hy with hy; subst hy; exact ⟨⟨x, false, none, st.rx.length, false⟩, by simp [register], by simp [*]⟩
      · obtain ⟨tr, h1, h2⟩ := h.bound y t hy; exact ⟨tr, hold _ _ h1, h2⟩
    · intro t tr ht
      rcases hget t tr ht with ht | ⟨rfl, rfl⟩
      · intro hk
        obtain ⟨n, a1, a2, a3, a4, a5, a6, a7, a8⟩ := h.tracker t tr ht hk
        refine ⟨n, a1, a2, a3, a4, a5, a6, a7, ?_⟩
        intro hs hf
        simp only [register] at hs
        split at hs
        · injection hs with hs; have := lt_of_getElem? ht; omega
        · exact a8 hs hf
      · intro _
        have hseg : seg st.rx st.rx.length st.rx.length = [] := by simp [seg]
        refine ⟨st.rx.length, Nat.le_refl _, Nat.le_refl _, ?_, by simp, ?_, ?_, ?_, fun _ _ => rfl⟩
        · simp only [register, hseg]; rfl
        · simp only [register, hseg]; simp [withId]
        · intro m hm
          obtain ⟨_, tr, h1, _⟩ := h.busy m st.heap.length (.inl hm)
          have := lt_of_getElem? h1; omega
        · intro m hm
          obtain ⟨_, tr, h1, _⟩ := h.busy m st.heap.length (.inr hm)
          have := lt_of_getElem? h1; omega
    · intro m t hm
      obtain ⟨h8, tr, h1, h2⟩ := h.busy m t hm
      exact ⟨h8, tr, hold _ _ h1, h2⟩
    · intro i t ts hc
      obtain ⟨tr, h1, h2⟩ := h.closer i t ts hc
      exact ⟨tr, hold _ _ h1, h2⟩
  · refine ⟨fun t tr ht => ⟨tr, hold _ _ ht, rfl, rfl, id, id⟩, ⟨[], by simp [register]⟩, ?_, ?_⟩
    · intro t tr ht hl
      rcases hget t tr ht with ht | ⟨rfl, rfl⟩
      · have := lt_of_getElem? ht; omega
      · exact Nat.le_refl _
    · intro t ht hu y
      simp only [register]
      split
      · intro e; injection e with e; omega
      · exact hu y

theorem inv_unregister {st : SyncSt} (h : SyncInv st) (x : Nat) : SyncInv (unregister st x) ∧ Ext st (unregister st x) := by
  have hs : ∀ y t, (unregister st x).syncs y = some t → st.syncs y = some t := by
    intro y t hy; simp only [unregister] at hy; split at hy
    · simp at hy
    · exact hy
  constructor
  · refine ⟨fun y t hy => h.bound y t (hs y t hy), ?_, h.checked, h.busy, h.closer, h.range⟩
    intro t tr ht hk
    obtain ⟨n, a1, a2, a3, a4, a5, a6, a7, a8⟩ := h.tracker t tr ht hk
    exact ⟨n, a1, a2, a3, a4, a5, a6, a7, fun e => a8 (hs _ _ e)⟩
  · exact ⟨fun t tr ht => ⟨tr, ht, rfl, rfl, id, id⟩, ⟨[], by simp [unregister]⟩, (Ext.refl st).new,
      fun t _ hu y e => hu y (hs y t e)⟩

theorem unregister_unbound {st : SyncSt} (h : SyncInv st) {t : Nat} {tr : Tracker} (ht : st.heap[t]? = some tr) (y : Nat) :
    (unregister st tr.xid).syncs y ≠ some t := by
  simp only [unregister]
  split
  · simp
  · intro e
    obtain ⟨tr', h1, h2⟩ := h.bound y t e
    rw [ht] at h1; injection h1 with h1; subst h1; simp_all

theorem withId_append (x : Nat) (a b : List Bytes) : withId x (a ++ b) = withId x a ++ withId x b := by simp [withId]

/-- Receiving a message that is for nobody, or whose tracker disappeared: only `rx` grows. -/
theorem inv_rx_unbound {st : SyncSt} (h : SyncInv st) (m : Bytes) (hr : st.rpc = .idle ∨ ∃ m', st.rpc = .checked m')
    (hu : st.syncs (u32 m 4) = none) (e : Option Err) :
    SyncInv { st with rpc := .idle, rx := st.rx ++ [m], rerr := e } ∧ Ext st { st with rpc := .idle, rx := st.rx ++ [m], rerr := e } := by
  constructor
  · refine ⟨h.bound, ?_, by simp, by simp, h.closer, h.range⟩
    intro t tr ht hk
    obtain ⟨n, a1, a2, a3, a4, a5, a6, a7, a8⟩ := h.tracker t tr ht hk
    by_cases hb : st.syncs tr.xid = some t
    · have hn : n = st.rx.length := a8 hb (by rcases hr with hr | ⟨m', hr⟩ <;> simp [hr])
      subst hn
      have hx : u32 m 4 ≠ tr.xid := by intro e; rw [e, hb] at hu; simp at hu
      have e1 : withId tr.xid (seg (st.rx ++ [m]) tr.since (st.rx.length + 1)) = withId tr.xid (seg st.rx tr.since st.rx.length) := by
        rw [seg_snoc _ _ _ a1, withId_append]; simp [withId, hx]
      refine ⟨st.rx.length + 1, by omega, by simp, ?_, ?_, ?_, by simp, by simp, by simp⟩
      · rw [e1]; exact a3
      · rw [e1]; exact a4
      · rw [e1]; intro hf
        rcases a5 hf with h' | ⟨m', h', _⟩
        · exact .inl h'
        · rcases hr with hr | ⟨m'', hr⟩ <;> simp [hr] at h'
    · have e1 : seg (st.rx ++ [m]) tr.since n = seg st.rx tr.since n := seg_append _ _ _ _ a2
      refine ⟨n, a1, by simp; omega, ?_, ?_, ?_, by simp, by simp, fun hb' => absurd hb' hb⟩
      · rw [e1]; exact a3
      · rw [e1]; exact a4
      · rw [e1]; intro hf
        rcases a5 hf with h' | ⟨m', h', _⟩
        · exact .inl h'
        · rcases hr with hr | ⟨m'', hr⟩ <;> simp [hr] at h'
  · exact ⟨(Ext.refl st).old, ⟨[m], rfl⟩, (Ext.refl st).new, fun _ _ hu => hu⟩

/-- Setting only the receiver's position to idle, and the error mark, when it was idle or had checked. -/
theorem inv_rpc_idle {st : SyncSt} (h : SyncInv st) (hr : ∀ m t, st.rpc ≠ .found m t) (hr2 : ∀ m t, st.rpc = .stored m t → ¬ IsFinal m)
    (e : Option Err) :
    SyncInv { st with rpc := .idle, rerr := e } ∧ Ext st { st with rpc := .idle, rerr := e } := by
  constructor
  · refine ⟨h.bound, ?_, by simp, by simp, h.closer, h.range⟩
    intro t tr ht hk
    obtain ⟨n, a1, a2, a3, a4, a5, a6, a7, a8⟩ := h.tracker t tr ht hk
    refine ⟨n, a1, a2, a3, a4, ?_, by simp, by simp, fun hb _ => a8 hb (fun m => hr m t)⟩
    intro hf
    rcases a5 hf with h' | ⟨m', h', h''⟩
    · exact .inl h'
    · exact absurd h'' (hr2 m' t h')
  · exact ⟨(Ext.refl st).old, ⟨[], by simp⟩, (Ext.refl st).new, fun _ _ hu => hu⟩

theorem inv_recvBegin {st : SyncSt} (h : SyncInv st) (m : Bytes) : SyncInv (recvBegin st m) ∧ Ext st (recvBegin st m) := by
  unfold recvBegin
  cases hr : st.rpc with
  | idle =>
    simp only
    split
    · exact ⟨h, Ext.refl st⟩
    · by_cases h8 : 8 ≤ m.length
      · rw [parseHeader_fields m h8]
        simp only
        split
        · rename_i hs
          constructor
          · refine ⟨h.bound, ?_, ?_, by simp, h.closer, h.range⟩
            · intro t tr ht hk
              obtain ⟨n, a1, a2, a3, a4, a5, a6, a7, a8⟩ := h.tracker t tr ht hk
              refine ⟨n, a1, a2, a3, a4, ?_, by simp, by simp, fun hb _ => a8 hb (by simp [hr])⟩
              intro hf
              rcases a5 hf with h' | ⟨m', h', _⟩
              · exact .inl h'
              · simp [hr] at h'
            · intro m' hm'; injection hm' with hm'; subst hm'; exact h8
          · exact ⟨(Ext.refl st).old, ⟨[], by simp⟩, (Ext.refl st).new, fun _ _ hu => hu⟩
        · rename_i hs
          exact inv_rx_unbound h m (.inl hr) (by simpa using hs) st.rerr
      · rw [parseHeader_short m (by omega)]
        exact inv_rpc_idle h (by simp [hr]) (by simp [hr]) (some .structError)
  | checked _ => exact ⟨h, Ext.refl st⟩
  | found _ _ => exact ⟨h, Ext.refl st⟩
  | stored _ _ => exact ⟨h, Ext.refl st⟩

theorem updTracker_get (st : SyncSt) (t : Nat) (f : Tracker → Tracker) (j : Nat) :
    (updTracker st t f).heap[j]? = if t = j then (st.heap[j]?).map f else st.heap[j]? := by
  simp only [updTracker, List.getElem?_modify]
  split <;> simp

theorem ext_upd {st : SyncSt} (t : Nat) (f : Tracker → Tracker) (hx : ∀ x, (f x).xid = x.xid ∧ (f x).since = x.since ∧
    (x.ev = true → (f x).ev = true) ∧ (x.killed = true → (f x).killed = true)) (st' : SyncSt)
    (h1 : st'.heap = (updTracker st t f).heap) (h2 : st'.rx = st.rx) (h3 : st'.syncs = st.syncs) : Ext st st' := by
  refine ⟨?_, ⟨[], by simp [h2]⟩, ?_, ?_⟩
  · intro j tr hj
    rw [h1, updTracker_get]
    split
    · exact ⟨f tr, by rw [hj]; rfl, (hx tr).1, (hx tr).2.1, (hx tr).2.2.1, (hx tr).2.2.2⟩
    · exact ⟨tr, hj, rfl, rfl, id, id⟩
  · intro j tr hj hl
    rw [h1] at hj
    have := lt_of_getElem? hj
    simp [updTracker] at this
    omega
  · intro j _ hu; rw [h3]; exact hu

theorem unpack_flags (m : Bytes) (h : 12 ≤ m.length) : unpackFrom [H] m 10 = .ok [.int (u16 m 10)] := by
  rw [unpackFrom, if_pos (by simp [calcsize, Item.width]; omega)]
  simp only [dec, decBE_u16 m 10 (by omega)]

theorem unpack_flags_short (m : Bytes) (h : m.length < 12) : unpackFrom [H] m 10 = .error .structError := by
  rw [unpackFrom, if_neg (by simp [calcsize, Item.width]; omega)]

theorem inv_setEv {st : SyncSt} (h : SyncInv st) {m : Bytes} {t : Nat} (hr : st.rpc = .stored m t) (hf : IsFinal m) :
    SyncInv { updTracker st t (fun x => { x with ev := true }) with rpc := .idle } ∧
    Ext st { updTracker st t (fun x => { x with ev := true }) with rpc := .idle } := by
  constructor
  · refine ⟨?_, ?_, by simp, by simp, ?_, fun i l b hc t' ht => by have := h.range i l b hc t' ht; simpa [updTracker] using this⟩
    · intro y t' hy
      obtain ⟨tr, h1, h2⟩ := h.bound y t' hy
      refine ⟨if t = t' then { tr with ev := true } else tr, ?_, ?_⟩
      · show (updTracker st t _).heap[t']? = _
        rw [updTracker_get, h1]; split <;> rfl
      · split <;> exact h2
    · intro t' tr ht hk
      change (updTracker st t _).heap[t']? = _ at ht
      rw [updTracker_get] at ht
      split at ht
      · rename_i e; subst e
        cases hg : st.heap[t]? with
        | none => rw [hg] at ht; simp at ht
        | some tr0 =>
          rw [hg] at ht; simp at ht; subst ht
          obtain ⟨n, a1, a2, a3, a4, a5, a6, a7, a8⟩ := h.tracker t tr0 hg hk
          exact ⟨n, a1, a2, a3, fun _ => ⟨m, a7 m hr, hf⟩, fun _ => .inl rfl, by simp, by simp,
            fun hb _ => a8 hb (by simp [hr])⟩
      · rename_i ne
        obtain ⟨n, a1, a2, a3, a4, a5, a6, a7, a8⟩ := h.tracker t' tr ht hk
        refine ⟨n, a1, a2, a3, a4, ?_, by simp, by simp, fun hb _ => a8 hb (by simp [hr])⟩
        intro hf
        rcases a5 hf with h' | ⟨m', h', _⟩
        · exact .inl h'
        · rw [hr] at h'; injection h' with _ h'; exact absurd h' ne
    · intro i t' ts hc
      obtain ⟨tr, h1, h2⟩ := h.closer i t' ts hc
      refine ⟨if t = t' then { tr with ev := true } else tr, ?_, ?_⟩
      · show (updTracker st t _).heap[t']? = _
        rw [updTracker_get, h1]; split <;> rfl
      · split <;> exact h2
  · exact ext_upd t _ (by simp) _ rfl rfl rfl

theorem inv_recvStep {st : SyncSt} (h : SyncInv st) : SyncInv (recvStep st) ∧ Ext st (recvStep st) := by
  unfold recvStep
  cases hr : st.rpc with
  | idle => exact ⟨h, Ext.refl st⟩
  | checked m =>
    simp only
    rw [parseHeader_fields m (h.checked m hr)]
    simp only
    cases hs : st.syncs (u32 m 4) with
    | none => exact inv_rx_unbound h m (.inr ⟨m, hr⟩) hs _
    | some t =>
      simp only
      obtain ⟨trt, ht1, ht2⟩ := h.bound _ _ hs
      constructor
      · refine ⟨h.bound, ?_, by simp, ?_, h.closer, h.range⟩
        · intro t' tr ht hk
          obtain ⟨n, a1, a2, a3, a4, a5, a6, a7, a8⟩ := h.tracker t' tr ht hk
          have a5' : (∃ m ∈ withId tr.xid (seg st.rx tr.since n), IsFinal m) → tr.ev = true := by
            intro hf
            rcases a5 hf with h' | ⟨m', h', _⟩
            · exact h'
            · simp [hr] at h'
          by_cases hb : st.syncs tr.xid = some t'
          · have hn : n = st.rx.length := a8 hb (by simp [hr])
            subst hn
            by_cases htt : t' = t
            · subst htt
              have e1 : seg (st.rx ++ [m]) tr.since st.rx.length = seg st.rx tr.since st.rx.length := seg_append _ _ _ _ a2
              refine ⟨st.rx.length, a1, by simp, ?_, ?_, ?_, ?_, by simp, fun _ hf => absurd rfl (hf m)⟩
              · rw [e1]; exact a3
              · rw [e1]; exact a4
              · rw [e1]; exact fun hf => .inl (a5' hf)
              · intro m' hm'; injection hm' with hm' _; subst hm'; exact ⟨by simp, _, rfl⟩
            · have hx : u32 m 4 ≠ tr.xid := by
                intro e; rw [e, hb] at hs; injection hs with hs; exact htt hs
              have e1 : withId tr.xid (seg (st.rx ++ [m]) tr.since (st.rx.length + 1)) =
                  withId tr.xid (seg st.rx tr.since st.rx.length) := by
                rw [seg_snoc _ _ _ a1, withId_append]; simp [withId, hx]
              refine ⟨st.rx.length + 1, by omega, by simp, ?_, ?_, ?_, ?_, by simp, by simp⟩
              · rw [e1]; exact a3
              · rw [e1]; exact a4
              · rw [e1]; exact fun hf => .inl (a5' hf)
              · intro m' hm'; injection hm' with _ hm'; exact absurd hm'.symm htt
          · have e1 : seg (st.rx ++ [m]) tr.since n = seg st.rx tr.since n := seg_append _ _ _ _ a2
            refine ⟨n, a1, by simp; omega, ?_, ?_, ?_, ?_, by simp, fun hb' => absurd hb' hb⟩
            · rw [e1]; exact a3
            · rw [e1]; exact a4
            · rw [e1]; exact fun hf => .inl (a5' hf)
            · intro m' hm'; injection hm' with _ hm'; subst hm'
              rw [ht1] at ht; injection ht with ht; subst ht
              rw [ht2] at hb; exact absurd hs hb
        · intro m' t' hm'
          rcases hm' with hm' | hm'
          · injection hm' with e1 e2; subst e1; subst e2
            exact ⟨h.checked m hr, trt, ht1, ht2⟩
          · simp at hm'
      · exact ⟨(Ext.refl st).old, ⟨[m], rfl⟩, (Ext.refl st).new, fun _ _ hu => hu⟩
  | found m t =>
    simp only
    obtain ⟨h8, trt, ht1, ht2⟩ := h.busy m t (.inl hr)
    rw [parseHeader_fields m h8]
    simp only
    constructor
    · refine ⟨?_, ?_, by simp, ?_, ?_, fun i l b hc t' ht => by have := h.range i l b hc t' ht; simpa [updTracker] using this⟩
      · intro y t' hy
        obtain ⟨tr, h1, h2⟩ := h.bound y t' hy
        refine ⟨if t = t' then { tr with data := storeData (isMultipart (u8 m 0) (u8 m 1)) m tr.data } else tr, ?_, ?_⟩
        · show (updTracker st t _).heap[t']? = _
          rw [updTracker_get, h1]; split <;> rfl
        · split <;> exact h2
      · intro t' tr ht hk
        change (updTracker st t _).heap[t']? = _ at ht
        rw [updTracker_get] at ht
        split at ht
        · rename_i e; subst e
          rw [ht1] at ht; simp at ht; subst ht
          obtain ⟨n, a1, a2, a3, a4, a5, a6, a7, a8⟩ := h.tracker t trt ht1 hk
          obtain ⟨hn, r, hrx⟩ := a6 m hr
          have hnr : n = r.length := by rw [hrx] at hn; simp at hn; omega
          have hx : trt.xid = u32 m 4 := ht2
          have hrx0 : seg st.rx trt.since n = seg r trt.since r.length := by
            rw [hrx, hnr]; exact seg_append _ _ _ _ (Nat.le_refl _)
          have hrx1 : withId trt.xid (seg st.rx trt.since st.rx.length) = withId trt.xid (seg st.rx trt.since n) ++ [m] := by
            rw [hrx0, hrx, show (r ++ [m]).length = r.length + 1 by simp, seg_snoc _ _ _ (by omega), withId_append]
            simp [withId, hx]
          refine ⟨st.rx.length, Nat.le_trans a1 a2, Nat.le_refl _, ?_, ?_, ?_, by simp, ?_, fun _ _ => rfl⟩
          · simp only [updTracker]
            rw [hrx1, assembled_snoc, storeData_eq, a3]
          · intro hev; simp only [updTracker]; rw [hrx1]
            obtain ⟨m', h1, h2⟩ := a4 hev
            exact ⟨m', by simp [h1], h2⟩
          · intro hf; simp only [updTracker] at hf; rw [hrx1] at hf
            obtain ⟨m', h1, h2⟩ := hf
            rw [List.mem_append] at h1
            rcases h1 with h1 | h1
            · rcases a5 ⟨m', h1, h2⟩ with h' | ⟨m'', h', _⟩
              · exact .inl h'
              · simp [hr] at h'
            · simp only [List.mem_singleton] at h1; subst h1; exact .inr ⟨m', rfl, h2⟩
          · intro m' hm'; injection hm' with hm' _; subst hm'
            simp only [updTracker]; rw [hrx1]; simp
        · rename_i ne
          obtain ⟨n, a1, a2, a3, a4, a5, a6, a7, a8⟩ := h.tracker t' tr ht hk
          refine ⟨n, a1, a2, a3, a4, ?_, by simp, ?_, fun hb _ => a8 hb (by simp [hr, ne])⟩
          · intro hf
            rcases a5 hf with h' | ⟨m', h', _⟩
            · exact .inl h'
            · simp [hr] at h'
          · intro m' hm'; injection hm' with _ hm'; exact absurd hm' ne
      · intro m' t' hm'
        rcases hm' with hm' | hm'
        · simp at hm'
        · injection hm' with e1 e2; subst e1; subst e2
          refine ⟨h8, { trt with data := storeData (isMultipart (u8 m 0) (u8 m 1)) m trt.data }, ?_, ht2⟩
          show (updTracker st t _).heap[t]? = _
          rw [updTracker_get, ht1]; simp
      · intro i t' ts hc
        obtain ⟨tr, h1, h2⟩ := h.closer i t' ts hc
        refine ⟨if t = t' then { tr with data := storeData (isMultipart (u8 m 0) (u8 m 1)) m tr.data } else tr, ?_, ?_⟩
        · show (updTracker st t _).heap[t']? = _
          rw [updTracker_get, h1]; split <;> rfl
        · split <;> exact h2
    · exact ext_upd t _ (by simp) _ rfl rfl rfl
  | stored m t =>
    simp only
    obtain ⟨h8, _⟩ := h.busy m t (.inr hr)
    rw [parseHeader_fields m h8]
    simp only
    by_cases hm : IsMultipartRep m
    · rw [if_pos ((isMultipart_iff m).2 hm)]
      by_cases h12 : 12 ≤ m.length
      · rw [unpack_flags m h12]
        simp only
        split
        · rename_i he
          exact inv_setEv h hr (fun _ => ⟨h12, he⟩)
        · rename_i he
          have := inv_rpc_idle h (by simp [hr]) (by
            intro m' t' hm'; rw [hr] at hm'; injection hm' with e1 e2; subst e1
            intro hf; exact he (hf hm).2) st.rerr
          exact this
      · rw [unpack_flags_short m (by omega)]
        refine inv_rpc_idle h (by simp [hr]) ?_ _
        intro m' t' hm'; rw [hr] at hm'; injection hm' with e1 e2; subst e1
        intro hf; exact h12 (hf hm).1
    · rw [if_neg (fun hh => hm ((isMultipart_iff m).1 hh))]
      exact inv_setEv h hr (fun hh => absurd hh hm)

theorem inv_close {st : SyncSt} (h : SyncInv st) : SyncInv (syncOp st .close) ∧ Ext st (syncOp st .close) := by
  constructor
  · refine ⟨h.bound, h.tracker, h.checked, h.busy, ?_, ?_⟩
    intro i t ts hc
    simp only [syncOp] at hc
    rcases Nat.lt_trichotomy i st.closers.length with hl | hl | hl
    · rw [List.getElem?_append_left hl] at hc; exact h.closer i t ts hc
    · subst hl; simp at hc
    · rw [List.getElem?_eq_none (by simp; omega)] at hc; simp at hc
    · intro i l b hc t ht
      simp only [syncOp] at hc
      rcases Nat.lt_trichotomy i st.closers.length with hl | hl | hl
      · rw [List.getElem?_append_left hl] at hc; exact h.range i l b hc t ht
      · subst hl; simp at hc; rw [← hc.1] at ht; simp [registered] at ht; exact ht.1
      · rw [List.getElem?_eq_none (by simp; omega)] at hc; simp at hc
  · exact ⟨(Ext.refl st).old, ⟨[], by simp [syncOp]⟩, (Ext.refl st).new, fun _ _ hu => hu⟩

theorem inv_closeStep {st : SyncSt} (h : SyncInv st) (i : Nat) : SyncInv (closeStep st i) ∧ Ext st (closeStep st i) := by
  unfold closeStep
  split
  · rename_i t ts hc
    have hext := ext_upd (st := st) t (fun x => { x with data := some [], killed := true }) (by simp)
      { updTracker st t (fun x => { x with data := some [], killed := true }) with closers := st.closers.set i (t :: ts, true) } rfl rfl rfl
    refine ⟨⟨?_, ?_, h.checked, ?_, ?_, ?_⟩, hext⟩
    · intro y t' hy
      obtain ⟨tr, h1, h2⟩ := h.bound y t' hy
      obtain ⟨tr', e1, e2, _⟩ := hext.old t' tr h1
      exact ⟨tr', e1, e2.trans h2⟩
    · intro t' tr ht hk
      change (updTracker st t _).heap[t']? = _ at ht
      rw [updTracker_get] at ht
      split at ht
      · cases hg : st.heap[t']? with
        | none => rw [hg] at ht; simp at ht
        | some tr0 => rw [hg] at ht; simp at ht; subst ht; simp at hk
      · exact h.tracker t' tr ht hk
    · intro m t' hm
      obtain ⟨h8, tr, h1, h2⟩ := h.busy m t' hm
      obtain ⟨tr', e1, e2, _⟩ := hext.old t' tr h1
      exact ⟨h8, tr', e1, e2.trans h2⟩
    · intro j t' ts' hj
      simp only [updTracker] at hj
      rw [List.getElem?_set] at hj
      split at hj
      · split at hj
        · simp at hj
          have ht' := h.range i _ _ hc t (by simp)
          refine ⟨{ st.heap[t] with data := some [], killed := true }, ?_, rfl⟩
          show (updTracker st t _).heap[t']? = _
          rw [updTracker_get, ← hj.1, List.getElem?_eq_getElem ht']; simp
        · simp at hj
      · obtain ⟨tr, h1, h2⟩ := h.closer j t' ts' hj
        obtain ⟨tr', e1, e2, _, _, e5⟩ := hext.old t' tr h1
        exact ⟨tr', e1, e5 h2⟩
    · intro j l b hj t' ht'
      simp only [updTracker] at hj ⊢
      rw [List.length_modify]
      rw [List.getElem?_set] at hj
      split at hj
      · split at hj
        · simp at hj; rw [← hj.1] at ht'; exact h.range i _ _ hc t' ht'
        · simp at hj
      · exact h.range j _ _ hj t' ht'
  · rename_i t ts hc
    obtain ⟨trk, hk1, hk2⟩ := h.closer i t ts hc
    have hext := ext_upd (st := st) t (fun x => { x with ev := true }) (by simp)
      { updTracker st t (fun x => { x with ev := true }) with closers := st.closers.set i (ts, false) } rfl rfl rfl
    refine ⟨⟨?_, ?_, h.checked, ?_, ?_, ?_⟩, hext⟩
    · intro y t' hy
      obtain ⟨tr, h1, h2⟩ := h.bound y t' hy
      obtain ⟨tr', e1, e2, _⟩ := hext.old t' tr h1
      exact ⟨tr', e1, e2.trans h2⟩
    · intro t' tr ht hk
      change (updTracker st t _).heap[t']? = _ at ht
      rw [updTracker_get] at ht
      split at ht
      · rename_i e; subst e
        rw [hk1] at ht; simp at ht; subst ht
        simp [hk2] at hk
      · exact h.tracker t' tr ht hk
    · intro m t' hm
      obtain ⟨h8, tr, h1, h2⟩ := h.busy m t' hm
      obtain ⟨tr', e1, e2, _⟩ := hext.old t' tr h1
      exact ⟨h8, tr', e1, e2.trans h2⟩
    · intro j t' ts' hj
      simp only [updTracker] at hj
      rw [List.getElem?_set] at hj
      split at hj
      · split at hj <;> simp at hj
      · obtain ⟨tr, h1, h2⟩ := h.closer j t' ts' hj
        obtain ⟨tr', e1, e2, _, _, e5⟩ := hext.old t' tr h1
        exact ⟨tr', e1, e5 h2⟩
    · intro j l b hj t' ht'
      simp only [updTracker] at hj ⊢
      rw [List.length_modify]
      rw [List.getElem?_set] at hj
      split at hj
      · split at hj
        · simp at hj; rw [← hj.1] at ht'; exact h.range i _ _ hc t' (by simp [ht'])
        · simp at hj
      · exact h.range j _ _ hj t' ht'
  · exact ⟨h, Ext.refl st⟩

end Twink
