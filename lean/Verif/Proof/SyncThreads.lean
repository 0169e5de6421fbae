import Verif.Proof.Sync

/-! Invariants of the threads inside `send_sync` and `multi`. -/

namespace Twink
open Spec Fmt

def Unbound (st : SyncSt) (t : Nat) : Prop := ∀ x, st.syncs x ≠ some t

def HasTracker (st : SyncSt) (x t : Nat) : Prop := ∃ tr : Tracker, st.heap[t]? = some tr ∧ tr.xid = x

theorem HasTracker.lt {st : SyncSt} {x t : Nat} (h : HasTracker st x t) : t < st.heap.length := by
  obtain ⟨_, h, _⟩ := h; exact lt_of_getElem? h

theorem HasTracker.mono {a b : SyncSt} (he : Ext a b) {x t : Nat} (h : HasTracker a x t) : HasTracker b x t := by
  obtain ⟨tr, h1, h2⟩ := h
  obtain ⟨tr', e1, e2, _⟩ := he.old t tr h1
  exact ⟨tr', e1, e2.trans h2⟩

theorem Unbound.mono {a b : SyncSt} (he : Ext a b) {t : Nat} (ht : t < a.heap.length) (h : Unbound a t) : Unbound b t :=
  he.unbound t ht h

/-- A value read from the tracker of a request. -/
def DoneSpec (st : SyncSt) (x t : Nat) (d : Option Bytes) (byEvent : Bool) : Prop :=
  ∃ tr : Tracker, st.heap[t]? = some tr ∧ tr.xid = x ∧ (tr.killed = false → ∃ n, tr.since ≤ n ∧ n ≤ st.rx.length ∧
    d = assembled (withId x (seg st.rx tr.since n)) ∧
    (byEvent = true → ∃ m ∈ withId x (seg st.rx tr.since n), IsFinal m))

theorem DoneSpec.mono {a b : SyncSt} (he : Ext a b) {x t d e} (h : DoneSpec a x t d e) : DoneSpec b x t d e := by
  obtain ⟨tr, h1, h2, h3⟩ := h
  obtain ⟨tr', e1, e2, e3, e4, e5⟩ := he.old t tr h1
  refine ⟨tr', e1, e2.trans h2, ?_⟩
  intro hk
  have hk' : tr.killed = false := by
    cases hh : tr.killed
    · rfl
    · rw [e5 hh] at hk; simp at hk
  obtain ⟨n, a1, a2, a3, a4⟩ := h3 hk'
  obtain ⟨more, hm⟩ := he.rx
  refine ⟨n, by rw [e3]; exact a1, by rw [hm, List.length_append]; omega, ?_⟩
  rw [e3, hm, seg_append _ _ _ _ a2]
  exact ⟨a3, a4⟩

/-- What is known about a `send_sync` call. -/
def CallInv (st : SyncSt) (c : SCall) : Prop :=
  ((∀ e, c.pc ≠ .failed e) ∨ c.pc = .failed .keyError) →
    (∃ tr : Tracker, st.heap[c.tr]? = some tr ∧ tr.xid = c.xid ∧ (c.byEvent = true → tr.ev = true)) ∧
    (∀ d, c.pc = .done d → DoneSpec st c.xid c.tr d c.byEvent) ∧
    ((c.pc = .reading ∨ (∃ d, c.pc = .done d) ∨ c.pc = .failed .keyError) → Unbound st c.tr)

theorem CallInv.mono {a b : SyncSt} (he : Ext a b) {c : SCall} (h : CallInv a c) : CallInv b c := by
  intro hp
  obtain ⟨⟨tr, h1, h2, h3⟩, h4, h5⟩ := h hp
  obtain ⟨tr', e1, e2, e3, e4, e5⟩ := he.old _ tr h1
  exact ⟨⟨tr', e1, e2.trans h2, fun hb => e4 (h3 hb)⟩, fun d hd => (h4 d hd).mono he,
    fun hh => (h5 hh).mono he (lt_of_getElem? h1)⟩

theorem doneSpec_read {st : SyncSt} (h : SyncInv st) {t : Nat} {tr : Tracker} (ht : st.heap[t]? = some tr) (byEvent : Bool)
    (hb : byEvent = true → tr.ev = true) : DoneSpec st tr.xid t tr.data byEvent := by
  refine ⟨tr, ht, rfl, fun hk => ?_⟩
  obtain ⟨n, a1, a2, a3, a4, _⟩ := h.tracker t tr ht hk
  exact ⟨n, a1, a2, a3, fun he => a4 (hb he)⟩

theorem inv_syncStep {st : SyncSt} (h : SyncInv st) (ch : Choice) (c : SCall) :
    SyncInv (syncStep ch st c).1 ∧ Ext st (syncStep ch st c).1 := by
  unfold syncStep
  cases c.pc with
  | sending =>
    simp only
    split
    · exact ⟨inv_sent h _, ext_sent (Ext.refl st) _⟩
    · exact ⟨h, Ext.refl st⟩
  | waiting =>
    have e : ∀ b : Bool, (if b = true then (st, { c with pc := SPc.popping, byEvent := true })
        else if ch.timeout = true then (st, { c with pc := SPc.popping }) else (st, c)).1 = st := by
      intro b; split
      · rfl
      · split <;> rfl
    simp only; rw [e]; exact ⟨h, Ext.refl st⟩
  | popping =>
    simp only
    cases hs : st.syncs c.xid with
    | some t => exact inv_unregister h c.xid
    | none => exact ⟨h, Ext.refl st⟩
  | reading => exact ⟨h, Ext.refl st⟩
  | done d => exact ⟨h, Ext.refl st⟩
  | failed e => exact ⟨h, Ext.refl st⟩

theorem callInv_step {st : SyncSt} (h : SyncInv st) (ch : Choice) (c : SCall) (hc : CallInv st c) :
    CallInv (syncStep ch st c).1 (syncStep ch st c).2 ∧ (syncStep ch st c).2.xid = c.xid ∧ (syncStep ch st c).2.tr = c.tr := by
  obtain ⟨x, t, pc, be, msg⟩ := c
  cases pc with
  | sending =>
    obtain ⟨h1, _, _⟩ := hc (.inl (by simp))
    simp only [syncStep]
    split
    · exact ⟨fun _ => ⟨h1, by simp, by simp⟩, rfl, rfl⟩
    · exact ⟨fun _ => ⟨h1, by simp, by simp⟩, rfl, rfl⟩
  | waiting =>
    obtain ⟨⟨tr, h1, h2, h3⟩, _, _⟩ := hc (.inl (by simp))
    simp only at h1 h2 h3
    simp only [syncStep, h1]
    by_cases hev : tr.ev = true
    · rw [if_pos hev]
      exact ⟨fun _ => ⟨⟨tr, h1, h2, fun _ => hev⟩, by simp, by simp⟩, rfl, rfl⟩
    · rw [if_neg hev]
      split
      · exact ⟨fun _ => ⟨⟨tr, h1, h2, h3⟩, by simp, by simp⟩, rfl, rfl⟩
      · exact ⟨hc, rfl, rfl⟩
  | popping =>
    obtain ⟨⟨tr, h1, h2, h3⟩, _, _⟩ := hc (.inl (by simp))
    simp only at h1 h2 h3
    simp only [syncStep]
    cases hs : st.syncs x with
    | some t' =>
      refine ⟨fun _ => ⟨⟨tr, h1, h2, h3⟩, by simp, fun _ => ?_⟩, rfl, rfl⟩
      intro y; rw [← h2]; exact unregister_unbound h h1 y
    | none =>
      refine ⟨fun _ => ⟨⟨tr, h1, h2, h3⟩, by simp, fun _ => ?_⟩, rfl, rfl⟩
      intro y hy
      obtain ⟨tr', e1, e2⟩ := h.bound y t hy
      rw [h1] at e1; injection e1 with e1; subst e1
      rw [← e2, h2, hs] at hy; simp at hy
  | reading =>
    obtain ⟨⟨tr, h1, h2, h3⟩, _, h5⟩ := hc (.inl (by simp))
    simp only at h1 h2 h3
    simp only [syncStep]
    refine ⟨fun _ => ⟨⟨tr, h1, h2, h3⟩, ?_, fun _ => h5 (.inl rfl)⟩, by simp, by simp⟩
    intro d hd
    simp only [SPc.done.injEq] at hd
    subst hd
    simp only [trackerData, h1, Option.bind_some]
    rw [← h2]; exact doneSpec_read h h1 be h3
  | done d => exact ⟨hc, rfl, rfl⟩
  | failed e => exact ⟨hc, rfl, rfl⟩

/-- What is known about a `multi` call, in every run. -/
structure MultiInv (st : SyncSt) (c : MCall) : Prop where
  slots : ∀ p ∈ c.taken ++ c.prepared, HasTracker st p.1 p.2
  taken : ∀ p ∈ c.taken, Unbound st p.2
  call : ∀ s, c.pc = .barrier s → CallInv st s ∧ s.xid = c.bxid ∧ s.tr = c.btr
  after : (c.pc = .collect ∨ c.pc = .reading ∨ c.pc = .popping ∨ c.pc = .done) → c.btr < st.heap.length ∧ Unbound st c.btr
  fin : c.pc = .done → c.prepared = []

theorem MultiInv.mono {a b : SyncSt} (he : Ext a b) {c : MCall} (h : MultiInv a c) : MultiInv b c where
  slots := fun p hp => (h.slots p hp).mono he
  taken := fun p hp => (h.taken p hp).mono he (h.slots p (by simp [hp])).lt
  call := fun s hs => ⟨(h.call s hs).1.mono he, (h.call s hs).2⟩
  after := fun hp => ⟨Nat.lt_of_lt_of_le (h.after hp).1 he.length, (h.after hp).2.mono he (h.after hp).1⟩
  fin := h.fin

theorem inv_multiStep {st : SyncSt} (h : SyncInv st) (ch : Choice) (c : MCall) :
    SyncInv (multiStep ch st c).1 ∧ Ext st (multiStep ch st c).1 := by
  unfold multiStep
  cases c.pc with
  | next =>
    simp only
    cases c.todo with
    | cons m rest =>
      simp only
      cases parseHeader m with
      | error e => exact ⟨h, Ext.refl st⟩
      | ok r => exact inv_register h _
    | nil =>
      simp only
      cases barrierMsg st.version ch.bxid with
      | error e => exact ⟨h, Ext.refl st⟩
      | ok r => exact inv_register h _
  | sending =>
    simp only
    split
    · exact ⟨inv_sent h _, ext_sent (Ext.refl st) _⟩
    · exact ⟨h, Ext.refl st⟩
  | barrier s =>
    simp only
    cases hs : s.pc with
    | done d => simp only; cases barrierResult st.version d <;> exact ⟨h, Ext.refl st⟩
    | failed e => exact ⟨h, Ext.refl st⟩
    | sending => exact inv_syncStep h ch s
    | waiting => exact inv_syncStep h ch s
    | popping => exact inv_syncStep h ch s
    | reading => exact inv_syncStep h ch s
  | collect =>
    simp only
    cases c.prepared with
    | nil => exact ⟨h, Ext.refl st⟩
    | cons p rest => simp only; cases st.syncs p.1 <;> exact ⟨h, Ext.refl st⟩
  | reading =>
    simp only
    cases c.prepared with
    | nil => exact ⟨h, Ext.refl st⟩
    | cons p rest => simp only; cases st.syncs p.1 <;> exact ⟨h, Ext.refl st⟩
  | popping =>
    simp only
    cases c.prepared with
    | nil => exact ⟨h, Ext.refl st⟩
    | cons p rest =>
      simp only
      cases st.syncs p.1 with
      | none => exact ⟨h, Ext.refl st⟩
      | some t => exact inv_unregister h _
  | done => exact ⟨h, Ext.refl st⟩
  | failed e => exact ⟨h, Ext.refl st⟩

theorem hasTracker_register (st : SyncSt) (x : Nat) : HasTracker (register st x) x st.heap.length :=
  ⟨⟨x, false, none, st.rx.length, false⟩, by simp [register], rfl⟩

theorem unbound_of_none {st : SyncSt} (h : SyncInv st) {x t : Nat} (ht : HasTracker st x t) (hn : st.syncs x = none) : Unbound st t := by
  intro y hy
  obtain ⟨tr', e1, e2⟩ := h.bound y t hy
  obtain ⟨tr, f1, f2⟩ := ht
  rw [f1] at e1; injection e1 with e1; subst e1
  rw [← e2, f2, hn] at hy; simp at hy

theorem multiInv_step {st : SyncSt} (h : SyncInv st) (ch : Choice) (c : MCall) (hc : MultiInv st c) :
    MultiInv (multiStep ch st c).1 (multiStep ch st c).2 := by
  have hext := (inv_multiStep h ch c).2
  obtain ⟨all, todo, prepared, taken, results, bxid, btr, cur, pc⟩ := c
  cases pc with
  | next =>
    cases todo with
    | cons m rest =>
      simp only [multiStep] at hext ⊢
      cases hph : parseHeader m with
      | error e => exact ⟨hc.slots, hc.taken, by simp, by simp, by simp⟩
      | ok r =>
        obtain ⟨v, ty, l, xid⟩ := r
        simp only
        have he := (inv_register h xid).2
        have hm := hc.mono he
        refine ⟨?_, hm.taken, by simp, by simp, by simp⟩
        intro p hp
        simp only [List.mem_append, List.mem_singleton] at hp
        rcases hp with hp | hp | rfl
        · exact hm.slots p (by simp [hp])
        · exact hm.slots p (by simp [hp])
        · exact hasTracker_register st xid
    | nil =>
      simp only [multiStep] at hext ⊢
      cases hph : barrierMsg st.version ch.bxid with
      | error e => exact ⟨hc.slots, hc.taken, by simp, by simp, by simp⟩
      | ok r =>
        simp only
        have he := (inv_register h ch.bxid).2
        have hm := hc.mono he
        refine ⟨hm.slots, hm.taken, ?_, by simp, by simp⟩
        intro s hs
        injection hs with hs; subst hs
        refine ⟨?_, rfl, rfl⟩
        intro _
        exact ⟨⟨⟨ch.bxid, false, none, st.rx.length, false⟩, by simp [register], rfl, by simp⟩, by simp, by simp⟩
  | sending =>
    simp only [multiStep]
    split
    · have hm := hc.mono (ext_sent (Ext.refl st) (st.sent ++ [(cur, st.rx.length)]))
      exact ⟨hm.slots, hm.taken, by simp, by simp, by simp⟩
    · exact ⟨hc.slots, hc.taken, by simp, by simp, by simp⟩
  | barrier s =>
    obtain ⟨hs1, hs2, hs3⟩ := hc.call s rfl
    obtain ⟨x, t, pc, be, msg⟩ := s
    have hstep := callInv_step h ch _ hs1
    have gen : ∀ r, syncStep ch st ⟨x, t, pc, be, msg⟩ = r → MultiInv r.1 ⟨all, todo, prepared, taken, results, bxid, btr, cur, .barrier r.2⟩ := by
      intro r hr
      have he := (inv_syncStep h ch ⟨x, t, pc, be, msg⟩).2
      rw [hr] at he hstep
      have hm := hc.mono he
      refine ⟨hm.slots, hm.taken, ?_, by simp, by simp⟩
      intro s' hs'
      injection hs' with hs'; subst hs'
      exact ⟨hstep.1, hstep.2.1.trans hs2, hstep.2.2.trans hs3⟩
    cases pc with
    | done d =>
      simp only [multiStep]
      cases barrierResult st.version d with
      | ok u =>
        obtain ⟨⟨tr, g1, _, _⟩, _, g3⟩ := hs1 (.inl (by simp))
        refine ⟨hc.slots, hc.taken, by simp, fun _ => ?_, by simp⟩
        have hu := g3 (.inr (.inl ⟨d, rfl⟩))
        simp only at hs3 hu g1
        subst hs3
        exact ⟨lt_of_getElem? g1, hu⟩
      | error e => exact ⟨hc.slots, hc.taken, by simp, by simp, by simp⟩
    | failed e => exact ⟨hc.slots, hc.taken, by simp [multiStep], by simp [multiStep], by simp [multiStep]⟩
    | sending => exact gen _ rfl
    | waiting => exact gen _ rfl
    | popping => exact gen _ rfl
    | reading => exact gen _ rfl
  | collect =>
    have haf := hc.after (.inl rfl)
    cases prepared with
    | nil => exact ⟨hc.slots, hc.taken, by simp [multiStep], fun _ => haf, fun _ => rfl⟩
    | cons p rest =>
      simp only [multiStep]
      cases hs : st.syncs p.1 with
      | some t => exact ⟨hc.slots, hc.taken, by simp, fun _ => haf, by simp⟩
      | none =>
        refine ⟨?_, ?_, by simp, fun _ => haf, by simp⟩
        · intro q hq; exact hc.slots q (by simpa using hq)
        · intro q hq
          simp only [List.mem_append, List.mem_singleton] at hq
          rcases hq with hq | rfl
          · exact hc.taken q hq
          · exact unbound_of_none h (hc.slots q (by simp)) hs
  | reading =>
    have haf := hc.after (.inr (.inl rfl))
    cases prepared with
    | nil => exact hc
    | cons p rest =>
      simp only [multiStep]
      cases hs : st.syncs p.1 with
      | some t => exact ⟨hc.slots, hc.taken, by simp, fun _ => haf, by simp⟩
      | none => exact ⟨hc.slots, hc.taken, by simp, by simp, by simp⟩
  | popping =>
    have haf := hc.after (.inr (.inr (.inl rfl)))
    cases prepared with
    | nil => exact hc
    | cons p rest =>
      simp only [multiStep]
      cases hs : st.syncs p.1 with
      | none => exact ⟨hc.slots, hc.taken, by simp, by simp, by simp⟩
      | some t =>
        simp only
        have he := (inv_unregister h p.1).2
        have hm := hc.mono he
        refine ⟨?_, ?_, by simp, fun _ => ⟨haf.1, haf.2.mono he haf.1⟩, by simp⟩
        · intro q hq; exact hm.slots q (by simpa using hq)
        · intro q hq
          simp only [List.mem_append, List.mem_singleton] at hq
          rcases hq with hq | rfl
          · exact hm.taken q hq
          · obtain ⟨tr, g1, g2⟩ := hc.slots q (by simp)
            intro y; rw [← g2]; exact unregister_unbound h g1 y
  | done => exact hc
  | failed e => exact hc

def ThreadInv (st : SyncSt) : SThread → Prop
  | .sync c => CallInv st c
  | .multi c => MultiInv st c

theorem ThreadInv.mono {a b : SyncSt} (he : Ext a b) {th : SThread} (h : ThreadInv a th) : ThreadInv b th := by
  cases th with
  | sync c => exact CallInv.mono he h
  | multi c => exact MultiInv.mono he h

/-- Everything known in every run. -/
structure RunInv (st : SyncSt) : Prop where
  inv : SyncInv st
  threads : ∀ (i : Nat) (th : SThread), st.threads[i]? = some th → ThreadInv st th
  rx : ∀ m ∈ st.rx, 8 ≤ m.length

theorem getElem?_snoc {α : Type _} {l : List α} {a : α} {i : Nat} {b : α} (h : (l ++ [a])[i]? = some b) :
    l[i]? = some b ∨ (i = l.length ∧ b = a) := by
  rcases Nat.lt_trichotomy i l.length with hl | hl | hl
  · rw [List.getElem?_append_left hl] at h; exact .inl h
  · subst hl; simp at h; exact .inr ⟨rfl, h.symm⟩
  · rw [List.getElem?_eq_none (by simp; omega)] at h; simp at h

theorem rx_recvBegin {st : SyncSt} (m : Bytes) (h : ∀ m ∈ st.rx, 8 ≤ m.length) : ∀ m' ∈ (recvBegin st m).rx, 8 ≤ m'.length := by
  unfold recvBegin
  cases st.rpc with
  | idle =>
    simp only
    split
    · exact h
    · by_cases h8 : 8 ≤ m.length
      · rw [parseHeader_fields m h8]
        simp only
        split
        · exact h
        · intro m' hm'
          simp only [List.mem_append, List.mem_singleton] at hm'
          rcases hm' with hm' | rfl
          · exact h m' hm'
          · exact h8
      · rw [parseHeader_short m (by omega)]; exact h
  | checked _ => exact h
  | found _ _ => exact h
  | stored _ _ => exact h

theorem rx_recvStep {st : SyncSt} (hi : SyncInv st) (h : ∀ m ∈ st.rx, 8 ≤ m.length) : ∀ m' ∈ (recvStep st).rx, 8 ≤ m'.length := by
  unfold recvStep
  cases hr : st.rpc with
  | idle => exact h
  | checked m =>
    have h8 := hi.checked m hr
    simp only
    rw [parseHeader_fields m h8]
    simp only
    have key : ∀ m' ∈ st.rx ++ [m], 8 ≤ m'.length := by
      intro m' hm'
      simp only [List.mem_append, List.mem_singleton] at hm'
      rcases hm' with hm' | rfl
      · exact h m' hm'
      · exact h8
    cases st.syncs (u32 m 4) <;> exact key
  | found m t =>
    simp only
    cases parseHeader m <;> exact h
  | stored m t =>
    simp only
    cases parseHeader m with
    | error e => exact h
    | ok r =>
      simp only
      split
      · split
        · split <;> exact h
        · exact h
        · exact h
      · exact h

theorem closeStep_rx (st : SyncSt) (i : Nat) : (closeStep st i).rx = st.rx := by
  unfold closeStep; split <;> rfl

theorem syncStep_rx (ch : Choice) (st : SyncSt) (c : SCall) : (syncStep ch st c).1.rx = st.rx := by
  unfold syncStep
  cases c.pc with
  | sending => simp only; split <;> rfl
  | waiting =>
    have e : ∀ b : Bool, (if b = true then (st, { c with pc := SPc.popping, byEvent := true })
        else if ch.timeout = true then (st, { c with pc := SPc.popping }) else (st, c)).1 = st := by
      intro b; split
      · rfl
      · split <;> rfl
    simp only; rw [e]
  | popping => simp only; cases st.syncs c.xid <;> rfl
  | _ => rfl

theorem multiStep_rx (ch : Choice) (st : SyncSt) (c : MCall) : (multiStep ch st c).1.rx = st.rx := by
  unfold multiStep
  cases c.pc with
  | next =>
    simp only
    cases c.todo with
    | cons m rest => simp only; cases parseHeader m <;> rfl
    | nil => simp only; cases barrierMsg st.version ch.bxid <;> rfl
  | sending => simp only; split <;> rfl
  | barrier s =>
    simp only
    cases hs : s.pc with
    | done d => simp only; cases barrierResult st.version d <;> rfl
    | failed e => rfl
    | sending => exact syncStep_rx _ _ _
    | waiting => exact syncStep_rx _ _ _
    | popping => exact syncStep_rx _ _ _
    | reading => exact syncStep_rx _ _ _
  | collect =>
    simp only
    cases c.prepared with
    | nil => rfl
    | cons p rest => simp only; cases st.syncs p.1 <;> rfl
  | reading =>
    simp only
    cases c.prepared with
    | nil => rfl
    | cons p rest => simp only; cases st.syncs p.1 <;> rfl
  | popping =>
    simp only
    cases c.prepared with
    | nil => rfl
    | cons p rest => simp only; cases st.syncs p.1 <;> rfl
  | _ => rfl

theorem recvBegin_threads (st : SyncSt) (m : Bytes) : (recvBegin st m).threads = st.threads := by
  unfold recvBegin
  cases st.rpc with
  | idle =>
    simp only
    split
    · rfl
    · cases parseHeader m with
      | error e => rfl
      | ok r => simp only; split <;> rfl
  | _ => rfl

theorem recvStep_threads (st : SyncSt) : (recvStep st).threads = st.threads := by
  unfold recvStep
  cases st.rpc with
  | idle => rfl
  | checked m =>
    simp only
    cases parseHeader m with
    | error e => rfl
    | ok r => simp only; split <;> rfl
  | found m t => simp only; cases parseHeader m <;> rfl
  | stored m t =>
    simp only
    cases parseHeader m with
    | error e => rfl
    | ok r =>
      simp only
      split
      · split
        · split <;> rfl
        · rfl
        · rfl
      · rfl

theorem closeStep_threads (st : SyncSt) (i : Nat) : (closeStep st i).threads = st.threads := by
  unfold closeStep; split <;> rfl

theorem getElem?_set_some {α : Type _} {l : List α} {i j : Nat} {a b : α} (h : (l.set i a)[j]? = some b) :
    (i = j ∧ b = a ∧ i < l.length) ∨ (i ≠ j ∧ l[j]? = some b) := by
  rw [List.getElem?_set] at h
  split at h
  · split at h
    · simp at h; exact .inl ⟨by assumption, h.symm, by omega⟩
    · simp at h
  · exact .inr ⟨by assumption, h⟩

theorem runInv_step {st : SyncSt} (h : RunInv st) (op : SyncOp) : RunInv (syncOp st op) ∧ Ext st (syncOp st op) := by
  have lift : ∀ st' : SyncSt, SyncInv st' ∧ Ext st st' → st'.threads = st.threads → (∀ m ∈ st'.rx, 8 ≤ m.length) →
      RunInv st' ∧ Ext st st' := by
    intro st' hh ht hrx
    refine ⟨⟨hh.1, ?_, hrx⟩, hh.2⟩
    intro i th hi
    rw [ht] at hi
    exact (h.threads i th hi).mono hh.2
  cases op with
  | sendSync m =>
    simp only [syncOp]
    by_cases h8 : 8 ≤ m.length
    · rw [parseHeader_fields m h8]
      simp only
      obtain ⟨i1, e1⟩ := inv_register h.inv (u32 m 4)
      refine ⟨⟨inv_threads i1 _, ?_, h.rx⟩, ext_threads e1 _⟩
      intro i th hi
      rcases getElem?_snoc hi with hi | ⟨_, rfl⟩
      · exact ((h.threads i th hi).mono e1).mono (ext_threads (Ext.refl _) _)
      · intro _
        exact ⟨⟨⟨u32 m 4, false, none, st.rx.length, false⟩, by simp [register], rfl, by simp⟩, by simp, by simp⟩
    · rw [parseHeader_short m (by omega)]
      simp only
      refine ⟨⟨inv_threads h.inv _, ?_, h.rx⟩, ext_threads (Ext.refl _) _⟩
      intro i th hi
      rcases getElem?_snoc hi with hi | ⟨_, rfl⟩
      · exact (h.threads i th hi).mono (ext_threads (Ext.refl _) _)
      · intro hp; simp at hp
  | multi ms =>
    simp only [syncOp]
    refine ⟨⟨inv_threads h.inv _, ?_, h.rx⟩, ext_threads (Ext.refl _) _⟩
    intro i th hi
    rcases getElem?_snoc hi with hi | ⟨_, rfl⟩
    · exact (h.threads i th hi).mono (ext_threads (Ext.refl _) _)
    · exact ⟨by simp, by simp, by simp, by simp, by simp⟩
  | thread i ch =>
    simp only [syncOp]
    cases hth : st.threads[i]? with
    | none => exact ⟨h, Ext.refl st⟩
    | some th =>
      cases th with
      | sync c =>
        simp only
        obtain ⟨i1, e1⟩ := inv_syncStep h.inv ch c
        refine ⟨⟨inv_threads i1 _, ?_, by simp only [syncStep_rx]; exact h.rx⟩, ext_threads e1 _⟩
        intro j th hj
        rcases getElem?_set_some hj with ⟨_, rfl, _⟩ | ⟨_, hj⟩
        · exact (callInv_step h.inv ch c (h.threads i _ hth)).1.mono (ext_threads (Ext.refl _) _)
        · exact ((h.threads j th hj).mono e1).mono (ext_threads (Ext.refl _) _)
      | multi c =>
        simp only
        obtain ⟨i1, e1⟩ := inv_multiStep h.inv ch c
        refine ⟨⟨inv_threads i1 _, ?_, by simp only [multiStep_rx]; exact h.rx⟩, ext_threads e1 _⟩
        intro j th hj
        rcases getElem?_set_some hj with ⟨_, rfl, _⟩ | ⟨_, hj⟩
        · exact (multiInv_step h.inv ch c (h.threads i _ hth)).mono (ext_threads (Ext.refl _) _)
        · exact ((h.threads j th hj).mono e1).mono (ext_threads (Ext.refl _) _)
  | recv m => exact lift _ (inv_recvBegin h.inv m) (recvBegin_threads _ _) (rx_recvBegin m h.rx)
  | recvStep => exact lift _ (inv_recvStep h.inv) (recvStep_threads _) (rx_recvStep h.inv h.rx)
  | close => exact lift _ (inv_close h.inv) rfl h.rx
  | closeStep i => exact lift _ (inv_closeStep h.inv i) (closeStep_threads _ _) (by simp only [syncOp, closeStep_rx]; exact h.rx)

theorem runInv_run {st : SyncSt} (h : RunInv st) (ops : List SyncOp) : RunInv (syncRun st ops) ∧ Ext st (syncRun st ops) := by
  induction ops generalizing st with
  | nil => exact ⟨h, Ext.refl st⟩
  | cons op ops ih =>
    obtain ⟨h1, e1⟩ := runInv_step h op
    obtain ⟨h2, e2⟩ := ih h1
    exact ⟨h2, e1.trans e2⟩

theorem runInv_fresh (v : Option Nat) (ops : List SyncOp) : RunInv (syncRun (freshSync v) ops) :=
  (runInv_run ⟨inv_fresh v, by simp [freshSync], by simp [freshSync]⟩ ops).1

end Twink
