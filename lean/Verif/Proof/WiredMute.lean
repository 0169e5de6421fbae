import Verif.Proof.Wired
import Verif.Proof.WiredSwitches

/-!
# A controller that never gets a barrier reply (for C119)
-/

namespace Twink.Wired
open Session Spec Fmt

/-- Not a barrier reply. -/
def Other (m : Bytes) : Prop := 8 ≤ m.length ∧ u8 m 1 ≠ 21

/-- What a tracker may hold if no barrier reply ever comes. -/
def Dull (d : Option Bytes) : Prop := d = none ∨ d = some [] ∨ ∃ m, d = some m ∧ Other m

/-- `multi` has not got past its barrier. -/
def Stuck (c : MCall) : Prop :=
  match c.pc with
  | .next | .sending => True
  | .barrier s => ∀ d, s.pc = .done d → Dull d
  | .failed _ => True
  | _ => False

/-- The invariant of a controller that never gets a barrier reply. -/
structure MuteInv (st : SyncSt) : Prop where
  version : st.version = some 4
  heap : ∀ (t : Nat) (tr : Tracker), st.heap[t]? = some tr → Dull tr.data
  rpc : ∀ m t, st.rpc = .checked m ∨ st.rpc = .found m t ∨ st.rpc = .stored m t → Other m
  threads : ∀ (i : Nat) (c : MCall), st.threads[i]? = some (.multi c) → Stuck c

theorem dull_store {m : Bytes} (hm : Other m) {old : Option Bytes} (ho : Dull old) (b : Bool) : Dull (storeData b m old) := by
  unfold storeData
  split
  · rcases ho with rfl | rfl | ⟨m', rfl, hm'⟩
    · exact .inr (.inr ⟨m, rfl, hm⟩)
    · exact .inr (.inr ⟨m, rfl, hm⟩)
    · refine .inr (.inr ⟨m' ++ m, rfl, ?_, ?_⟩)
      · have := hm'.1; simp; omega
      · rw [u8_append _ _ _ (by have := hm'.1; omega)]; exact hm'.2
  · exact .inr (.inr ⟨m, rfl, hm⟩)

theorem dull_barrier {v : Option Nat} (hv : v = some 4) {d : Option Bytes} (hd : Dull d) : ∃ e, barrierResult v d = .error e := by
  cases hb : barrierResult v d with
  | error e => exact ⟨e, rfl⟩
  | ok u =>
    exfalso
    obtain ⟨m, h1, h2, h3⟩ := barrierResult_ok hb
    rw [hv] at h3
    rcases hd with rfl | rfl | ⟨m', rfl, hm⟩
    · simp at h1
    · injection h1 with h1; subst h1; simp at h2
    · injection h1 with h1; subst h1
      exact hm.2 (by simpa using h3)

theorem dull_tracker {st : SyncSt} (h : MuteInv st) (t : Nat) : Dull (trackerData st t) := by
  unfold trackerData
  cases ht : st.heap[t]? with
  | none => exact .inl rfl
  | some tr => exact h.heap t tr ht

theorem heap_upd {st : SyncSt} (h : ∀ (t : Nat) (tr : Tracker), st.heap[t]? = some tr → Dull tr.data) (t0 : Nat) (f : Tracker → Tracker)
    (hf : ∀ x, Dull x.data → Dull (f x).data) : ∀ (t : Nat) (tr : Tracker), (updTracker st t0 f).heap[t]? = some tr → Dull tr.data := by
  intro t tr ht
  simp only [updTracker, List.getElem?_modify] at ht
  cases h0 : st.heap[t]? with
  | none => rw [h0] at ht; simp at ht
  | some x =>
    rw [h0] at ht
    simp only [Option.map_eq_map, Option.map_some, Option.some.injEq] at ht
    subst ht
    split
    · exact hf x (h t x h0)
    · exact h t x h0

theorem mute_heap_move {st st1 : SyncSt} {o o'} (hm : Move st st1 o o') (h : MuteInv st) :
    (∀ (t : Nat) (tr : Tracker), st1.heap[t]? = some tr → Dull tr.data) ∧ st1.rpc = st.rpc := by
  cases hm with
  | same _ => exact ⟨h.heap, rfl⟩
  | sent _ _ => exact ⟨h.heap, rfl⟩
  | reg x =>
    refine ⟨fun t tr ht => ?_, rfl⟩
    rcases getElem?_snoc ht with ht | ⟨_, rfl⟩
    · exact h.heap t tr ht
    · exact .inl rfl
  | unreg x t a b => exact ⟨h.heap, rfl⟩

/-- A step of `send_sync` that returns. -/
theorem syncStep_dull {st : SyncSt} (h : MuteInv st) (ch : Choice) {s : SCall} (hs : ∀ d, s.pc = .done d → Dull d) {d : Option Bytes}
    (hd : (syncStep ch st s).2.pc = .done d) : Dull d := by
  unfold syncStep at hd
  cases hpc : s.pc with
  | sending => rw [hpc] at hd; simp only at hd; split at hd <;> simp at hd
  | waiting => rw [hpc] at hd; simp only at hd; split at hd <;> (try split at hd) <;> (try split at hd) <;> simp_all
  | popping => rw [hpc] at hd; simp only at hd; split at hd <;> simp at hd
  | reading =>
    rw [hpc] at hd
    simp only [SPc.done.injEq] at hd
    rw [← hd]; exact dull_tracker h _
  | done d' => rw [hpc] at hd; simp only [hpc] at hd; exact hs d (by rw [hpc]; exact hd)
  | failed e => rw [hpc] at hd; simp [hpc] at hd

theorem stuck_step {st : SyncSt} (h : MuteInv st) (ch : Choice) {c : MCall} (hc : Stuck c) : Stuck (multiStep ch st c).2 := by
  unfold multiStep
  cases hpc : c.pc with
  | next =>
    simp only
    cases c.todo with
    | nil =>
      simp only
      cases barrierMsg st.version ch.bxid with
      | error e => simp [Stuck]
      | ok b => simp [Stuck]
    | cons m rest =>
      simp only
      cases parseHeader m <;> simp [Stuck]
  | sending => simp only; split <;> simp [Stuck]
  | barrier s =>
    have hs : ∀ d, s.pc = .done d → Dull d := by unfold Stuck at hc; rw [hpc] at hc; exact hc
    simp only
    cases hsp : s.pc with
    | done d =>
      simp only
      obtain ⟨e, he⟩ := dull_barrier h.version (hs d hsp)
      rw [he]
      simp [Stuck]
    | failed e => simp [Stuck]
    | _ =>
      simp only [Stuck]
      intro d hd
      exact syncStep_dull h ch hs hd
  | failed e => simp [Stuck, hpc]
  | _ => unfold Stuck at hc; rw [hpc] at hc; exact hc.elim

theorem mute_recvStep {st : SyncSt} (h : MuteInv st) : MuteInv (recvStep st) := by
  have hpa := passive_recvStep st
  have hth : ∀ (i : Nat) (c : MCall), (recvStep st).threads[i]? = some (.multi c) → Stuck c := by rw [hpa.threads]; exact h.threads
  refine ⟨hpa.version.trans h.version, ?_, ?_, hth⟩
  · unfold recvStep
    cases hr : st.rpc with
    | idle => exact h.heap
    | checked m =>
      simp only
      cases parseHeader m with
      | error e => exact h.heap
      | ok r => simp only; split <;> exact h.heap
    | found m t =>
      have hm := h.rpc m t (.inr (.inl hr))
      simp only
      cases parseHeader m with
      | error e => exact h.heap
      | ok r => exact heap_upd h.heap t _ fun x hx => dull_store hm hx _
    | stored m t =>
      simp only
      cases parseHeader m with
      | error e => exact h.heap
      | ok r =>
        simp only
        split
        · split
          · split
            · exact heap_upd h.heap t _ fun x hx => hx
            · exact h.heap
          · exact h.heap
          · exact h.heap
        · exact heap_upd h.heap t _ fun x hx => hx
  · intro m' t'
    unfold recvStep
    cases hr : st.rpc with
    | idle => simp [hr]
    | checked m =>
      have hm := h.rpc m 0 (.inl hr)
      simp only
      cases parseHeader m with
      | error e => simp
      | ok r =>
        simp only
        split
        · simp only [reduceCtorEq, false_or, or_false, RPc.found.injEq]
          rintro ⟨rfl, _⟩; exact hm
        · simp
    | found m t =>
      have hm := h.rpc m t (.inr (.inl hr))
      simp only
      cases parseHeader m with
      | error e => simp
      | ok r =>
        simp only [reduceCtorEq, false_or, RPc.stored.injEq]
        rintro ⟨rfl, _⟩; exact hm
    | stored m t =>
      simp only
      cases parseHeader m with
      | error e => simp
      | ok r =>
        simp only
        split
        · split
          · split <;> simp
          · simp
          · simp
        · simp

theorem mute_recvBegin {st : SyncSt} (h : MuteInv st) {m : Bytes} (hm : 8 ≤ m.length → u8 m 1 ≠ 21) : MuteInv (recvBegin st m) := by
  have hpa := passive_recvBegin st m
  have hth : ∀ (i : Nat) (c : MCall), (recvBegin st m).threads[i]? = some (.multi c) → Stuck c := by rw [hpa.threads]; exact h.threads
  refine ⟨hpa.version.trans h.version, ?_, ?_, hth⟩
  · unfold recvBegin
    cases hr : st.rpc with
    | idle =>
      simp only
      split
      · exact h.heap
      · cases parseHeader m with
        | error e => exact h.heap
        | ok r => simp only; split <;> exact h.heap
    | _ => exact h.heap
  · intro m' t'
    unfold recvBegin
    cases hr : st.rpc with
    | idle =>
      simp only
      split
      · simp [hr]
      · rcases Nat.lt_or_ge m.length 8 with h8 | h8
        · rw [parseHeader_short m h8]; simp [hr]
        · rw [parseHeader_fields m h8]
          simp only
          split
          · simp only [RPc.checked.injEq, reduceCtorEq, or_false]
            rintro rfl; exact ⟨h8, hm h8⟩
          · simp [hr]
    | checked m0 => have := h.rpc m' t'; rw [hr] at this; simpa [hr] using this
    | found m0 t0 => have := h.rpc m' t'; rw [hr] at this; simpa [hr] using this
    | stored m0 t0 => have := h.rpc m' t'; rw [hr] at this; simpa [hr] using this

theorem mute_step {st : SyncSt} (h : MuteInv st) (op : SyncOp) (hop : ∀ m, op = .recv m → 8 ≤ m.length → u8 m 1 ≠ 21) : MuteInv (syncOp st op) := by
  cases op with
  | sendSync m =>
    have hth : ∀ (th : SThread), (∀ c, th ≠ .multi c) → ∀ (i : Nat) (c : MCall), (st.threads ++ [th])[i]? = some (.multi c) → Stuck c := by
      intro th hne i c hi
      rcases getElem?_snoc hi with hi | ⟨_, hi⟩
      · exact h.threads i c hi
      · exact absurd hi.symm (hne c)
    simp only [syncOp]
    cases parseHeader m with
    | error e => exact ⟨h.version, h.heap, h.rpc, hth _ (by simp)⟩
    | ok r => exact ⟨h.version, (mute_heap_move (.reg (o := []) _) h).1, h.rpc, hth _ (by simp)⟩
  | multi ms =>
    refine ⟨h.version, h.heap, h.rpc, fun i c hi => ?_⟩
    rcases getElem?_snoc hi with hi | ⟨_, hi⟩
    · exact h.threads i c hi
    · injection hi with hi; subst hi; simp [Stuck]
  | thread i ch =>
    simp only [syncOp]
    cases hi : st.threads[i]? with
    | none => exact h
    | some th =>
      have hset : ∀ (th' : SThread) (j : Nat) (c : MCall), (st.threads.set i th')[j]? = some (.multi c) → th' = .multi c ∨ st.threads[j]? = some (.multi c) := by
        intro th' j c hj
        rw [List.getElem?_set] at hj
        split at hj
        · split at hj
          · injection hj with hj; exact .inl hj
          · simp at hj
        · exact .inr hj
      cases th with
      | sync s =>
        have hmv := syncStep_move ch st s
        obtain ⟨g1, g2⟩ := mute_heap_move hmv h
        refine ⟨hmv.version.trans h.version, g1, by simpa [g2] using h.rpc, fun j c hj => ?_⟩
        rcases hset _ j c hj with hj | hj
        · simp at hj
        · exact h.threads j c hj
      | multi c0 =>
        have hmv := multiStep_move ch st c0
        obtain ⟨g1, g2⟩ := mute_heap_move hmv h
        refine ⟨hmv.version.trans h.version, g1, by simpa [g2] using h.rpc, fun j c hj => ?_⟩
        rcases hset _ j c hj with hj | hj
        · injection hj with hj; subst hj; exact stuck_step h ch (h.threads i c0 hi)
        · exact h.threads j c hj
  | recv m => exact mute_recvBegin h (hop m rfl)
  | recvStep => exact mute_recvStep h
  | close => exact ⟨h.version, h.heap, h.rpc, h.threads⟩
  | closeStep i =>
    simp only [syncOp, closeStep]
    split
    · exact ⟨h.version, heap_upd h.heap _ _ fun x hx => .inr (.inl rfl), h.rpc, h.threads⟩
    · exact ⟨h.version, heap_upd h.heap _ _ fun x hx => hx, h.rpc, h.threads⟩
    · exact h

theorem mute_fresh : MuteInv (freshSync (some 4)) :=
  ⟨rfl, by simp [freshSync], by simp [freshSync], by simp [freshSync]⟩

/-- The whole: the controller never gets a barrier reply. -/
def Mute (n : Net σ) : Prop := MuteInv n.ctl ∧ ∀ m ∈ n.down, u8 m 1 ≠ 21

theorem mute_net {h : Handle σ} (hp : Polite h) {n : Net σ} (hn : NetInv n) (hpl : ∀ m ∈ asked n, Plain m) (hi : Mute n) (op : NOp σ)
    (ho : ∀ u bs, op = .own u bs → ∀ b ∈ bs, u8 b 1 ≠ 21) : Mute (step h n op) := by
  obtain ⟨h1, h2⟩ := hi
  cases op with
  | ctl o =>
    cases o with
    | recv m => exact ⟨h1, h2⟩
    | sendSync m => have := mute_step h1 (.sendSync m) (by simp); exact ⟨this, h2⟩
    | multi ms => have := mute_step h1 (.multi ms) (by simp); exact ⟨this, h2⟩
    | thread i ch => have := mute_step h1 (.thread i ch) (by simp); exact ⟨this, h2⟩
    | recvStep => have := mute_step h1 .recvStep (by simp); exact ⟨this, h2⟩
    | close => have := mute_step h1 .close (by simp); exact ⟨this, h2⟩
    | closeStep i => have := mute_step h1 (.closeStep i) (by simp); exact ⟨this, h2⟩
  | switch x =>
    simp only [step]
    split
    · split
      · exact ⟨h1, h2⟩
      · rename_i m up hu
        obtain ⟨out, g1, _, g3⟩ := message_polite hp x n.sw hn.version (hpl m (by rw [hn.asked, hu]; simp))
        have hd : (message (.seq [.int 4]) x h n.sw m).1.sent.drop n.sw.sent.length = out := by rw [g1]; simp
        refine ⟨h1, fun b hb => ?_⟩
        simp only [hd, List.mem_append] at hb
        rcases hb with hb | hb
        · exact h2 b hb
        · rcases g3 with rfl | ⟨r, rfl, _, g4⟩
          · simp at hb
          · simp only [List.mem_singleton] at hb; subst hb; exact g4
    · exact ⟨h1, h2⟩
  | own u bs =>
    simp only [step]
    split
    · refine ⟨h1, fun b hb => ?_⟩
      rcases List.mem_append.1 hb with hb | hb
      · exact h2 b hb
      · exact ho u bs rfl b hb
    · exact ⟨h1, h2⟩
  | deliver =>
    simp only [step]
    split
    · rename_i m down _ hd
      have := mute_step h1 (.recv m) (fun m' e _ => by
        injection e with e; subst e
        exact h2 m (by simp [hd]))
      exact ⟨this, fun b hb => h2 b (by simp [hd, hb])⟩
    · exact ⟨h1, h2⟩

theorem mute_run {h : Handle σ} (hp : Polite h) {n : Net σ} (hn : NetInv n) (hi : Mute n) (ops : List (NOp σ)) (hpl : ∀ m ∈ asked (run h n ops), Plain m)
    (hl : OwnLong ops) (ho : ∀ u bs, NOp.own u bs ∈ ops → ∀ b ∈ bs, u8 b 1 ≠ 21) : Mute (run h n ops) := by
  induction ops generalizing n with
  | nil => exact hi
  | cons op ops ih =>
    have hs : ∀ m ∈ asked n, Plain m := fun m hm => hpl m ((asked_run h n (op :: ops)).subset hm)
    exact ih (netInv_step hp hn op hs fun u bs e => hl u bs (by simp [e])) (mute_net hp hn hs hi op fun u bs e => ho u bs (by simp [e])) hpl
      (fun u bs hu => hl u bs (by simp [hu])) fun u bs hu => ho u bs (by simp [hu])

end Twink.Wired
