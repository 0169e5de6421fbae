import Verif.Proof.SyncRun
import Mathlib.Data.List.Induction

/-! What `multi` returns when outstanding requests have different ids and nobody closes the channel. -/

namespace Twink
open Spec Fmt

/-- Among the messages received from position `base` up to `n` is a barrier reply with id `b`. -/
def Seen (st : SyncSt) (base b n : Nat) : Prop :=
  ∃ m ∈ seg st.rx base n, u32 m 4 = b ∧ u8 m 1 = if st.version = some 1 then 19 else 21

/-- `m` is registered as `p`, and sent unless it is `pending`. -/
def Slot (st : SyncSt) (base : Nat) (pending : Option Bytes) (m : Bytes) (p : Nat × Nat) : Prop :=
  u32 m 4 = p.1 ∧ ∃ tr : Tracker, st.heap[p.2]? = some tr ∧ tr.xid = p.1 ∧ base ≤ tr.since ∧ tr.since ≤ st.rx.length ∧
    ((∃ k, (m, k) ∈ st.sent ∧ tr.since ≤ k) ∨ pending = some m)

/-- `r` is the reply to `m` received before some moment after the barrier reply. -/
def Res (st : SyncSt) (base b : Nat) (m : Bytes) (r : Option Bytes) : Prop :=
  ∃ s k n, base ≤ s ∧ s ≤ k ∧ (m, k) ∈ st.sent ∧ s ≤ n ∧ n ≤ st.rx.length ∧ Seen st base b n ∧
    r = assembled (withId (u32 m 4) (seg st.rx s n))

def pending (c : MCall) : Option Bytes :=
  match c.pc with
  | .sending | .failed _ => some c.cur
  | _ => none

def Stage (st : SyncSt) (base : Nat) (c : MCall) (dt dp : List Bytes) : Prop :=
  match c.pc with
  | .next => dt = [] ∧ c.results = []
  | .sending => dt = [] ∧ c.results = []
  | .barrier s => dt = [] ∧ c.results = [] ∧ c.todo = [] ∧ (∀ p ∈ c.prepared, p.1 ≠ c.bxid) ∧
      ∃ tr : Tracker, st.heap[s.tr]? = some tr ∧ base ≤ tr.since
  | .collect | .reading | .done =>
      c.todo = [] ∧ (∀ p ∈ c.prepared, p.1 ≠ c.bxid) ∧ Seen st base c.bxid st.rx.length ∧ List.Forall₂ (Res st base c.bxid) dt c.results
  | .popping =>
      c.todo = [] ∧ (∀ p ∈ c.prepared, p.1 ≠ c.bxid) ∧ Seen st base c.bxid st.rx.length ∧
      ∃ m dp' rs r, dp = m :: dp' ∧ c.results = rs ++ [r] ∧ List.Forall₂ (Res st base c.bxid) dt rs ∧ Res st base c.bxid m r
  | .failed _ => True

def MultiB (st : SyncSt) (base : Nat) (c : MCall) : Prop :=
  ∃ dt dp, c.all = dt ++ (dp ++ c.todo) ∧ List.Forall₂ (Slot st base (pending c)) dp c.prepared ∧ Stage st base c dt dp

/-- The relations between an earlier and a later state that matter here. -/
structure Later (a b : SyncSt) : Prop where
  ext : Ext a b
  sent : ∃ l, b.sent = a.sent ++ l
  version : b.version = a.version

theorem Seen.mono {a b : SyncSt} (h : Later a b) {base x n : Nat} (hn : n ≤ a.rx.length) (hs : Seen a base x n) : Seen b base x n := by
  obtain ⟨m, h1, h2⟩ := hs
  obtain ⟨more, hm⟩ := h.ext.rx
  exact ⟨m, by rw [hm, seg_append _ _ _ _ hn]; exact h1, by rw [h.version]; exact h2⟩

theorem Seen.le {a : SyncSt} {base x n n' : Nat} (hn : n ≤ n') (hs : Seen a base x n) : Seen a base x n' := by
  obtain ⟨m, h1, h2⟩ := hs
  refine ⟨m, ?_, h2⟩
  simp only [seg] at h1 ⊢
  have : a.rx.take n = (a.rx.take n').take n := by rw [List.take_take, Nat.min_eq_left hn]
  rw [this, List.drop_take] at h1
  exact List.mem_of_mem_take h1

theorem Later.rx_le {a b : SyncSt} (h : Later a b) : a.rx.length ≤ b.rx.length := by
  obtain ⟨more, hm⟩ := h.ext.rx; rw [hm, List.length_append]; omega

theorem Slot.mono {a b : SyncSt} (h : Later a b) {base pd m p} (hs : Slot a base pd m p) : Slot b base pd m p := by
  obtain ⟨h1, tr, h2, h3, h4, h5, h6⟩ := hs
  obtain ⟨tr', e1, e2, e3, _⟩ := h.ext.old _ tr h2
  obtain ⟨l, hl⟩ := h.sent
  refine ⟨h1, tr', e1, e2.trans h3, by omega, by have := h.rx_le; omega, ?_⟩
  rcases h6 with ⟨k, g1, g2⟩ | h6
  · exact .inl ⟨k, by rw [hl]; exact List.mem_append_left _ g1, by omega⟩
  · exact .inr h6

theorem Res.mono {a b : SyncSt} (h : Later a b) {base x m r} (hs : Res a base x m r) : Res b base x m r := by
  obtain ⟨s, k, n, h1, h2, h3, h4, h5, h6, h7⟩ := hs
  obtain ⟨l, hl⟩ := h.sent
  obtain ⟨more, hm⟩ := h.ext.rx
  exact ⟨s, k, n, h1, h2, by rw [hl]; exact List.mem_append_left _ h3, h4, by have := h.rx_le; omega, h6.mono h h5,
    by rw [hm, seg_append _ _ _ _ h5]; exact h7⟩

theorem Stage.mono {a b : SyncSt} (h : Later a b) {base c dt dp} (hs : Stage a base c dt dp) : Stage b base c dt dp := by
  have late : ∀ l, Seen a base c.bxid a.rx.length ∧ List.Forall₂ (Res a base c.bxid) dt l →
      Seen b base c.bxid b.rx.length ∧ List.Forall₂ (Res b base c.bxid) dt l := fun l hh =>
    ⟨(hh.1.mono h (Nat.le_refl _)).le h.rx_le, hh.2.imp (fun _ _ => Res.mono h)⟩
  unfold Stage at hs ⊢
  split at hs
  · exact hs
  · exact hs
  · obtain ⟨h1, h2, h3, h4, tr, h5, h6⟩ := hs
    obtain ⟨tr', e1, _, e3, _⟩ := h.ext.old _ tr h5
    exact ⟨h1, h2, h3, h4, tr', e1, by omega⟩
  · exact ⟨hs.1, hs.2.1, late _ hs.2.2⟩
  · exact ⟨hs.1, hs.2.1, late _ hs.2.2⟩
  · exact ⟨hs.1, hs.2.1, late _ hs.2.2⟩
  · obtain ⟨h1, h2, h3, m, dp', rs, r, h4, h5, h6, h7⟩ := hs
    obtain ⟨g1, g2⟩ := late rs ⟨h3, h6⟩
    exact ⟨h1, h2, g1, m, dp', rs, r, h4, h5, g2, h7.mono h⟩
  · exact hs

theorem MultiB.mono {a b : SyncSt} (h : Later a b) {base c} (hs : MultiB a base c) : MultiB b base c := by
  obtain ⟨dt, dp, h1, h2, h3⟩ := hs
  exact ⟨dt, dp, h1, h2.imp (fun _ _ => Slot.mono h), h3.mono h⟩

theorem assembled_prefix (l : List Bytes) : ∀ d, assembled l = some d → ∃ b ∈ l, ∃ tail, d = b ++ tail := by
  induction l using List.reverseRecOn with
  | nil => intro d h; simp [assembled] at h
  | append_singleton l m ih =>
    intro d h
    rw [assembled_snoc] at h
    split at h
    · injection h with h
      cases ha : assembled l with
      | none => rw [ha] at h; exact ⟨m, by simp, [], by simpa using h.symm⟩
      | some d' =>
        obtain ⟨b, hb, tail, ht⟩ := ih d' ha
        rw [ha] at h
        simp only [Option.getD_some] at h
        exact ⟨b, by simp [hb], tail ++ m, by rw [← h, ht, List.append_assoc]⟩
    · injection h with h
      exact ⟨m, by simp, [], by simpa using h.symm⟩

theorem barrierResult_ok {v : Option Nat} {d : Option Bytes} (h : barrierResult v d = .ok ()) :
    ∃ m, d = some m ∧ 8 ≤ m.length ∧ u8 m 1 = if v = some 1 then 19 else 21 := by
  unfold barrierResult at h
  cases d with
  | none => simp at h
  | some m =>
    cases m with
    | nil => simp at h
    | cons a m =>
      simp only at h
      by_cases h8 : 8 ≤ (a :: m).length
      · rw [parseHeader_fields _ h8] at h
        simp only at h
        refine ⟨_, rfl, h8, ?_⟩
        by_cases ht : u8 (a :: m) 1 = if v = some 1 then 19 else 21
        · exact ht
        · rw [if_pos ht] at h; simp at h
      · rw [parseHeader_short _ (by omega)] at h; simp at h

theorem seg_sub {rx : List Bytes} {s n base n' : Nat} (h1 : base ≤ s) (h2 : n ≤ n') {m : Bytes} (h : m ∈ seg rx s n) : m ∈ seg rx base n' := by
  simp only [seg] at h ⊢
  have e : rx.take n = (rx.take n').take n := by rw [List.take_take, Nat.min_eq_left h2]
  rw [e, List.drop_take] at h
  have h := List.mem_of_mem_take h
  have e2 : (rx.take n').drop s = ((rx.take n').drop base).drop (s - base) := by rw [List.drop_drop]; congr 1; omega
  rw [e2] at h
  exact List.mem_of_mem_drop h

theorem seen_of_done {st : SyncSt} (hr : RunInv st) (ha : Alive st) {x t base : Nat} {d : Option Bytes} {be : Bool}
    (h : DoneSpec st x t d be) {tr : Tracker} (ht : st.heap[t]? = some tr) (hb : base ≤ tr.since)
    (hok : barrierResult st.version d = .ok ()) : Seen st base x st.rx.length := by
  obtain ⟨tr', h1, h2, h3⟩ := h
  rw [ht] at h1; injection h1 with h1; subst h1
  obtain ⟨n, h4, h5, h6, _⟩ := h3 (ha.2 t tr ht)
  obtain ⟨m, e1, e2, e3⟩ := barrierResult_ok hok
  obtain ⟨b, g1, tail, g2⟩ := assembled_prefix _ m (by rw [← h6, e1])
  simp only [withId, List.mem_filter, decide_eq_true_eq] at g1
  have hmem := seg_sub hb h5 g1.1
  have h8 : 8 ≤ b.length := hr.rx b (by simp only [seg] at hmem; exact List.mem_of_mem_take (List.mem_of_mem_drop hmem))
  refine ⟨b, hmem, g1.2, ?_⟩
  rw [← e3, g2, u8_append _ _ _ (by omega)]

theorem seg_last {r : List Bytes} {m b : Bytes} {base : Nat} (h : b ∈ seg (r ++ [m]) base (r ++ [m]).length) (hne : b ≠ m) :
    b ∈ seg (r ++ [m]) base r.length := by
  simp only [seg, List.take_length] at h
  rw [seg, List.take_left']
  · rcases Nat.lt_or_ge r.length base with hl | hl
    · rw [List.drop_eq_nil_of_le (by simp; omega)] at h; simp at h
    · rw [List.drop_append_of_le_length hl] at h
      simp only [List.mem_append, List.mem_singleton] at h
      exact h.resolve_right hne
  · rfl

/-- Reading a registered tracker after the barrier reply. -/
theorem res_read {st : SyncSt} (hr : RunInv st) (ha : Alive st) {base b : Nat} {m : Bytes} {p : Nat × Nat}
    (hs : Slot st base none m p) (hb : st.syncs p.1 = some p.2) (hne : p.1 ≠ b) (hseen : Seen st base b st.rx.length) :
    Res st base b m (trackerData st p.2) := by
  obtain ⟨h1, tr, h2, h3, h4, h5, h6⟩ := hs
  rcases h6 with ⟨k, h6, h7⟩ | h6
  swap
  · simp at h6
  obtain ⟨n, a1, a2, a3, _, _, a6, _, a8⟩ := hr.inv.tracker p.2 tr h2 (ha.2 _ _ h2)
  refine ⟨tr.since, k, n, h4, h7, h6, a1, a2, ?_, ?_⟩
  · by_cases hf : ∃ m', st.rpc = .found m' p.2
    · obtain ⟨m', hf⟩ := hf
      obtain ⟨e1, r, e2⟩ := a6 m' hf
      obtain ⟨_, tr', f1, f2⟩ := hr.inv.busy m' p.2 (.inl hf)
      rw [h2] at f1; injection f1 with f1; subst f1
      obtain ⟨bm, g1, g2, g3⟩ := hseen
      have hbm : bm ≠ m' := by rintro rfl; exact hne (by rw [← h3, f2, g2])
      refine ⟨bm, ?_, g2, g3⟩
      rw [e2] at g1 e1 ⊢
      have := seg_last g1 hbm
      have e3 : n = r.length := by rw [List.length_append] at e1; simpa using e1
      rw [e3]; exact this
    · have : n = st.rx.length := a8 (by rw [h3]; exact hb) (fun m' hm' => hf ⟨m', hm'⟩)
      rw [this]; exact hseen
  · simp only [trackerData, h2, Option.bind_some]
    rw [h1, ← h3]; exact a3

theorem slot_pending {st : SyncSt} {base : Nat} {m : Bytes} {p : Nat × Nat} {pd : Option Bytes} (h : Slot st base none m p) :
    Slot st base pd m p := by
  obtain ⟨h1, tr, h2, h3, h4, h5, h6⟩ := h
  exact ⟨h1, tr, h2, h3, h4, h5, .inl (h6.resolve_right (by simp))⟩

theorem later_register {st : SyncSt} (h : SyncInv st) (x : Nat) : Later st (register st x) :=
  ⟨(inv_register h x).2, ⟨[], by simp [register]⟩, rfl⟩

theorem later_unregister {st : SyncSt} (h : SyncInv st) (x : Nat) : Later st (unregister st x) :=
  ⟨(inv_unregister h x).2, ⟨[], by simp [unregister]⟩, rfl⟩

theorem later_refl (st : SyncSt) : Later st st := ⟨Ext.refl st, ⟨[], by simp⟩, rfl⟩

theorem forall2_snoc {α β : Type} {R : α → β → Prop} {a : List α} {b : List β} {x : α} {y : β} (h : List.Forall₂ R a b) (hxy : R x y) :
    List.Forall₂ R (a ++ [x]) (b ++ [y]) := by
  induction h with
  | nil => exact .cons hxy .nil
  | cons h _ ih => exact .cons h ih

theorem multiB_step {st : SyncSt} (hr : RunInv st) (ha : Alive st) (ch : Choice) (c : MCall) (hc : MultiInv st c) {base : Nat}
    (hbase : base ≤ st.rx.length) (hb : ∀ p ∈ outstanding (.multi c), st.syncs p.1 = some p.2)
    (hnd : ((outstanding (.multi (multiStep ch st c).2)).map (·.1)).Nodup) (h : MultiB st base c) :
    MultiB (multiStep ch st c).1 base (multiStep ch st c).2 := by
  obtain ⟨dt, dp, h1, h2, h3⟩ := h
  obtain ⟨all, todo, prepared, taken, results, bxid, btr, cur, pc⟩ := c
  cases pc with
  | next =>
    simp only [Stage] at h3
    simp only [pending] at h2
    obtain ⟨rfl, rfl⟩ := h3
    cases todo with
    | cons m rest =>
      simp only [multiStep] at hnd ⊢
      by_cases h8 : 8 ≤ m.length
      · rw [parseHeader_fields m h8] at hnd ⊢
        simp only at hnd ⊢
        refine ⟨[], dp ++ [m], by simpa using h1, ?_, ?_⟩
        · simp only [pending]
          apply forall2_snoc
          · exact h2.imp (fun _ _ hs => slot_pending (hs.mono (later_register hr.inv _)))
          · exact ⟨rfl, ⟨u32 m 4, false, none, st.rx.length, false⟩, by simp [register], rfl, hbase, Nat.le_refl _, .inr rfl⟩
        · exact ⟨rfl, rfl⟩
      · rw [parseHeader_short m (by omega)]
        exact ⟨[], dp, h1, h2.imp (fun _ _ => slot_pending), trivial⟩
    | nil =>
      simp only [multiStep] at hnd ⊢
      cases hbm : barrierMsg st.version ch.bxid with
      | error e => exact ⟨[], dp, h1, h2.imp (fun _ _ => slot_pending), trivial⟩
      | ok b =>
        rw [hbm] at hnd
        simp only [outstanding, outCall, List.map_append, List.map_cons, List.map_nil] at hnd ⊢
        refine ⟨[], dp, h1, h2.imp (fun _ _ hs => slot_pending (hs.mono (later_register hr.inv _))), rfl, rfl, rfl, ?_, ?_⟩
        · intro p hp
          exact (List.nodup_append.1 hnd).2.2 p.1 (List.mem_map_of_mem hp) _ (by simp)
        · exact ⟨⟨ch.bxid, false, none, st.rx.length, false⟩, by simp [register], hbase⟩
  | sending =>
    simp only [Stage] at h3
    simp only [pending] at h2
    simp only [multiStep]
    split
    · refine ⟨dt, dp, h1, h2.imp ?_, h3⟩
      intro m p hs
      obtain ⟨g1, tr, g2, g3, g4, g5, g6⟩ := hs
      refine ⟨g1, tr, g2, g3, g4, g5, .inl ?_⟩
      rcases g6 with ⟨k, g6, g7⟩ | g6
      · exact ⟨k, List.mem_append_left _ g6, g7⟩
      · injection g6 with g6; subst g6
        exact ⟨st.rx.length, by simp, g5⟩
    · exact ⟨dt, dp, h1, h2, trivial⟩
  | barrier s =>
    simp only [Stage] at h3
    simp only [pending] at h2
    obtain ⟨rfl, rfl, rfl, h4, tr, h5, h6⟩ := h3
    obtain ⟨hs1, hs2, hs3⟩ := hc.call s rfl
    simp only at hs2 hs3
    have gen : MultiB (syncStep ch st s).1 base ⟨all, [], prepared, taken, [], bxid, btr, cur, .barrier (syncStep ch st s).2⟩ := by
      have hmv := syncStep_move ch st s
      have hl : Later st (syncStep ch st s).1 := ⟨(inv_syncStep hr.inv ch s).2, hmv.sentGrows, hmv.version⟩
      obtain ⟨tr', e1, _, e3, _⟩ := hl.ext.old _ tr h5
      exact ⟨[], dp, h1, h2.imp (fun _ _ hs => slot_pending (hs.mono hl)), rfl, rfl, rfl, h4, tr',
        by rw [(syncStep_ids ch st s).2.1]; exact e1, by omega⟩
    simp only [multiStep] at hnd ⊢
    cases hpc : s.pc with
    | done d =>
      simp only
      cases hbr : barrierResult st.version d with
      | ok u =>
        obtain ⟨_, g2, _⟩ := hs1 (.inl (by simp [hpc]))
        have hseen := seen_of_done hr ha (g2 d hpc) h5 h6 hbr
        rw [hs2] at hseen
        exact ⟨[], dp, h1, h2, rfl, h4, hseen, .nil⟩
      | error e => exact ⟨[], dp, h1, h2.imp (fun _ _ => slot_pending), trivial⟩
    | failed e => exact ⟨[], dp, h1, h2.imp (fun _ _ => slot_pending), trivial⟩
    | sending => exact gen
    | waiting => exact gen
    | popping => exact gen
    | reading => exact gen
  | collect =>
    simp only [Stage] at h3
    simp only [pending] at h2
    simp only [outstanding] at hb
    simp only [multiStep]
    cases prepared with
    | nil => exact ⟨dt, dp, h1, h2, h3⟩
    | cons p rest =>
      simp only
      rw [hb p (by simp)]
      exact ⟨dt, dp, h1, h2, h3⟩
  | reading =>
    simp only [Stage] at h3
    simp only [pending] at h2
    simp only [outstanding] at hb
    simp only [multiStep]
    cases prepared with
    | nil => exact ⟨dt, dp, h1, h2, h3⟩
    | cons p rest =>
      simp only
      rw [hb p (by simp)]
      simp only
      obtain ⟨h4, h5, h6, h7⟩ := h3
      cases h2 with
      | @cons m _ dp' _ hs hrest =>
        exact ⟨dt, m :: dp', h1, .cons hs hrest, h4, h5, h6, m, dp', results, _, rfl, rfl, h7,
          res_read hr ha hs (hb p (by simp)) (h5 p (by simp)) h6⟩
  | popping =>
    simp only [Stage] at h3
    simp only [pending] at h2
    simp only [outstanding] at hb
    simp only [multiStep]
    cases prepared with
    | nil => exact ⟨dt, dp, h1, h2, h3⟩
    | cons p rest =>
      simp only
      rw [hb p (by simp)]
      simp only
      obtain ⟨h4, h5, h6, m, dp', rs, r, rfl, rfl, h7, h8⟩ := h3
      have hl := later_unregister hr.inv p.1
      cases h2 with
      | cons hs hrest =>
        refine ⟨dt ++ [m], dp', by simpa using h1, hrest.imp (fun _ _ hs => hs.mono hl), h4, fun q hq => h5 q (by simp [hq]),
          h6.mono hl (Nat.le_refl _), ?_⟩
        exact forall2_snoc (h7.imp (fun _ _ => Res.mono hl)) (h8.mono hl)
  | done => exact ⟨dt, dp, h1, h2, h3⟩
  | failed e => exact ⟨dt, dp, h1, h2, h3⟩

end Twink
