import Verif.Props.Parallel
import Verif.Spec.ThreadOrder
import Mathlib.Data.List.Nodup

/-! # Property C67: exactly when messages are handled in the order of arrival -/

namespace Twink.Par.Order
open Twink Spec

structure NInv (s : Chan) (a : Nat × List Nat) : Prop where
  rate : s.rate = 0
  alive : s.died = none
  inv : RInv s.pool
  idle : s.pool.submitted = 0
  count : s.threads.length = a.1
  msgs : s.threads.map Thread.msg = s.got
  pcs : ∀ j t, s.threads[j]? = some t → (t.pc = .start ↔ j ∉ a.2)
  lt : ∀ j ∈ a.2, j < a.1
  nodup : a.2.Nodup
  handled : s.handled = a.2.filterMap (s.got[·]?)

theorem msgs_set {l : List Thread} {j : Nat} {t : Thread} (h : l[j]? = some t) (pc : TPc) :
    (l.set j { t with pc := pc }).map Thread.msg = l.map Thread.msg := by
  rw [List.map_set]
  apply List.ext_getElem?
  intro k
  rw [List.getElem?_set]
  split
  · rename_i e
    subst e
    rw [if_pos (by simpa using (List.getElem?_eq_some_iff.1 h).1), List.getElem?_map, h]
    rfl
  · rfl

/-- A thread that has run already moves on. -/
theorem ninv_later {s : Chan} {a : Nat × List Nat} (h : NInv s a) {j : Nat} {t : Thread} (ht : s.threads[j]? = some t)
    (hp : t.pc ≠ .start) (pc : TPc) (hpc : pc ≠ .start) (e : List Outcome) (c : Bool) :
    NInv { s with threads := s.threads.set j { t with pc := pc }, ends := e, closed := c } a := by
  refine ⟨h.rate, h.alive, h.inv, h.idle, ?_, ?_, ?_, h.lt, h.nodup, h.handled⟩
  · simpa using h.count
  · simp only [msgs_set ht]; exact h.msgs
  · intro k u hu
    simp only [List.getElem?_set] at hu
    split at hu
    · rename_i e
      subst e
      rw [if_pos (List.getElem?_eq_some_iff.1 ht).1] at hu
      injection hu with hu
      subst hu
      have := (h.pcs j t ht).not.1 hp
      exact ⟨fun x => absurd x hpc, fun x => absurd x this⟩
    · exact h.pcs k u hu

theorem ninv_step {s : Chan} {a : Nat × List Nat} (h : NInv s a) (op : Op) : NInv (step s op) (note a op) := by
  cases op with
  | recv m =>
    have he : step s (.recv m) = { s with got := s.got ++ [m], threads := s.threads ++ [⟨m, .start⟩] } := by
      simp [step, recvStep, ratedCall, h.rate, h.alive]
    rw [he]
    have hlg : s.got.length = a.1 := by rw [← h.msgs, List.length_map, h.count]
    refine ⟨h.rate, h.alive, h.inv, h.idle, ?_, ?_, ?_, ?_, h.nodup, ?_⟩
    · simp [note, h.count]
    · simp [h.msgs]
    · intro j t ht
      simp only [note] at ht ⊢
      rcases Nat.lt_trichotomy j s.threads.length with hlt | heq | hgt
      · rw [List.getElem?_append_left hlt] at ht
        exact h.pcs j t ht
      · rw [heq] at ht
        simp at ht
        subst ht
        refine ⟨fun _ hj => ?_, fun _ => rfl⟩
        have := h.lt j hj
        have := h.count
        omega
      · rw [List.getElem?_eq_none (by simp; omega)] at ht; cases ht
    · intro j hj
      exact Nat.lt_succ_of_lt (h.lt j hj)
    · show s.handled = a.2.filterMap ((s.got ++ [m])[·]?)
      rw [h.handled]
      refine List.filterMap_congr fun j hj => ?_
      rw [List.getElem?_append_left (by have := h.lt j hj; omega)]
  | thread j o =>
    simp only [step]
    cases ht : s.threads[j]? with
    | none =>
      have : ¬ (j < a.1 ∧ j ∉ a.2) := by
        intro hc
        have := List.getElem?_eq_none_iff.1 ht
        have := h.count
        omega
      simp only [note, if_neg this]
      exact h
    | some t =>
      have hj : j < a.1 := by rw [← h.count]; exact (List.getElem?_eq_some_iff.1 ht).1
      simp only [threadStep]
      cases hp : t.pc with
      | start =>
        have hn : j ∉ a.2 := (h.pcs j t ht).1 hp
        simp only [note, if_pos (show j < a.1 ∧ j ∉ a.2 from ⟨hj, hn⟩)]
        refine ⟨h.rate, h.alive, h.inv, h.idle, ?_, ?_, ?_, ?_, ?_, ?_⟩
        · simpa using h.count
        · simp only [msgs_set ht]; exact h.msgs
        · intro k u hu
          simp only [List.getElem?_set] at hu
          split at hu
          · rename_i e
            subst e
            rw [if_pos (List.getElem?_eq_some_iff.1 ht).1] at hu
            injection hu with hu
            subst hu
            simp
          · rename_i e
            rw [h.pcs k u hu]
            simp [Ne.symm e]
        · intro k hk
          rcases List.mem_append.1 hk with hk | hk
          · exact h.lt k hk
          · rw [List.mem_singleton.1 hk]; exact hj
        · simp only
          rw [List.nodup_append]
          exact ⟨h.nodup, by simp, fun x hx y hy e => hn (by rw [← List.mem_singleton.1 hy, ← e]; exact hx)⟩
        · have hg : s.got[j]? = some t.msg := by rw [← h.msgs, List.getElem?_map, ht]; rfl
          simp [h.handled, List.filterMap_append, hg]
      | handling =>
        have hn : ¬ (j < a.1 ∧ j ∉ a.2) := fun hc => by simpa [hp] using (h.pcs j t ht).2 hc.2
        simp only [note, if_neg hn]
        cases o
        all_goals exact ninv_later h ht (by simp [hp]) _ (by simp) _ _
      | closing =>
        have hn : ¬ (j < a.1 ∧ j ∉ a.2) := fun hc => by simpa [hp] using (h.pcs j t ht).2 hc.2
        simp only [note, if_neg hn]
        exact ninv_later h ht (by simp [hp]) _ (by simp) _ _
      | done =>
        have hn : ¬ (j < a.1 ∧ j ∉ a.2) := fun hc => by simpa [hp] using (h.pcs j t ht).2 hc.2
        simp only [note, if_neg hn]
        exact h
  | pool r o =>
    have hother : ∀ r : ROp, r ≠ .submit → NInv { s with pool := rstep s.pool r } a := fun r hr =>
      ⟨h.rate, h.alive, rinv_step h.inv r, by simpa [rstep_submitted _ _ hr] using h.idle, h.count, h.msgs, h.pcs, h.lt, h.nodup, h.handled⟩
    cases r with
    | submit => exact h
    | proxy j b =>
      have h1 := h.inv.order
      rw [h.idle] at h1
      have h2 := h.inv.hand
      rw [(List.append_eq_nil_iff.1 h1).1] at h2
      have h3 : s.pool.proxies = [] := List.map_eq_nil_iff.1 (List.append_eq_nil_iff.1 h2).1
      simpa [step, poolProxy, h3, note] using h
    | spawnLoop => exact hother _ (by simp)
    | acquire => exact hother _ (by simp)
    | loop pick => exact hother _ (by simp)

theorem ninv_runs (ops : List Op) {s : Chan} {a : Nat × List Nat} (h : NInv s a) : NInv (runs s ops) (ops.foldl note a) := by
  induction ops generalizing s a with
  | nil => exact h
  | cons op ops ih => exact ih (ninv_step h op)

theorem ninv_fresh : NInv (fresh 0) (0, []) := by
  refine ⟨rfl, rfl, rinv_fresh 0, rfl, rfl, rfl, ?_, ?_, ?_, rfl⟩ <;> simp [fresh]

theorem got_received (ops : List Op) {s : Chan} (hr : s.rate = 0) (hd : s.died = none) :
    (runs s ops).got = s.got ++ received ops := by
  induction ops generalizing s with
  | nil => simp [runs, received]
  | cons op ops ih =>
    cases op with
    | recv m =>
      have he : step s (.recv m) = { s with got := s.got ++ [m], threads := s.threads ++ [⟨m, .start⟩] } := by
        simp [step, recvStep, ratedCall, hr, hd]
      simp only [runs]
      rw [he]
      refine (ih (s := { s with got := s.got ++ [m], threads := s.threads ++ [⟨m, .start⟩] }) hr hd).trans ?_
      simp [received]
    | thread j o =>
      simp only [runs, received, List.filterMap_cons]
      have : (step s (.thread j o)).rate = 0 ∧ (step s (.thread j o)).died = none ∧ (step s (.thread j o)).got = s.got := by
        simp only [step]
        split
        · simp only [threadStep]
          split
          · exact ⟨hr, hd, rfl⟩
          · split <;> exact ⟨hr, hd, rfl⟩
          · exact ⟨hr, hd, rfl⟩
          · exact ⟨hr, hd, rfl⟩
        · exact ⟨hr, hd, rfl⟩
      rw [ih this.1 this.2.1, this.2.2]
      rfl
    | pool r o =>
      simp only [runs, received, List.filterMap_cons]
      have : (step s (.pool r o)).rate = 0 ∧ (step s (.pool r o)).died = none ∧ (step s (.pool r o)).got = s.got := by
        cases r with
        | proxy j b =>
          simp only [step, poolProxy]
          split
          · exact ⟨hr, hd, rfl⟩
          · split <;> exact ⟨hr, hd, rfl⟩
        | _ => exact ⟨hr, hd, rfl⟩
      rw [ih this.1 this.2.1, this.2.2]
      rfl

/-- C67, what is handled, for channels without rate limit and all schedules: the handler is called for the messages in the order in which their threads
first run, once for each of these threads. -/
theorem C67_order (ops : List Op) :
    (runs (fresh 0) ops).handled = (starts ops).filterMap ((received ops)[·]?) ∧ (starts ops).Nodup ∧
    ∀ j ∈ starts ops, j < (received ops).length := by
  have h := ninv_runs ops ninv_fresh
  have hg := got_received ops (s := fresh 0) rfl rfl
  have hg' : (runs (fresh 0) ops).got = received ops := by rw [hg]; rfl
  refine ⟨by rw [h.handled, hg']; rfl, h.nodup, fun j hj => ?_⟩
  rw [← hg', ← h.msgs, List.length_map, h.count]
  exact h.lt j hj

theorem sublist_of_sorted {α : Type} {l : List α} {is : List Nat} (h : ∀ i ∈ is, i < l.length) (hs : is.Pairwise (· < ·)) :
    (is.filterMap (l[·]?)).Sublist l := by
  have e : is.filterMap (l[·]?) = (is.pmap (fun i (hi : i < l.length) => (⟨i, hi⟩ : Fin l.length)) h).map (l[·]) := by
    clear hs
    induction is with
    | nil => rfl
    | cons i is ih =>
      rw [List.filterMap_cons, List.getElem?_eq_getElem (h i (by simp)), ih fun k hk => h k (by simp [hk])]
      rfl
  rw [e]
  apply List.map_getElem_sublist
  rw [List.pairwise_pmap]
  exact hs.imp fun hab _ _ => hab

theorem sorted_of_sublist {α : Type} [DecidableEq α] {l : List α} (hn : l.Nodup) {is : List Nat} (h : ∀ i ∈ is, i < l.length)
    (hs : (is.filterMap (l[·]?)).Sublist l) : is.Pairwise (· < ·) := by
  have hl : l.Pairwise (fun a b => l.idxOf a < l.idxOf b) := by
    rw [List.pairwise_iff_getElem]
    intro i j hi hj hij
    rw [hn.idxOf_getElem, hn.idxOf_getElem]
    exact hij
  have hp := hl.sublist hs
  rw [List.pairwise_filterMap] at hp
  refine hp.imp_of_mem ?_
  intro i j hi hj hij
  have := hij _ (List.getElem?_eq_getElem (h i hi)) _ (List.getElem?_eq_getElem (h j hj))
  rwa [hn.idxOf_getElem, hn.idxOf_getElem] at this

/-- C67, exactly, for channels without rate limit: different messages are handled in the order of arrival if and only if their threads
first run in the order in which they were started. -/
theorem C67_exact (ops : List Op) (hd : (received ops).Nodup) :
    (runs (fresh 0) ops).handled.Sublist (received ops) ↔ (starts ops).Pairwise (· < ·) := by
  obtain ⟨h1, _, h3⟩ := C67_order ops
  rw [h1]
  exact ⟨sorted_of_sublist hd h3, sublist_of_sorted h3⟩

/-- The hypothesis of `C67_exact`, and both sides of it: two messages, the threads in the one order and the other. -/
example : (received [.recv (packetIn 1), .recv (packetIn 2), .thread 0 .returns, .thread 1 .returns]).Nodup ∧
    starts [.recv (packetIn 1), .recv (packetIn 2), .thread 0 .returns, .thread 1 .returns] = [0, 1] ∧
    starts [.recv (packetIn 1), .recv (packetIn 2), .thread 1 .returns, .thread 0 .returns] = [1, 0] := by
  decide

end Twink.Par.Order
