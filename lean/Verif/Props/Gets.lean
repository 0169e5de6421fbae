import Mathlib.Tactic.SplitIfs
import Mathlib.Algebra.BigOperators.Group.List.Basic
import Verif.Model.Gets

/-! # Property C106: many threads may ask for the outcome of a task -/

namespace Twink.Gets
open Twink

/-! ## Specification -/

/-- What the caller of `get` should see. -/
def Reports {α : Type} (o : Outcome α) (a : Answer α) : Prop :=
  match o with
  | .value v => a = .ret (some v)
  | .exc e => a = .raised e

/-- The claim: whatever threads call `get()`, and when, each call that ends without timeout reports how the function ended, and when the function has ended every call
can end. -/
def Claim (α : Type) : Prop := ∀ (ops : List (Op α)) (o : Outcome α), (run spawned ops).over = some (some o) →
  (∀ (i : Nat) (a : Answer α), (run spawned ops).calls[i]? = some (Pc.done a) → a ≠ .empty → Reports o a) ∧
  (∀ i : Nat, i < (run spawned ops).calls.length → ∃ more, (∀ op ∈ more, op = .step i) ∧ ∃ a, (run (run spawned ops) more).calls[i]? = some (Pc.done a))

/-- No two calls overlap. -/
def Serial {α : Type} : St α → List (Op α) → Prop
  | _, [] => True
  | s, op :: ops => (op = .call → ∀ pc ∈ s.calls, ∃ a, pc = .done a) ∧ Serial (step s op) ops

/-! ## Lemmas -/

theorem run_append {α : Type} (s : St α) (a b : List (Op α)) : run s (a ++ b) = run (run s a) b := by
  induction a generalizing s with
  | nil => rfl
  | cons op a ih => exact ih _

/-- Calls that have, or have reported, what was in the queue. -/
def weight {α : Type} : Pc α → Nat
  | .took _ => 1
  | .cleared _ => 1
  | .done (.raised _) => 1
  | _ => 0

/-- What a call knows is true. -/
def Sound {α : Type} (over : Option (Option (Outcome α))) : Pc α → Prop
  | .took o => over = some (some o)
  | .cleared o => over = some (some o)
  | .done (.ret (some v)) => over = some (some (.value v))
  | .done (.raised e) => over = some (some (.exc e))
  | _ => True

structure Inv {α : Type} (s : St α) : Prop where
  one : (s.calls.map weight).sum + s.queue.isSome.toNat + s.value.isSome.toNat + s.over.isNone.toNat ≤ 1
  queue : ∀ o, s.queue = some o → s.over = some (some o)
  value : ∀ v, s.value = some v → s.over = some (some (.value v))
  sound : ∀ pc ∈ s.calls, Sound s.over pc

theorem inv_spawned {α : Type} : Inv (spawned (α := α)) := ⟨by simp [spawned], by simp [spawned], by simp [spawned], by simp [spawned]⟩

theorem sum_set {α : Type} {l : List (Pc α)} {i : Nat} {pc : Pc α} (h : l[i]? = some pc) (d : Pc α) :
    ((l.set i d).map weight).sum + weight pc = (l.map weight).sum + weight d := by
  induction l generalizing i with
  | nil => simp at h
  | cons x l ih =>
    cases i with
    | zero => simp at h; subst h; simp; omega
    | succ i =>
      simp only [List.getElem?_cons_succ] at h
      have := ih h
      simp only [List.set_cons_succ, List.map_cons, List.sum_cons]
      omega

theorem mem_set_of {α : Type} {l : List (Pc α)} {i : Nat} {d x : Pc α} (h : x ∈ l.set i d) : x ∈ l ∨ x = d := by
  rcases List.mem_or_eq_of_mem_set h with h | h
  · exact .inl h
  · exact .inr h

theorem callStep_over {α : Type} (s : St α) (pc : Pc α) : (callStep s pc).1.over = s.over := by
  cases pc with
  | cleared o => cases o <;> rfl
  | waiting => simp only [callStep]; split <;> rfl
  | test => simp only [callStep]; split <;> rfl
  | fetch => simp only [callStep]; split <;> rfl
  | _ => rfl

theorem inv_step {α : Type} {s : St α} (h : Inv s) (op : Op α) : Inv (step s op) := by
  cases op with
  | finish o =>
    simp only [step]
    split
    · rename_i ho
      have h1 := h.one
      rw [ho] at h1
      simp only [Option.isNone_none, Bool.toNat_true] at h1
      have hq : s.queue = none := by
        cases hq : s.queue with
        | none => rfl
        | some o => have := h.queue o hq; rw [ho] at this; cases this
      have hv : s.value = none := by
        cases hv : s.value with
        | none => rfl
        | some o => have := h.value o hv; rw [ho] at this; cases this
      refine ⟨?_, fun o' e => by simp at e; simp [e], fun v e => by simp [hv] at e, fun pc hpc => ?_⟩
      · simp [hv]
        cases o <;> simp <;> omega
      · have := h.sound pc hpc
        rw [ho] at this
        cases pc with
        | took => cases this
        | cleared => cases this
        | done a =>
          cases a with
          | ret v => cases v with
            | none => trivial
            | some v => cases this
          | raised e => cases this
          | _ => trivial
        | _ => trivial
    · exact h
  | call =>
    refine ⟨?_, h.queue, h.value, ?_⟩
    · simpa [step, weight] using h.one
    · simp only [step, List.mem_append, List.mem_singleton]
      rintro pc (hpc | rfl)
      · exact h.sound pc hpc
      · trivial
  | expire i =>
    simp only [step]
    split
    · rename_i hc
      split_ifs
      · have hw := sum_set hc (.done .empty)
        refine ⟨?_, h.queue, h.value, ?_⟩
        · have := h.one
          simp only [weight] at hw
          simp only
          omega
        · intro pc hpc
          rcases mem_set_of hpc with hpc | rfl
          · exact h.sound pc hpc
          · trivial
      · exact h
    · exact h
  | step i =>
    simp only [step]
    split
    · rename_i pc hc
      have hone := h.one
      have hs := h.sound pc (List.mem_of_getElem? hc)
      have hw := sum_set hc (callStep s pc).2
      have key : weight (callStep s pc).2 + (callStep s pc).1.queue.isSome.toNat + (callStep s pc).1.value.isSome.toNat ≤
          weight pc + s.queue.isSome.toNat + s.value.isSome.toNat ∧ (∀ o, (callStep s pc).1.queue = some o → s.queue = some o) ∧
          (∀ v, (callStep s pc).1.value = some v → s.over = some (some (.value v))) ∧ Sound s.over (callStep s pc).2 := by
        cases pc with
        | test => simp only [callStep]; split <;> exact ⟨Nat.le_refl _, fun _ => id, h.value, trivial⟩
        | fetch => simp only [callStep]; split <;> exact ⟨Nat.le_refl _, fun _ => id, h.value, trivial⟩
        | waiting =>
          simp only [callStep]
          split
          · rename_i o ho
            refine ⟨by simp [weight, ho], fun o' e => by simp at e, h.value, h.queue o ho⟩
          · exact ⟨Nat.le_refl _, fun _ => id, h.value, trivial⟩
        | took o => exact ⟨Nat.le_refl _, fun _ => id, h.value, hs⟩
        | cleared o =>
          cases o with
          | value v =>
            refine ⟨?_, fun _ => id, fun w e => ?_, trivial⟩
            · simp [callStep, weight]; omega
            · simp [callStep] at e; subst e; exact hs
          | exc e => exact ⟨Nat.le_refl _, fun _ => id, h.value, hs⟩
        | reading =>
          refine ⟨Nat.le_refl _, fun _ => id, h.value, ?_⟩
          simp only [callStep]
          cases hv : s.value with
          | none => trivial
          | some v => exact h.value v hv
        | done a => exact ⟨Nat.le_refl _, fun _ => id, h.value, hs⟩
      obtain ⟨k1, k2, k3, k4⟩ := key
      refine ⟨?_, fun o e => ?_, fun v e => ?_, fun x hx => ?_⟩
      · simp only [callStep_over]
        omega
      · simp only [callStep_over]; exact h.queue o (k2 o e)
      · simp only [callStep_over]; exact k3 v e
      · simp only [callStep_over]
        rcases mem_set_of hx with hx | rfl
        · exact h.sound x hx
        · exact k4
    · exact h

theorem inv_run {α : Type} (ops : List (Op α)) {s : St α} (h : Inv s) : Inv (run s ops) := by
  induction ops generalizing s with
  | nil => exact h
  | cons op ops ih => exact ih (inv_step h op)

/-- A call that waits for an empty queue into which nothing will be put. -/
theorem waits {α : Type} {s : St α} {i : Nat} (ho : s.over ≠ none) (hq : s.queue = none) (hi : s.calls[i]? = some .waiting) (op : Op α)
    (hop : op ≠ .expire i) : (step s op).over ≠ none ∧ (step s op).queue = none ∧ (step s op).calls[i]? = some .waiting := by
  have hset : ∀ j (d : Pc α), j ≠ i → (s.calls.set j d)[i]? = some .waiting := fun j d hj => by rw [List.getElem?_set_ne hj]; exact hi
  have hl := (List.getElem?_eq_some_iff.1 hi).1
  cases op with
  | finish o =>
    simp only [step]
    split
    · rename_i e; exact absurd e ho
    · exact ⟨ho, hq, hi⟩
  | call => exact ⟨ho, hq, by simp only [step]; rw [List.getElem?_append_left hl]; exact hi⟩
  | expire j =>
    simp only [step]
    split
    · split_ifs
      exact ⟨ho, hq, hset j _ (fun e => hop (by rw [e]))⟩
    · exact ⟨ho, hq, hi⟩
  | step j =>
    simp only [step]
    split
    · rename_i pc hc
      refine ⟨by simp only [callStep_over]; exact ho, ?_, ?_⟩
      · cases pc with
        | waiting => simp [callStep, hq]
        | cleared o => cases o <;> simpa [callStep] using hq
        | test => simp only [callStep]; split <;> exact hq
        | fetch => simp only [callStep]; split <;> exact hq
        | _ => exact hq
      · by_cases e : j = i
        · subst e
          rw [hi] at hc
          injection hc with hc
          subst hc
          simp [callStep, hq, hl]
        · exact hset j _ e
    · exact ⟨ho, hq, hi⟩

/-- Later calls, once `self.value` is set. -/
structure After {α : Type} (v : α) (n : Nat) (s : St α) : Prop where
  value : s.value = some v
  result : s.result = false
  len : n ≤ s.calls.length
  calls : ∀ i pc, n ≤ i → s.calls[i]? = some pc → pc = .test ∨ pc = .reading ∨ pc = .done (.ret (some v))

/-- `self.result` is None when `self.value` is set or about to be. -/
def Cleared {α : Type} (s : St α) : Prop := (s.value ≠ none → s.result = false) ∧ ∀ o, .cleared o ∈ s.calls → s.result = false

theorem cleared_step {α : Type} {s : St α} (h : Cleared s) (op : Op α) : Cleared (step s op) := by
  cases op with
  | finish o => simp only [step]; split <;> exact h
  | call => exact ⟨h.1, fun o hm => h.2 o (by simpa [step] using hm)⟩
  | expire i =>
    simp only [step]
    split
    · split_ifs
      · exact ⟨h.1, fun o hm => by rcases mem_set_of hm with hm | hm; exacts [h.2 o hm, by cases hm]⟩
      · exact h
    · exact h
  | step i =>
    simp only [step]
    split
    · rename_i pc hc
      have hpc := List.mem_of_getElem? hc
      have key : (s.result = false → (callStep s pc).1.result = false) ∧
          ((callStep s pc).1.value ≠ none → (callStep s pc).1.result = false) ∧
          (∀ o, (callStep s pc).2 = .cleared o → (callStep s pc).1.result = false) := by
        cases pc with
        | test => simp only [callStep]; split <;> exact ⟨id, h.1, fun _ e => by cases e⟩
        | fetch => simp only [callStep]; split <;> exact ⟨id, h.1, fun _ e => by cases e⟩
        | waiting => simp only [callStep]; split <;> exact ⟨id, h.1, fun _ e => by cases e⟩
        | took o => exact ⟨fun _ => rfl, fun _ => rfl, fun _ _ => rfl⟩
        | cleared o =>
          have := h.2 o hpc
          cases o <;> exact ⟨fun _ => this, fun _ => this, fun _ _ => this⟩
        | reading => exact ⟨id, h.1, fun _ e => by cases e⟩
        | done a => exact ⟨id, h.1, fun _ e => by cases e⟩
      refine ⟨key.2.1, fun o hm => ?_⟩
      rcases mem_set_of hm with hm | hm
      · exact key.1 (h.2 o hm)
      · exact key.2.2 o hm.symm
    · exact h

theorem cleared_run {α : Type} (ops : List (Op α)) {s : St α} (h : Cleared s) : Cleared (run s ops) := by
  induction ops generalizing s with
  | nil => exact h
  | cons op ops ih => exact ih (cleared_step h op)

theorem cleared_spawned {α : Type} : Cleared (spawned (α := α)) := ⟨by simp [spawned], by simp [spawned]⟩

theorem weight_le {α : Type} {l : List (Pc α)} {pc : Pc α} (h : pc ∈ l) : weight pc ≤ (l.map weight).sum := by
  induction l with
  | nil => simp at h
  | cons x l ih =>
    rcases List.mem_cons.1 h with rfl | h
    · simp
    · have := ih h; simp; omega

theorem after_step {α : Type} {v : α} {n : Nat} {s : St α} (hi : Inv s) (h : After v n s) (op : Op α) : After v n (step s op) := by
  have hset : ∀ j (d : Pc α), (n ≤ j → d = .test ∨ d = .reading ∨ d = .done (.ret (some v))) →
      ∀ i pc, n ≤ i → (s.calls.set j d)[i]? = some pc → pc = .test ∨ pc = .reading ∨ pc = .done (.ret (some v)) := by
    intro j d hd i pc hn he
    rw [List.getElem?_set] at he
    split_ifs at he with e1 e2
    · injection he with he; subst he; subst e1; exact hd hn
    · exact h.calls i pc hn he
  cases op with
  | finish o => simp only [step]; split <;> exact ⟨h.value, h.result, h.len, h.calls⟩
  | call =>
    refine ⟨h.value, h.result, by simp only [step, List.length_append]; have := h.len; omega, fun i pc hn he => ?_⟩
    simp only [step, List.getElem?_append] at he
    split_ifs at he
    · exact h.calls i pc hn he
    · have := List.mem_of_getElem? he
      simp at this
      exact .inl this
  | expire i =>
    simp only [step]
    split
    · rename_i hc
      split_ifs
      · refine ⟨h.value, h.result, by simp only [List.length_set]; exact h.len, hset i _ fun hn => ?_⟩
        rcases h.calls i _ hn hc with e | e | e <;> cases e
      · exact h
    · exact h
  | step i =>
    simp only [step]
    split
    · rename_i pc hc
      have hw := weight_le (List.mem_of_getElem? hc)
      have hone := hi.one
      rw [h.value] at hone
      simp only [Option.isSome_some, Bool.toNat_true] at hone
      have key : (callStep s pc).1.value = some v ∧ (callStep s pc).1.result = false := by
        cases pc with
        | cleared o => simp only [weight] at hw; omega
        | waiting => simp only [callStep]; split <;> exact ⟨h.value, h.result⟩
        | test => simp only [callStep]; split <;> exact ⟨h.value, h.result⟩
        | fetch => simp only [callStep]; split <;> exact ⟨h.value, h.result⟩
        | took o => exact ⟨h.value, rfl⟩
        | reading => exact ⟨h.value, h.result⟩
        | done a => exact ⟨h.value, h.result⟩
      refine ⟨key.1, key.2, by simp only [List.length_set]; exact h.len, hset i _ fun hn => ?_⟩
      rcases h.calls i pc hn hc with rfl | rfl | rfl
      · simp [callStep, h.result]
      · simp [callStep, h.value]
      · exact .inr (.inr rfl)
    · exact h

/-- What fits a call that is the only one. -/
def Fits {α : Type} (v : α) (s : St α) : Pc α → Prop
  | .test => True
  | .fetch => s.result = true
  | .waiting => s.result = true
  | .took o => o = .value v
  | .cleared o => s.result = false ∧ o = .value v
  | .reading => s.value = some v
  | .done a => a = .ret (some v) ∨ a = .empty

/-- What holds while calls do not overlap and the function has returned `v` or not ended. -/
structure Alone {α : Type} (v : α) (s : St α) : Prop where
  over : s.over = none ∨ s.over = some (some (.value v))
  queue : s.queue = none ∨ s.queue = some (.value v)
  one : ∀ (i j : Nat) (p q : Pc α), s.calls[i]? = some p → s.calls[j]? = some q → (∀ a, p ≠ .done a) → (∀ a, q ≠ .done a) → i = j
  state : s.result = true ∧ s.value = none ∨ s.result = false ∧ (s.value = some v ∨ ∃ i : Nat, s.calls[i]? = some (Pc.cleared (.value v)))
  calls : ∀ (i : Nat) (pc : Pc α), s.calls[i]? = some pc → Fits v s pc
  token : s.over ≠ none → s.result = true → s.queue = some (.value v) ∨ ∃ i : Nat, s.calls[i]? = some (Pc.took (.value v))

theorem alone_spawned {α : Type} (v : α) : Alone v spawned :=
  ⟨.inl rfl, .inl rfl, by simp [spawned], .inl ⟨rfl, rfl⟩, by simp [spawned], by simp [spawned]⟩

theorem alone_set {α : Type} {v : α} {s s' : St α} (h : Alone v s) {i : Nat} {pc : Pc α} (hi : s.calls[i]? = some pc) (hn : ∀ a, pc ≠ .done a)
    (d : Pc α) (ho : s'.over = none ∨ s'.over = some (some (.value v))) (hq : s'.queue = none ∨ s'.queue = some (.value v))
    (hs : s'.result = true ∧ s'.value = none ∨ s'.result = false ∧ (s'.value = some v ∨ d = .cleared (.value v)))
    (hd : Fits v s' d) (ht : s'.over ≠ none → s'.result = true → s'.queue = some (.value v) ∨ d = .took (.value v)) : Alone v { s' with calls := s.calls.set i d } := by
  have hl := (List.getElem?_eq_some_iff.1 hi).1
  refine ⟨ho, hq, ?_, ?_, ?_, fun h1 h2 => (ht h1 h2).imp id fun e => ⟨i, by simp [hl, e]⟩⟩
  · intro j k p q hp hq' hnp hnq
    have key : ∀ (j : Nat) p, (s.calls.set i d)[j]? = some p → (∀ a, p ≠ .done a) → j = i := by
      intro j p hp hnp
      simp only [List.getElem?_set] at hp
      split_ifs at hp with e
      · exact e.symm
      · exact h.one j i p pc hp hi hnp hn
    rw [key j p hp hnp, key k q hq' hnq]
  · rcases hs with e | ⟨e1, e2 | e2⟩
    · exact .inl e
    · exact .inr ⟨e1, .inl e2⟩
    · exact .inr ⟨e1, .inr ⟨i, by simp [hl, e2]⟩⟩
  · intro j p hp
    simp only [List.getElem?_set] at hp
    split_ifs at hp with e
    · injection hp with hp
      subst hp
      cases d <;> exact hd
    · have := h.calls j p hp
      cases p with
      | done a => exact this
      | _ => exact absurd (h.one j i _ pc hp hi (by simp) hn) (Ne.symm e)

theorem alone_step {α : Type} {v : α} {s : St α} (h : Alone v s) (op : Op α) (hf : ∀ o, op = .finish o → o = some (.value v))
    (hc : op = .call → ∀ pc ∈ s.calls, ∃ a, pc = .done a) : Alone v (step s op) := by
  have htok : ∀ (i : Nat) (pc : Pc α) {d : Pc α}, s.calls[i]? = some pc → (∀ a, pc ≠ .done a) → (∀ o, pc ≠ .took o) →
      s.over ≠ none → s.result = true → s.queue = some (.value v) ∨ d = .took (.value v) := by
    intro i pc d hi hn ht h1 h2
    refine .inl ((h.token h1 h2).resolve_right fun ⟨j, hj⟩ => ?_)
    have := h.one i j _ _ hi hj hn (by simp)
    subst this
    rw [hi] at hj
    injection hj with hj
    exact ht _ hj
  cases op with
  | finish o =>
    simp only [step]
    split
    · have := hf o rfl
      subst this
      exact ⟨.inr rfl, .inr rfl, h.one, h.state, fun i pc hi => by have := h.calls i pc hi; cases pc <;> exact this, fun _ _ => .inl rfl⟩
    · exact h
  | call =>
    have hd := hc rfl
    refine ⟨h.over, h.queue, ?_, ?_, ?_, fun h1 h2 => (h.token h1 h2).imp id fun ⟨i, e⟩ => ?_⟩
    · intro i j p q hp hq hnp hnq
      simp only [step, List.getElem?_append] at hp hq
      split_ifs at hp hq
      · obtain ⟨a, e⟩ := hd p (List.mem_of_getElem? hp); exact absurd e (hnp a)
      · obtain ⟨a, e⟩ := hd p (List.mem_of_getElem? hp); exact absurd e (hnp a)
      · obtain ⟨a, e⟩ := hd q (List.mem_of_getElem? hq); exact absurd e (hnq a)
      · have h1 := (List.getElem?_eq_some_iff.1 hp).1
        have h2 := (List.getElem?_eq_some_iff.1 hq).1
        simp at h1 h2
        omega
    · rcases h.state with e | ⟨e1, e2 | ⟨i, e2⟩⟩
      · exact .inl e
      · exact .inr ⟨e1, .inl e2⟩
      · obtain ⟨a, e⟩ := hd _ (List.mem_of_getElem? e2); cases e
    · intro i pc hp
      simp only [step, List.getElem?_append] at hp
      split_ifs at hp
      · exact h.calls i pc hp
      · have := List.mem_of_getElem? hp
        simp at this
        subst this
        trivial
    · obtain ⟨a, e'⟩ := hd _ (List.mem_of_getElem? e); cases e'
  | expire i =>
    simp only [step]
    split
    · rename_i hi
      split_ifs
      · exact alone_set h hi (by simp) (s' := s) _ h.over h.queue
          (by have := h.calls i _ hi; rcases h.state with e | ⟨e, _⟩
              · exact .inl e
              · simp only [Fits] at this; rw [e] at this; cases this) (Or.inr rfl) (htok i _ hi (by simp) (by simp))
      · exact h
    · exact h
  | step i =>
    simp only [step]
    split
    · rename_i pc hi
      have hpc := h.calls i pc hi
      cases pc with
      | test =>
        simp only [callStep]
        split
        · rename_i hr
          refine alone_set h hi (by simp) (s' := s) _ h.over h.queue ?_ hr (htok i _ hi (by simp) (by simp))
          rcases h.state with e | ⟨e, _⟩
          · exact .inl e
          · rw [e] at hr; cases hr
        · rename_i hr
          rcases h.state with ⟨e, _⟩ | ⟨e, e2 | ⟨j, e2⟩⟩
          · exact absurd e hr
          · exact alone_set h hi (by simp) (s' := s) _ h.over h.queue (.inr ⟨e, .inl e2⟩) e2 (htok i _ hi (by simp) (by simp))
          · have := h.one i j _ _ hi e2 (by simp) (by simp)
            subst this
            rw [hi] at e2
            cases e2
      | fetch =>
        simp only [Fits] at hpc
        have e : callStep s .fetch = (s, .waiting) := by simp [callStep, hpc]
        rw [e]
        refine alone_set h hi (by simp) (s' := s) (.waiting) h.over h.queue ?_ hpc (htok i _ hi (by simp) (by simp))
        rcases h.state with e | ⟨e, _⟩
        · exact .inl e
        · rw [e] at hpc; cases hpc
      | waiting =>
        simp only [Fits] at hpc
        have hst : s.result = true ∧ s.value = none := by
          rcases h.state with e | ⟨e, _⟩
          · exact e
          · rw [e] at hpc; cases hpc
        simp only [callStep]
        split
        · rename_i o ho
          refine alone_set h hi (by simp) (s' := { s with queue := none }) _ h.over (.inl rfl) (.inl hst) ?_ ?_
          all_goals rcases h.queue with e | e <;> rw [ho] at e
          · cases e
          · injection e
          · cases e
          · injection e with e; exact fun _ _ => .inr (by rw [e])
        · exact alone_set h hi (by simp) (s' := s) _ h.over h.queue (.inl hst) hpc (htok i _ hi (by simp) (by simp))
      | took o =>
        simp only [Fits] at hpc
        subst hpc
        exact alone_set h hi (by simp) (s' := { s with result := false }) _ h.over h.queue (.inr ⟨rfl, .inr rfl⟩) ⟨rfl, rfl⟩ (fun _ e => by cases e)
      | cleared o =>
        simp only [Fits] at hpc
        obtain ⟨hr, rfl⟩ := hpc
        exact alone_set h hi (by simp) (s' := { s with value := some v }) .reading h.over h.queue (.inr ⟨hr, .inl rfl⟩) rfl (fun _ e => by simp only [hr] at e; cases e)
      | reading =>
        simp only [Fits] at hpc
        have hst : s.result = false := by
          rcases h.state with ⟨_, e⟩ | ⟨e, _⟩
          · rw [e] at hpc; cases hpc
          · exact e
        have e : callStep s .reading = (s, .done (.ret (some v))) := by simp [callStep, hpc]
        rw [e]
        exact alone_set h hi (by simp) (s' := s) (.done (.ret (some v))) h.over h.queue (.inr ⟨hst, .inl hpc⟩) (Or.inl rfl) (htok i _ hi (by simp) (by simp))
      | done a =>
        simp only [callStep]
        have : s.calls.set i (.done a) = s.calls := by
          obtain ⟨hl, he⟩ := List.getElem?_eq_some_iff.1 hi
          rw [← he]; exact List.set_getElem_self hl
        rw [this]
        exact h
    · exact h

theorem alone_run {α : Type} {v : α} (ops : List (Op α)) {s : St α} (h : Alone v s) (hf : ∀ o, .finish o ∈ ops → o = some (.value v))
    (hs : Serial s ops) : Alone v (run s ops) := by
  induction ops generalizing s with
  | nil => exact h
  | cons op ops ih => exact ih (alone_step h op (fun o e => hf o (by simp [e])) hs.1) (fun o hm => hf o (by simp [hm])) hs.2

/-- Somebody has the outcome or has reported it. -/
structure Someone {α : Type} (s : St α) : Prop where
  gone : s.result = false → s.value ≠ none ∨ (∃ o, Pc.cleared o ∈ s.calls) ∨ ∃ e, Pc.done (.raised e) ∈ s.calls
  stored : ∀ v, s.value = some v → Pc.reading ∈ s.calls ∨ Pc.done (.ret (some v)) ∈ s.calls
  seen : ∀ pc ∈ s.calls, pc = .reading ∨ (∃ v, pc = .done (.ret v)) ∨ pc = .done .attribute ∨ (∃ e, pc = .done (.raised e)) → s.result = false
  hold : ∀ o, Pc.cleared o ∈ s.calls → s.result = false

theorem mem_set_keep {α : Type} {l : List (Pc α)} {i : Nat} {pc d x : Pc α} (hi : l[i]? = some pc) (hx : x ∈ l) (hne : x ≠ pc) : x ∈ l.set i d := by
  obtain ⟨j, hj⟩ := List.getElem?_of_mem hx
  have : i ≠ j := by
    rintro rfl
    rw [hi] at hj
    exact hne (by injection hj with hj; exact hj.symm)
  exact List.mem_of_getElem? (i := j) (by rw [List.getElem?_set_ne this]; exact hj)

theorem mem_set_new {α : Type} {l : List (Pc α)} {i : Nat} {pc d : Pc α} (hi : l[i]? = some pc) : d ∈ l.set i d :=
  List.mem_set (List.getElem?_eq_some_iff.1 hi).1 d

theorem someone_step {α : Type} {s : St α} (h : Someone s) (op : Op α) : Someone (step s op) := by
  cases op with
  | finish o => simp only [step]; split <;> exact ⟨h.gone, h.stored, h.seen, h.hold⟩
  | call =>
    refine ⟨fun hr => ?_, fun v hv => ?_, fun pc hpc => ?_, fun o ho => h.hold o (by simpa [step] using ho)⟩
    · rcases h.gone hr with a | ⟨o, a⟩ | ⟨e, a⟩
      · exact .inl a
      · exact .inr (.inl ⟨o, by simp [step, a]⟩)
      · exact .inr (.inr ⟨e, by simp [step, a]⟩)
    · rcases h.stored v hv with a | a
      · exact .inl (by simp [step, a])
      · exact .inr (by simp [step, a])
    · simp only [step, List.mem_append, List.mem_singleton] at hpc
      rcases hpc with hpc | rfl
      · exact h.seen pc hpc
      · simp
  | expire i =>
    simp only [step]
    split
    · rename_i hi
      split_ifs
      · refine ⟨fun hr => ?_, fun v hv => ?_, fun pc hpc => ?_, fun o ho => ?_⟩
        · rcases h.gone hr with a | ⟨o, a⟩ | ⟨e, a⟩
          · exact .inl a
          · exact .inr (.inl ⟨o, mem_set_keep hi a (by simp)⟩)
          · exact .inr (.inr ⟨e, mem_set_keep hi a (by simp)⟩)
        · rcases h.stored v hv with a | a
          · exact .inl (mem_set_keep hi a (by simp))
          · exact .inr (mem_set_keep hi a (by simp))
        · rcases mem_set_of hpc with hpc | rfl
          · exact h.seen pc hpc
          · simp
        · rcases mem_set_of ho with ho | ho
          · exact h.hold o ho
          · cases ho
      · exact h
    · exact h
  | step i =>
    simp only [step]
    split
    · rename_i pc hi
      have hpc := List.mem_of_getElem? hi
      -- steps that change nothing but the call itself
      have plain : ∀ d (s' : St α), s'.result = s.result → s'.value = s.value → (∀ o, pc ≠ .cleared o) → pc ≠ .reading → (∀ a, pc ≠ .done a) →
          (∀ o, d ≠ .cleared o) → (d = .reading ∨ (∃ v, d = .done (.ret v)) ∨ d = .done .attribute ∨ (∃ e, d = .done (.raised e)) → s.result = false) →
          Someone { s' with calls := s.calls.set i d } := by
        intro d s' hr hv h1 h2 h3 h4 h5
        refine ⟨fun hr' => ?_, fun v hv' => ?_, fun x hx hx' => ?_, fun o ho => ?_⟩
        · simp only [hr] at hr'
          rcases h.gone hr' with a | ⟨o, a⟩ | ⟨e, a⟩
          · exact .inl (by simpa [hv] using a)
          · exact .inr (.inl ⟨o, mem_set_keep hi a (Ne.symm (h1 o))⟩)
          · exact .inr (.inr ⟨e, mem_set_keep hi a (Ne.symm (h3 _))⟩)
        · simp only [hv] at hv'
          rcases h.stored v hv' with a | a
          · exact .inl (mem_set_keep hi a (Ne.symm h2))
          · exact .inr (mem_set_keep hi a (Ne.symm (h3 _)))
        · simp only [hr]
          rcases mem_set_of hx with hx | rfl
          · exact h.seen x hx hx'
          · exact h5 hx'
        · simp only [hr]
          rcases mem_set_of ho with ho | ho
          · exact h.hold o ho
          · exact absurd ho.symm (h4 o)
      cases pc with
      | test =>
        simp only [callStep]
        split
        · exact plain _ s rfl rfl (by simp) (by simp) (by simp) (by simp) (by simp)
        · rename_i hr
          exact plain _ s rfl rfl (by simp) (by simp) (by simp) (by simp) (fun _ => by simpa using hr)
      | fetch =>
        simp only [callStep]
        split
        · exact plain _ s rfl rfl (by simp) (by simp) (by simp) (by simp) (by simp)
        · rename_i hr
          exact plain _ s rfl rfl (by simp) (by simp) (by simp) (by simp) (fun _ => by simpa using hr)
      | waiting =>
        simp only [callStep]
        split
        · exact plain _ { s with queue := none } rfl rfl (by simp) (by simp) (by simp) (by simp) (by simp)
        · exact plain _ s rfl rfl (by simp) (by simp) (by simp) (by simp) (by simp)
      | took o =>
        refine ⟨fun _ => .inr (.inl ⟨o, mem_set_new hi⟩), fun v hv => ?_, fun _ _ _ => rfl, fun _ _ => rfl⟩
        rcases h.stored v hv with a | a
        · exact .inl (mem_set_keep hi a (by simp))
        · exact .inr (mem_set_keep hi a (by simp))
      | cleared o =>
        have hr := h.hold o hpc
        cases o with
        | value v => exact ⟨fun _ => .inl (by simp [callStep]), fun _ _ => .inl (mem_set_new hi), fun _ _ _ => hr, fun _ _ => hr⟩
        | exc e =>
          refine ⟨fun _ => .inr (.inr ⟨e, mem_set_new hi⟩), fun v hv => ?_, fun _ _ _ => hr, fun _ _ => hr⟩
          rcases h.stored v hv with a | a
          · exact .inl (mem_set_keep hi a (by simp))
          · exact .inr (mem_set_keep hi a (by simp))
      | reading =>
        have hr := h.seen _ hpc (.inl rfl)
        refine ⟨fun _ => ?_, fun v hv => .inr ?_, fun _ _ _ => hr, fun _ _ => hr⟩
        · rcases h.gone hr with a | ⟨o, a⟩ | ⟨e, a⟩
          · exact .inl a
          · exact .inr (.inl ⟨o, mem_set_keep hi a (by simp)⟩)
          · exact .inr (.inr ⟨e, mem_set_keep hi a (by simp)⟩)
        · simp only [callStep] at hv ⊢
          rw [hv]
          exact mem_set_new hi
      | done a =>
        have : s.calls.set i (.done a) = s.calls := by
          obtain ⟨hl, he⟩ := List.getElem?_eq_some_iff.1 hi
          rw [← he]; exact List.set_getElem_self hl
        simp only [callStep, this]
        exact h
    · exact h

theorem someone_run {α : Type} (ops : List (Op α)) {s : St α} (h : Someone s) : Someone (run s ops) := by
  induction ops generalizing s with
  | nil => exact h
  | cons op ops ih => exact ih (someone_step h op)

theorem someone_spawned {α : Type} : Someone (spawned (α := α)) := ⟨by simp [spawned], by simp [spawned], by simp [spawned], by simp [spawned]⟩

/-- Steps still to go. -/
def left {α : Type} : Pc α → Nat
  | .test => 6
  | .fetch => 5
  | .waiting => 4
  | .took _ => 3
  | .cleared _ => 2
  | .reading => 1
  | .done _ => 0

/-! ## C106 -/

/-- **C106, no lies.** Whatever threads call `get()`: a value is returned only if the function returned it, an exception raised only if the
function raised it, and that only once. -/
theorem C106_sound {α : Type} (ops : List (Op α)) :
    (∀ (i : Nat) v, (run spawned ops).calls[i]? = some (.done (.ret (some v))) → (run spawned ops).over = some (some (.value v))) ∧
    (∀ (i : Nat) e, (run spawned ops).calls[i]? = some (.done (.raised e)) → (run spawned ops).over = some (some (.exc e))) ∧
    (∀ (i j : Nat) e f, (run spawned ops).calls[i]? = some (.done (.raised e)) → (run spawned ops).calls[j]? = some (.done (.raised f)) → i = j) := by
  have h := inv_run ops inv_spawned (α := α)
  refine ⟨fun i v hi => h.sound _ (List.mem_of_getElem? hi), fun i e hi => h.sound _ (List.mem_of_getElem? hi), fun i j e f hi hj => ?_⟩
  have hone : ((run spawned ops).calls.map weight).sum ≤ 1 := by have := h.one; omega
  clear h
  generalize (run spawned ops).calls = l at *
  induction l generalizing i j with
  | nil => simp at hi
  | cons x l ih =>
    simp only [List.map_cons, List.sum_cons] at hone
    cases i with
    | zero =>
      cases j with
      | zero => rfl
      | succ j =>
        simp at hi hj
        have := weight_le (List.mem_of_getElem? hj)
        subst hi
        simp only [weight] at this hone
        omega
    | succ i =>
      cases j with
      | zero =>
        simp at hi hj
        have := weight_le (List.mem_of_getElem? hi)
        subst hj
        simp only [weight] at this hone
        omega
      | succ j =>
        simp at hi hj
        exact congrArg _ (ih i j hi hj (by omega))

/-- **C106, nothing is lost.** Whatever threads call `get()`: when all calls have ended and one of them without timeout, one has reported how the function
ended: it has returned the function's value, or raised its exception. -/
theorem C106_someone {α : Type} (ops : List (Op α)) (hd : ∀ pc ∈ (run spawned ops).calls, ∃ a, pc = .done a)
    (hn : ∃ a, Pc.done a ∈ (run spawned ops).calls ∧ a ≠ .empty) :
    ∃ o a, (run spawned ops).over = some (some o) ∧ Pc.done a ∈ (run spawned ops).calls ∧ Reports o a := by
  have h := someone_run ops someone_spawned (α := α)
  have hi := inv_run ops inv_spawned (α := α)
  obtain ⟨a, ha, hne⟩ := hn
  have hr : (run spawned ops).result = false := by
    refine h.seen _ ha ?_
    cases a with
    | ret v => exact .inr (.inl ⟨v, rfl⟩)
    | raised e => exact .inr (.inr (.inr ⟨e, rfl⟩))
    | «attribute» => exact .inr (.inr (.inl rfl))
    | empty => exact absurd rfl hne
  rcases h.gone hr with a | ⟨o, a⟩ | ⟨e, a⟩
  · obtain ⟨v, hv⟩ := Option.ne_none_iff_exists'.1 a
    rcases h.stored v hv with b | b
    · obtain ⟨_, e⟩ := hd _ b; cases e
    · exact ⟨.value v, .ret (some v), hi.value v hv, b, rfl⟩
  · obtain ⟨_, e⟩ := hd _ a; cases e
  · exact ⟨.exc e, .raised e, hi.sound _ a, a, rfl⟩

/-- **C106, afterwards.** Once a call has stored the value, every call made later, by whatever threads, returns it. -/
theorem C106_later {α : Type} (ops more : List (Op α)) (v : α) (hv : (run spawned ops).value = some v) (i : Nat)
    (hi : (run spawned ops).calls.length ≤ i) (a : Answer α) (ha : (run spawned (ops ++ more)).calls[i]? = some (.done a)) : a = .ret (some v) := by
  rw [run_append] at ha
  have h0 : After v (run spawned ops).calls.length (run spawned ops) :=
    ⟨hv, (cleared_run ops cleared_spawned).1 (by rw [hv]; simp), Nat.le_refl _, fun i pc hn he => by
      have := (List.getElem?_eq_some_iff.1 he).1; omega⟩
  have hinv := inv_run ops inv_spawned (α := α)
  generalize (run spawned ops).calls.length = n at *
  generalize run spawned ops = s at *
  have key : After v n (run s more) := by
    clear ha hv hi
    induction more generalizing s with
    | nil => exact h0
    | cons op more ih => exact ih _ (inv_step hinv op) (after_step hinv h0 op)
  rcases key.calls i _ hi ha with e | e | e
  · cases e
  · cases e
  · injection e

/-- **C106, one after the other.** If no two calls overlap and the function returns a value, every call that ends returns it, or has timed out.
(Partial: see the refutations for calls that overlap, and `C36_refuted` for exceptions.) -/
theorem C106_serial_partial {α : Type} (ops : List (Op α)) (v : α) (hf : ∀ o, .finish o ∈ ops → o = some (.value v)) (hs : Serial spawned ops)
    (i : Nat) (a : Answer α) (ha : (run spawned ops).calls[i]? = some (.done a)) : a = .ret (some v) ∨ a = .empty :=
  (alone_run ops (alone_spawned v) hf hs).calls i _ ha

/-- **C106, one after the other, ends.** And when the function has returned, the thread of a call needs six steps to return. -/
theorem C106_serial_ends {α : Type} (ops : List (Op α)) (v : α) (hf : ∀ o, .finish o ∈ ops → o = some (.value v)) (hs : Serial spawned ops)
    (ho : (run spawned ops).over ≠ none) (i : Nat) (hi : i < (run spawned ops).calls.length) :
    ∃ a, (run spawned (ops ++ List.replicate 6 (.step i))).calls[i]? = some (.done a) := by
  rw [run_append]
  have h := alone_run ops (alone_spawned v) hf hs
  generalize run spawned ops = s at *
  have key : ∀ (n : Nat) (s : St α) (pc : Pc α), Alone v s → s.over ≠ none → s.calls[i]? = some pc → left pc ≤ n →
      ∃ a, (run s (List.replicate n (.step i))).calls[i]? = some (.done a) := by
    intro n
    induction n with
    | zero =>
      intro s pc h ho hi hl
      cases pc with
      | done a => exact ⟨a, hi⟩
      | _ => simp [left] at hl
    | succ n ih =>
      intro s pc h ho hi hl
      have hl' := (List.getElem?_eq_some_iff.1 hi).1
      have h' := alone_step h (.step i) (by simp) (by simp)
      have hst : step s (.step i) = { (callStep s pc).1 with calls := s.calls.set i (callStep s pc).2 } := by simp [step, hi]
      have ho' : (step s (.step i)).over ≠ none := by rw [hst]; simpa [callStep_over] using ho
      have hi' : (step s (.step i)).calls[i]? = some (callStep s pc).2 := by rw [hst]; simp [hl']
      refine ih _ _ h' ho' hi' ?_
      have hf := h.calls i pc hi
      cases pc with
      | test => simp only [callStep]; split <;> simp_all [left] <;> omega
      | fetch => simp only [Fits] at hf; simp only [callStep, hf, if_true]; simp_all [left]
      | waiting =>
        simp only [Fits] at hf
        have : s.queue = some (.value v) := (h.token ho hf).resolve_right fun ⟨j, hj⟩ => by
          have := h.one i j _ _ hi hj (by simp) (by simp)
          subst this
          rw [hi] at hj
          cases hj
        simp only [callStep, this]
        simp_all [left]
      | took o => simp_all [left, callStep]
      | cleared o => cases o <;> simp_all [left, callStep]
      | reading => simp_all [left, callStep]
      | done a => simp_all [left, callStep]
  obtain ⟨pc, hpc⟩ : ∃ pc, s.calls[i]? = some pc := ⟨_, List.getElem?_eq_getElem hi⟩
  exact key 6 s pc h ho hpc (by cases pc <;> simp [left])

/-- **C106 is false, first way**: of two overlapping calls one returns None, though the function returned 5. -/
theorem C106_none_refuted : ∃ ops : List (Op Nat), (run spawned ops).over = some (some (.value 5)) ∧
    (run spawned ops).calls = [.done (.ret (some 5)), .done (.ret none)] :=
  ⟨[.finish (some (.value 5)), .call, .call, .step 0, .step 0, .step 0, .step 0, .step 1, .step 1, .step 0, .step 0], by decide, by decide⟩

/-- **C106 is false, second way**: a call raises AttributeError. -/
theorem C106_attribute_refuted : ∃ ops : List (Op Nat), (run spawned ops).over = some (some (.value 5)) ∧
    (run spawned ops).calls = [.done (.ret (some 5)), .done .attribute] :=
  ⟨[.finish (some (.value 5)), .call, .call, .step 1, .step 0, .step 0, .step 0, .step 0, .step 1, .step 0, .step 0], by decide, by decide⟩

/-- **C106 is false, third way**: when two threads wait for the same task, one of them waits for ever (unless it has given a timeout). -/
theorem C106_stuck_refuted : ∃ ops : List (Op Nat), (run spawned ops).over = some (some (.value 5)) ∧
    (run spawned ops).calls[0]? = some (.done (.ret (some 5))) ∧
    ∀ more, .expire 1 ∉ more → (run spawned (ops ++ more)).calls[1]? = some .waiting := by
  refine ⟨[.call, .call, .step 0, .step 1, .step 0, .step 1, .finish (some (.value 5)), .step 0, .step 0, .step 0, .step 0], by decide, by decide, ?_⟩
  intro more hm
  rw [run_append]
  have key : ∀ (more : List (Op Nat)) (s : St Nat), .expire 1 ∉ more → s.over ≠ none → s.queue = none → s.calls[1]? = some .waiting →
      (run s more).calls[1]? = some .waiting := by
    intro more
    induction more with
    | nil => exact fun _ _ _ _ h => h
    | cons op more ih =>
      intro s hm h1 h2 h3
      simp only [List.mem_cons, not_or] at hm
      obtain ⟨a, b, c⟩ := waits h1 h2 h3 op (Ne.symm hm.1)
      exact ih _ hm.2 a b c
  exact key more _ hm (by decide) (by decide) (by decide)

/-- **C106 is false, fourth way**: if the function ends with an exception that is no `Exception`, such as SystemExit, whoever waits waits for ever. -/
theorem C106_exit_refuted {α : Type} (more : List (Op α)) (hm : .expire 0 ∉ more) :
    (run spawned ([.call, .step 0, .step 0, .finish none] ++ more)).calls[0]? = some .waiting := by
  rw [run_append]
  have key : ∀ (more : List (Op α)) (s : St α), .expire 0 ∉ more → s.over ≠ none → s.queue = none → s.calls[0]? = some .waiting →
      (run s more).calls[0]? = some .waiting := by
    intro more
    induction more with
    | nil => exact fun _ _ _ _ h => h
    | cons op more ih =>
      intro s hm h1 h2 h3
      simp only [List.mem_cons, not_or] at hm
      obtain ⟨a, b, c⟩ := waits h1 h2 h3 op (Ne.symm hm.1)
      exact ih _ hm.2 a b c
  exact key more _ hm (by simp [run, step, spawned, callStep]) (by simp [run, step, spawned, callStep]) (by simp [run, step, spawned, callStep])

/-- So the claim as such is false. -/
theorem C106_refuted : ¬ Claim Nat := by
  intro h
  obtain ⟨ops, h1, h2⟩ := C106_none_refuted
  have := (h ops _ h1).1 1 (.ret none) (by rw [h2]; rfl) (by simp)
  cases this

/-- Non-vacuity: three calls, of which the first times out. -/
example : Serial (spawned (α := Nat)) [.call, .step 0, .step 0, .expire 0, .call, .step 1, .step 1, .finish (some (.value 5)), .step 1, .step 1, .step 1,
    .step 1, .call, .step 2, .step 2] ∧
    (run (spawned (α := Nat)) [.call, .step 0, .step 0, .expire 0, .call, .step 1, .step 1, .finish (some (.value 5)), .step 1, .step 1, .step 1,
    .step 1, .call, .step 2, .step 2]).calls = [.done .empty, .done (.ret (some 5)), .done (.ret (some 5))] := by
  refine ⟨?_, by decide⟩
  simp [Serial, step, spawned, callStep]

end Twink.Gets
