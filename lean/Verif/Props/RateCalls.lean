import Verif.Props.Rate

/-! # Property C35: what a task thread can call, for all schedules -/

namespace Twink.RateCalls
open Twink Spec

/-- A variable holds a submitted task (of `n`) that was submitted no earlier than `lo`. -/
def From (n lo : Nat) (x : Option Nat) : Prop := ∃ v, x = some v ∧ lo ≤ v ∧ v < n

def Cells (n lo : Nat) (f : LFrame) : Prop := From n lo f.func ∧ From n lo f.args ∧ From n lo f.kwargs

/-- What a thread has read and called so far. -/
def ReadFrom (n : Nat) (p : RProxy) : Prop :=
  match p.pc with
  | .start => p.called = none
  | .gotF x => p.called = none ∧ From n p.owner x
  | .gotA x y => p.called = none ∧ From n p.owner x ∧ From n p.owner y
  | _ => ∃ x y z, p.called = some (x, y, z) ∧ From n p.owner x ∧ From n p.owner y ∧ From n p.owner z

structure CInv (s : Rate) : Prop where
  base : RInv s
  cells : ∀ p ∈ s.proxies, ∃ f, s.frames[p.frame]? = some f ∧ Cells s.submitted p.owner f
  read : ∀ p ∈ s.proxies, ReadFrom s.submitted p
  bound : ∀ f ∈ s.frames, boundOk f

theorem From.mono {n m lo : Nat} {x : Option Nat} (h : From n lo x) (hm : n ≤ m) : From m lo x := by
  obtain ⟨v, h1, h2, h3⟩ := h
  exact ⟨v, h1, h2, by omega⟩

theorem ReadFrom.mono {n m : Nat} {p : RProxy} (h : ReadFrom n p) (hm : n ≤ m) : ReadFrom m p := by
  unfold ReadFrom at *
  cases hp : p.pc with
  | start => rw [hp] at h; exact h
  | gotF x => rw [hp] at h; exact ⟨h.1, h.2.mono hm⟩
  | gotA x y => rw [hp] at h; exact ⟨h.1, h.2.1.mono hm, h.2.2.mono hm⟩
  | _ =>
    rw [hp] at h
    obtain ⟨x, y, z, h1, h2, h3, h4⟩ := h
    exact ⟨x, y, z, h1, h2.mono hm, h3.mono hm, h4.mono hm⟩

theorem cinv_fresh (size : Nat) : CInv (freshRate size) :=
  ⟨rinv_fresh size, by simp [freshRate], by simp [freshRate], by simp [freshRate]⟩

/-- The task in hand was submitted, and no earlier than any task that has a thread. -/
theorem hand_last {s : Rate} (h : RInv s) {t : Nat} (ht : inHand s.frames.getLast? = [t]) :
    t < s.submitted ∧ ∀ p ∈ s.proxies, p.owner ≤ t := by
  obtain ⟨h1, h2, _⟩ := h
  rw [ht] at h2
  have e : s.proxies.map (·.owner) ++ ([t] ++ s.cold) = List.range s.submitted := by
    rw [← h1, ← h2, List.append_assoc]
  have hmem : t ∈ List.range s.submitted := by rw [← e]; simp
  have hp : (List.range s.submitted).Pairwise (· < ·) := List.pairwise_lt_range
  rw [← e, List.pairwise_append] at hp
  refine ⟨by simpa using hmem, fun p hpm => ?_⟩
  exact Nat.le_of_lt (hp.2.2 p.owner (List.mem_map_of_mem hpm) t (by simp))

/-- The thread in `loop` moves without starting a thread. -/
theorem cinv_frame {s s' : Rate} (h : CInv s) (hr : RInv s') {i : List LFrame} {f g : LFrame} (hf : s.frames = i ++ [f])
    (hg : s'.frames = i ++ [g]) (hp : s'.proxies = s.proxies) (hn : s'.submitted = s.submitted) (hb : boundOk g)
    (hc : ∀ p ∈ s.proxies, Cells s.submitted p.owner f → Cells s.submitted p.owner g) : CInv s' := by
  refine ⟨hr, ?_, ?_, ?_⟩
  · intro p hpm
    rw [hp] at hpm
    obtain ⟨f0, e0, c0⟩ := h.cells p hpm
    rw [hn, hg]
    rw [hf] at e0
    by_cases hl : p.frame < i.length
    · rw [List.getElem?_append_left hl] at e0 ⊢
      exact ⟨f0, e0, c0⟩
    · rw [List.getElem?_append_right (by omega)] at e0 ⊢
      by_cases h0 : p.frame - i.length = 0
      · rw [h0] at e0 ⊢
        simp only [List.getElem?_cons_zero, Option.some.injEq] at e0
        subst e0
        exact ⟨g, rfl, hc p hpm c0⟩
      · rw [List.getElem?_eq_none (by simp; omega)] at e0
        cases e0
  · intro p hpm
    rw [hp] at hpm
    rw [hn]
    exact h.read p hpm
  · intro k hk
    rw [hg] at hk
    rcases List.mem_append.1 hk with hk | hk
    · exact h.bound k (by rw [hf]; exact List.mem_append_left _ hk)
    · rw [List.mem_singleton.1 hk]; exact hb

theorem cinv_loop {s : Rate} (h : CInv s) {f : LFrame} (hf : s.frames[s.frames.length - 1]? = some f) (pick : Nat)
    (hr : RInv (loopStep s (s.frames.length - 1) f pick)) : CInv (loopStep s (s.frames.length - 1) f pick) := by
  obtain ⟨i, hi⟩ := rlast hf
  have hset : ∀ g, s.frames.set (s.frames.length - 1) g = i ++ [g] := by
    intro g; rw [hi]; exact rset
  have hlast : s.frames.getLast? = some f := by rw [hi]; simp
  have hb : boundOk f := h.bound f (by rw [hi]; simp)
  have hand : ∀ t, inHand (some f) = [t] → t < s.submitted ∧ ∀ p ∈ s.proxies, p.owner ≤ t := fun t ht =>
    hand_last h.base (by rw [hlast]; exact ht)
  unfold loopStep at hr ⊢
  cases hpc : f.pc with
  | outer =>
    simp only [hpc] at hr ⊢
    split
    · rename_i hc
      rw [if_pos hc] at hr
      exact cinv_frame h hr hi (hset _) rfl rfl trivial (fun _ _ c => c)
    · rename_i hc
      rw [if_neg hc] at hr
      exact cinv_frame h hr hi (hset _) rfl rfl trivial (fun _ _ c => c)
  | inner =>
    simp only [hpc] at hr ⊢
    split
    · rename_i hc
      rw [if_pos hc] at hr
      exact cinv_frame h hr hi (hset _) rfl rfl trivial (fun _ _ c => c)
    · rename_i hc
      rw [if_neg hc] at hr
      exact cinv_frame h hr hi (hset _) rfl rfl trivial (fun _ _ c => c)
  | pop =>
    simp only [hpc] at hr ⊢
    cases hc : s.cold with
    | nil =>
      simp only [hc] at hr ⊢
      exact cinv_frame h hr hi (hset _) rfl rfl trivial (fun _ _ c => c)
    | cons t ts =>
      simp only [hc] at hr ⊢
      exact cinv_frame h hr hi (hset _) rfl rfl trivial (fun _ _ c => c)
  | bindF t =>
    simp only [hpc] at hr ⊢
    obtain ⟨a, b⟩ := hand t (by simp [inHand, hpc])
    exact cinv_frame h hr hi (hset _) rfl rfl rfl (fun p hp c => ⟨⟨t, rfl, b p hp, a⟩, c.2.1, c.2.2⟩)
  | bindA t =>
    simp only [hpc] at hr ⊢
    obtain ⟨a, b⟩ := hand t (by simp [inHand, hpc])
    have hb' : f.func = some t := by simpa [boundOk, hpc] using hb
    exact cinv_frame h hr hi (hset _) rfl rfl ⟨hb', rfl⟩ (fun p hp c => ⟨c.1, ⟨t, rfl, b p hp, a⟩, c.2.2⟩)
  | bindK t =>
    simp only [hpc] at hr ⊢
    obtain ⟨a, b⟩ := hand t (by simp [inHand, hpc])
    have hb' : f.func = some t ∧ f.args = some t := by simpa [boundOk, hpc] using hb
    exact cinv_frame h hr hi (hset _) rfl rfl ⟨hb'.1, hb'.2, rfl⟩ (fun p hp c => ⟨c.1, c.2.1, ⟨t, rfl, b p hp, a⟩⟩)
  | append t =>
    simp only [hpc] at hr ⊢
    have hb' : cellsOk f t := by simpa [boundOk, hpc] using hb
    exact cinv_frame h hr hi (hset _) rfl rfl hb' (fun _ _ c => c)
  | spawn t =>
    simp only [hpc] at hr ⊢
    obtain ⟨a, b⟩ := hand t (by simp [inHand, hpc])
    have hb' : cellsOk f t := by simpa [boundOk, hpc] using hb
    refine ⟨hr, ?_, ?_, ?_⟩
    · intro p hp
      simp only [hset]
      rcases List.mem_append.1 hp with hp | hp
      · obtain ⟨f0, e0, c0⟩ := h.cells p hp
        rw [hi] at e0
        by_cases hl : p.frame < i.length
        · rw [List.getElem?_append_left hl] at e0 ⊢
          exact ⟨f0, e0, c0⟩
        · rw [List.getElem?_append_right (by omega)] at e0 ⊢
          by_cases h0 : p.frame - i.length = 0
          · rw [h0] at e0 ⊢
            simp only [List.getElem?_cons_zero, Option.some.injEq] at e0
            subst e0
            exact ⟨_, rfl, c0⟩
          · rw [List.getElem?_eq_none (by simp; omega)] at e0
            cases e0
      · rw [List.mem_singleton.1 hp]
        refine ⟨{ f with pc := .check, children := f.children ++ [t] }, ?_, ?_⟩
        · have : s.frames.length - 1 = i.length := by rw [hi]; simp
          simp [this]
        · exact ⟨⟨t, hb'.1, Nat.le_refl _, a⟩, ⟨t, hb'.2.1, Nat.le_refl _, a⟩, ⟨t, hb'.2.2, Nat.le_refl _, a⟩⟩
    · intro p hp
      rcases List.mem_append.1 hp with hp | hp
      · exact h.read p hp
      · rw [List.mem_singleton.1 hp]; exact rfl
    · intro k hk
      simp only [hset] at hk
      rcases List.mem_append.1 hk with hk | hk
      · exact h.bound k (by rw [hi]; exact List.mem_append_left _ hk)
      · rw [List.mem_singleton.1 hk]; exact trivial
  | check =>
    simp only [hpc] at hr ⊢
    split
    · rename_i hc
      rw [if_pos hc] at hr
      exact cinv_frame h hr hi (hset _) rfl rfl trivial (fun _ _ c => c)
    · rename_i hc
      rw [if_neg hc] at hr
      exact cinv_frame h hr hi (hset _) rfl rfl trivial (fun _ _ c => c)
  | join =>
    simp only [hpc] at hr ⊢
    exact cinv_frame h hr hi (hset _) rfl rfl trivial (fun _ _ c => c)
  | ended => exact h

/-- A task thread moves without leaving its call of `loop`. -/
theorem cinv_thread {s : Rate} (h : CInv s) {j : Nat} {p q : RProxy} (hj : s.proxies[j]? = some p) (hq : q.frame = p.frame)
    (ho : q.owner = p.owner) (hr : RInv { s with proxies := s.proxies.set j q }) (hq2 : ReadFrom s.submitted q) :
    CInv { s with proxies := s.proxies.set j q } := by
  have hpm : p ∈ s.proxies := List.mem_of_getElem? hj
  refine ⟨hr, ?_, ?_, h.bound⟩
  · intro r hrm
    rcases List.mem_or_eq_of_mem_set hrm with hm | rfl
    · exact h.cells r hm
    · rw [hq, ho]; exact h.cells p hpm
  · intro r hrm
    rcases List.mem_or_eq_of_mem_set hrm with hm | rfl
    · exact h.read r hm
    · exact hq2

theorem cinv_proxy {s : Rate} (h : CInv s) {j : Nat} {p : RProxy} (hj : s.proxies[j]? = some p) (raises : Bool)
    (hr : RInv (proxyStep s j p raises)) : CInv (proxyStep s j p raises) := by
  have hpm : p ∈ s.proxies := List.mem_of_getElem? hj
  obtain ⟨f, ef, cf⟩ := h.cells p hpm
  have hread := h.read p hpm
  unfold proxyStep at hr ⊢
  simp only [ef] at hr ⊢
  unfold ReadFrom at hread
  cases hpc : p.pc with
  | start =>
    simp only [hpc] at hr hread ⊢
    exact cinv_thread h hj rfl rfl hr ⟨hread, cf.1⟩
  | gotF x =>
    simp only [hpc] at hr hread ⊢
    exact cinv_thread h hj rfl rfl hr ⟨hread.1, hread.2, cf.2.1⟩
  | gotA x y =>
    simp only [hpc] at hr hread ⊢
    exact cinv_thread h hj rfl rfl hr ⟨x, y, f.kwargs, rfl, hread.2.1, hread.2.2, cf.2.2⟩
  | running =>
    simp only [hpc] at hr hread ⊢
    refine cinv_thread h hj rfl rfl hr ?_
    cases raises <;> exact hread
  | removing =>
    simp only [hpc] at hr hread ⊢
    cases ht : f.task with
    | none =>
      simp only [ht] at hr ⊢
      exact cinv_thread h hj rfl rfl hr hread
    | some t =>
      simp only [ht] at hr ⊢
      refine ⟨hr, ?_, ?_, ?_⟩
      · intro r hrm
        have hc : ∃ f0, s.frames[r.frame]? = some f0 ∧ Cells s.submitted r.owner f0 := by
          rcases List.mem_or_eq_of_mem_set hrm with hm | rfl
          · exact h.cells r hm
          · exact h.cells p hpm
        obtain ⟨f0, e0, c0⟩ := hc
        simp only [List.getElem?_set]
        by_cases e : p.frame = r.frame
        · rw [← e, ef] at e0
          injection e0 with e0
          subst e0
          rw [if_pos e, if_pos (List.getElem?_eq_some_iff.1 ef).1]
          exact ⟨_, rfl, c0⟩
        · rw [if_neg e]; exact ⟨f0, e0, c0⟩
      · intro r hrm
        rcases List.mem_or_eq_of_mem_set hrm with hm | rfl
        · exact h.read r hm
        · exact hread
      · intro g hg
        rcases List.mem_or_eq_of_mem_set hg with hm | rfl
        · exact h.bound g hm
        · exact h.bound f (List.mem_of_getElem? ef)
  | done => exact h

theorem cinv_step {s : Rate} (h : CInv s) (op : ROp) : CInv (rstep s op) := by
  have hr := rinv_step h.base op
  cases op with
  | submit =>
    refine ⟨hr, ?_, fun p hp => (h.read p hp).mono (Nat.le_succ _), h.bound⟩
    intro p hp
    obtain ⟨f, e, c⟩ := h.cells p hp
    exact ⟨f, e, c.1.mono (Nat.le_succ _), c.2.1.mono (Nat.le_succ _), c.2.2.mono (Nat.le_succ _)⟩
  | spawnLoop =>
    simp only [rstep] at hr ⊢
    split
    · rename_i hc
      rw [if_pos hc] at hr
      exact ⟨hr, h.cells, h.read, h.bound⟩
    · exact h
  | acquire =>
    simp only [rstep] at hr ⊢
    split
    · rename_i hc
      rw [if_pos hc] at hr
      refine ⟨hr, ?_, h.read, ?_⟩
      · intro p hp
        obtain ⟨f, e, c⟩ := h.cells p hp
        refine ⟨f, ?_, c⟩
        simp only
        rw [List.getElem?_append_left (List.getElem?_eq_some_iff.1 e).1]
        exact e
      · intro g hg
        rcases List.mem_append.1 hg with hg | hg
        · exact h.bound g hg
        · rw [List.mem_singleton.1 hg]; exact trivial
    · exact h
  | loop pick =>
    simp only [rstep] at hr ⊢
    cases hf : s.frames[s.frames.length - 1]? with
    | none => exact h
    | some f =>
      simp only [hf] at hr ⊢
      exact cinv_loop h hf pick hr
  | proxy j raises =>
    simp only [rstep] at hr ⊢
    cases hj : s.proxies[j]? with
    | none => exact h
    | some p =>
      simp only [hj] at hr ⊢
      exact cinv_proxy h hj raises hr

theorem cinv_run {s : Rate} (h : CInv s) (ops : List ROp) : CInv (rrun s ops) := by
  induction ops generalizing s with
  | nil => exact h
  | cons op ops ih => exact ih (cinv_step h op)

/-- **C35, what is called, for all schedules**: whatever the threads do, a task thread that has called anything has called a function,
with positional and with keyword arguments, each of a task that was submitted, and none of a task submitted before its own; a thread
that has not got past its three reads has called nothing. (Partial: the three need not belong to its own task, `C35_refuted_once`,
`C35_refuted_mixed`.) -/
theorem C35_calls_partial (size : Nat) (ops : List ROp) :
    let s := rrun (freshRate size) ops
    ∀ p ∈ s.proxies,
      (unstarted p = true → p.called = none) ∧
      (unstarted p = false → ∃ a b c, p.called = some (some a, some b, some c) ∧
        (p.owner ≤ a ∧ a < s.submitted) ∧ (p.owner ≤ b ∧ b < s.submitted) ∧ (p.owner ≤ c ∧ c < s.submitted)) := by
  intro s p hp
  have h := (cinv_run (cinv_fresh size) ops).read p hp
  change ReadFrom s.submitted p at h
  unfold ReadFrom at h
  cases hpc : p.pc with
  | start => rw [hpc] at h; exact ⟨fun _ => h, by simp [unstarted, hpc]⟩
  | gotF x => rw [hpc] at h; exact ⟨fun _ => h.1, by simp [unstarted, hpc]⟩
  | gotA x y => rw [hpc] at h; exact ⟨fun _ => h.1, by simp [unstarted, hpc]⟩
  | _ =>
    rw [hpc] at h
    obtain ⟨x, y, z, h1, ⟨a, rfl, ha⟩, ⟨b, rfl, hb⟩, ⟨c, rfl, hc⟩⟩ := h
    exact ⟨by simp [unstarted, hpc], fun _ => ⟨a, b, c, h1, ha, hb, hc⟩⟩

/-- **C35, the last task**: for all schedules, the thread of the task submitted last, once it has called anything, has called its own
task with its own arguments. So a task can only be lost to a later one. -/
theorem C35_last (size : Nat) (ops : List ROp) :
    let s := rrun (freshRate size) ops
    ∀ p ∈ s.proxies, p.owner + 1 = s.submitted → unstarted p = false → p.called = some (callOf p.owner) := by
  intro s p hp hl hu
  obtain ⟨a, b, c, h, ha, hb, hc⟩ := (C35_calls_partial size ops p hp).2 hu
  rw [h]
  have e1 : a = p.owner := by have := ha.2; change a < s.submitted at this; omega
  have e2 : b = p.owner := by have := hb.2; change b < s.submitted at this; omega
  have e3 : c = p.owner := by have := hc.2; change c < s.submitted at this; omega
  subst e1; rw [e2, e3]; rfl

/-- Non-vacuity: two tasks, the thread of the first one starts late; the second one calls its own task, the first one calls it too. -/
example : ∃ ops, (rrun (freshRate 3) ops).submitted = 2 ∧
    (rrun (freshRate 3) ops).proxies.map (fun p => (p.owner, p.called)) = [(0, some (callOf 1)), (1, some (callOf 1))] := by
  refine ⟨submit1 ++ submit1 ++ [.acquire] ++ takeOne ++ [.loop 0, .loop 0] ++ List.replicate 9 (.loop 0) ++
    startTask 0 ++ startTask 1, ?_, ?_⟩ <;> decide +kernel

end Twink.RateCalls
