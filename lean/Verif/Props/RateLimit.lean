import Verif.Props.Rate

/-! # Property C35: the limit bounds nothing -/

namespace Twink.RateLimit
open Twink Spec

/-- One task is taken up and started and outlives the wait of half a second; then the next one is submitted. `j` is the number of the thread. -/
def round (j : Nat) : List ROp :=
  List.replicate 11 (.loop 0) ++ [.proxy j false, .proxy j false, .proxy j false, .submit, .spawnLoop]

/-- `n` tasks are running, the next one has been submitted. -/
structure At (n : Nat) (s : Rate) : Prop where
  size : s.size = 1
  submitted : s.submitted = n + 1
  cold : s.cold = [n]
  pending : s.pending = 0
  frame : ∃ f, s.frames = [f] ∧ f.pc = .outer
  count : s.proxies.length = n
  running : ∀ p ∈ s.proxies, p.pc = .running

theorem rrun_append (s : Rate) (a b : List ROp) : rrun s (a ++ b) = rrun (rrun s a) b := by
  induction a generalizing s with
  | nil => rfl
  | cons op ops ih => exact ih (rstep s op)

theorem prompt_append {s : Rate} {a b : List ROp} (h1 : PromptRun s a) (h2 : PromptRun (rrun s a) b) : PromptRun s (a ++ b) := by
  induction a generalizing s with
  | nil => exact h2
  | cons op ops ih =>
    cases op with
    | loop pick => exact ⟨h1.1, ih h1.2 h2⟩
    | _ => exact ih h1 h2

theorem round_at {n : Nat} {s : Rate} (h : At n s) : PromptRun s (round n) ∧ At (n + 1) (rrun s (round n)) := by
  obtain ⟨size, submitted, cold, pending, waiting, frames, proxies, popped⟩ := s
  obtain ⟨h1, h2, h3, h4, ⟨f, h5, h6⟩, h7, h8⟩ := h
  obtain ⟨pc, hot, children, func, args, kwargs, task⟩ := f
  simp only at h1 h2 h3 h4 h5 h6 h7 h8
  subst h1 h2 h3 h4 h5 h6 h7
  have hu : ∀ p ∈ proxies, unstarted p = false := fun p hp => by simp [unstarted, h8 p hp]
  constructor
  · simp only [round, List.replicate, List.cons_append, List.nil_append]
    simp [PromptRun, rstep, loopStep, firstRuns, taskAfter]
    exact fun p hp _ => hu p hp
  · simp only [round, List.replicate, List.cons_append, List.nil_append]
    simp [rrun, rstep, loopStep, proxyStep, firstRuns, taskAfter]
    refine ⟨rfl, rfl, rfl, rfl, ⟨_, rfl, rfl⟩, by simp, ?_⟩
    intro p hp
    rcases List.mem_append.1 hp with hp | hp
    · exact h8 p hp
    · rw [List.mem_singleton.1 hp]

/-- **C35 is false, without any bound**: with limit 1, for every number there is a schedule in which so many tasks run at the same time, and every thread
calls its own task. -/
theorem C35_unbounded_refuted (n : Nat) : ∃ ops, PromptRun (freshRate 1) ops ∧ runningCount (rrun (freshRate 1) ops) = n := by
  have key : ∀ n, ∃ ops, PromptRun (freshRate 1) ops ∧ At n (rrun (freshRate 1) ops) := by
    intro n
    induction n with
    | zero =>
      refine ⟨[.submit, .spawnLoop, .acquire], by simp [PromptRun], ?_⟩
      refine ⟨rfl, rfl, rfl, rfl, ⟨_, rfl, rfl⟩, rfl, ?_⟩
      intro p hp
      cases hp
    | succ n ih =>
      obtain ⟨ops, h1, h2⟩ := ih
      obtain ⟨h3, h4⟩ := round_at h2
      exact ⟨ops ++ round n, prompt_append h1 h3, by rw [rrun_append]; exact h4⟩
  obtain ⟨ops, h1, h2⟩ := key n
  refine ⟨ops, h1, ?_⟩
  rw [runningCount, List.filter_eq_self.2 (fun p hp => by simp [h2.running p hp]), h2.count]

end Twink.RateLimit
