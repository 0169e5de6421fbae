import Mathlib.Data.List.Induction
import Verif.Proof.Rule2

/-!
# Property C120: `rule2ofp` returns the messages of its rules and leaves no server behind
-/

namespace Twink.Rule2
open Spec Ovs

/-- **C120, the result.** However the threads and the processes are interleaved: if `rule2ofp` returns, it returns the messages that `ovs-ofctl` makes of the rules, all of them, unchanged and in
the order of the rules, and it has run one command for each rule, in order.
Missing: it may raise though nothing is wrong with the rules (`C120_refused_refuted`). -/
theorem C120_results_partial (addr : Str) (v : Nat) (rules : List Rule) (hs : ∀ r ∈ rules, Sane r) (ops : List Op) {rs : List Bytes}
    (h : (runs addr (init v rules) ops).main = .ended (.ok rs)) :
    rs = messages rules ∧ (∀ r ∈ rules, Understood r) ∧ (runs addr (init v rules) ops).cmds = rules.map (fun r => command v addr r.text) := by
  have hp := (progress_runs addr hs (progress_init addr v rules) ops).2
  rw [h] at hp
  exact hp

/-- If it raises, the commands run are those of the rules up to one at which `ovs-ofctl` failed. -/
theorem C120_error_partial (addr : Str) (v : Nat) (rules : List Rule) (hs : ∀ r ∈ rules, Sane r) (ops : List Op) {e : Err}
    (h : (runs addr (init v rules) ops).main = .ended (.error e)) :
    e = .other ∧ ∃ ready r todo, rules = ready ++ r :: todo ∧ (∀ r ∈ ready, Understood r) ∧
      (runs addr (init v rules) ops).cmds = (ready ++ [r]).map (fun r => command v addr r.text) := by
  have hp := (progress_runs addr hs (progress_init addr v rules) ops).2
  rw [h] at hp
  exact hp

/-! ## When it raises -/

/-- An `ovs-ofctl` has failed. -/
def Failing (s : St) : Prop := ∃ e, s.main = .stop (some e) ∨ s.main = .join (some e) ∨ s.main = .ended (.error e)

theorem refused_snoc (addr : Str) (s : St) (ops : List Op) (op : Op) : Refused addr s (ops ++ [op]) ↔ Refused addr s ops ∨
    (op = .client ∧ ∃ r todo, (runs addr s ops).main = .busy r todo .connecting ∧ Understood r ∧ (runs addr s ops).listening = false) := by
  constructor
  · rintro ⟨a, b, r, todo, e, h1, h2, h3⟩
    rcases List.eq_nil_or_concat b with rfl | ⟨b', x, rfl⟩
    · have := List.append_inj' e rfl
      obtain ⟨rfl, e2⟩ := this
      simp only [List.cons.injEq, and_true] at e2
      exact .inr ⟨e2, r, todo, h1, h2, h3⟩
    · left
      refine ⟨a, b', r, todo, ?_, h1, h2, h3⟩
      have : ops ++ [op] = (a ++ .client :: b') ++ [x] := by simpa using e
      exact (List.append_inj' this rfl).1
  · rintro (⟨a, b, r, todo, e, h1, h2, h3⟩ | ⟨rfl, r, todo, h1, h2, h3⟩)
    · exact ⟨a, b ++ [op], r, todo, by simp [e], h1, h2, h3⟩
    · exact ⟨ops, [], r, todo, rfl, h1, h2, h3⟩

theorem failing_step (addr : Str) {v : Nat} {rules : List Rule} (hu : ∀ r ∈ rules, Understood r) {s : St} (hp : Progress addr v rules s) (op : Op) :
    Failing (step addr s op) ↔ Failing s ∨ (op = .client ∧ ∃ r todo, s.main = .busy r todo .connecting ∧ Understood r ∧ s.listening = false) := by
  cases op with
  | main =>
    simp only [step, mainStep]
    split
    · rename_i em; simp [Failing, em]
    · rename_i em; simp [Failing, em]
    · rename_i em; simp [Failing, em]
    · rename_i em; simp [Failing, em]
    · rename_i e em
      split
      · cases e <;> simp [Failing, em]
      · simp [Failing, em]
    · rename_i em; simp [Failing, em]
  | starter => simp only [step, startStep]; split <;> simp [Failing]
  | run t =>
    simp only [step, runStep]
    split
    · simp
    · split <;> simp [Failing]
    · split
      · simp [Failing]
      · split
        · rename_i em
          split
          · simp [Failing, em]
          · simp
        · simp
    · simp
  | client =>
    simp only [step, clientStep]
    split
    · rename_i r todo em
      have hur : Understood r := by
        have := hp.2
        rw [em] at this
        obtain ⟨ready, h1, _⟩ := this
        exact hu r (by rw [h1]; simp)
      split
      · rename_i er; exact absurd er hur
      · split
        · rename_i hl
          simp only [Failing, em]
          simp [hl]
        · rename_i hl
          simp only [Failing, em]
          simp [hl, hur]
    · rename_i em
      split
      · split
        · simp [Failing, em]
        · simp [Failing, em]
      · simp [Failing, em]
    · rename_i h1 h2
      constructor
      · exact .inl
      · rintro (h | ⟨_, r, todo, h, _⟩)
        · exact h
        · exact absurd h (h1 r todo)
  | serve =>
    simp only [step, serveStep]
    split
    · rename_i em
      split <;> simp [Failing, em]
    · simp

theorem failing_runs (addr : Str) {v : Nat} {rules : List Rule} (hs : ∀ r ∈ rules, Sane r) (hu : ∀ r ∈ rules, Understood r) (ops : List Op) :
    Failing (runs addr (init v rules) ops) ↔ Refused addr (init v rules) ops := by
  induction ops using List.reverseRecOn with
  | nil => simp [Failing, Refused, runs, init]
  | append_singleton ops op ih =>
    rw [runs_snoc, failing_step addr hu (progress_runs addr hs (progress_init addr v rules) ops) op, refused_snoc, ih]

/-- **C120, exactly when it raises.** Let `ovs-ofctl` understand all the rules.  Then `rule2ofp` raises if and only if an `ovs-ofctl` comes to connect before the thread of `start()` has made
the socket listen. -/
theorem C120_raises_exact (addr : Str) (v : Nat) (rules : List Rule) (hs : ∀ r ∈ rules, Sane r) (hu : ∀ r ∈ rules, Understood r) (ops : List Op)
    (h : Over (runs addr (init v rules) ops)) :
    (∃ e, (runs addr (init v rules) ops).main = .ended (.error e)) ↔ Refused addr (init v rules) ops := by
  rw [← failing_runs addr hs hu ops]
  obtain ⟨r, hr⟩ := h
  constructor
  · rintro ⟨e, he⟩; exact ⟨e, .inr (.inr he)⟩
  · rintro ⟨e, he | he | he⟩
    · rw [hr] at he; simp at he
    · rw [hr] at he; simp at he
    · exact ⟨e, he⟩

/-- Full statement: `rule2ofp` returns if the rules are good.  Whatever the first rule, it may raise: `spawn(serv.start)` returns before the server listens. -/
theorem C120_refused_refuted (addr : Str) (v : Nat) (r : Rule) (todo : List Rule) : ∃ ops,
    (runs addr (init v (r :: todo)) ops).main = .ended (.error .other) := by
  refine ⟨[.main, .client, .main, .starter, .starter, .starter, .main], ?_⟩
  cases hm : r.mods with
  | none => simp [runs, step, init, mainStep, clientStep, startStep, hm]
  | some p => simp [runs, step, init, mainStep, clientStep, startStep, hm]

/-! ## The server -/

theorem stoppedFirst_snoc (addr : Str) (s : St) (ops : List Op) (op : Op) : StoppedFirst addr s (ops ++ [op]) ↔ StoppedFirst addr s ops ∨
    (op = .main ∧ ∃ e, (runs addr s ops).main = .stop e ∧ (runs addr s ops).starter = .fresh) := by
  constructor
  · rintro ⟨a, b, x, e, h1, h2⟩
    rcases List.eq_nil_or_concat b with rfl | ⟨b', y, rfl⟩
    · have := List.append_inj' e rfl
      obtain ⟨rfl, e2⟩ := this
      simp only [List.cons.injEq, and_true] at e2
      exact .inr ⟨e2, x, h1, h2⟩
    · left
      refine ⟨a, b', x, ?_, h1, h2⟩
      have : ops ++ [op] = (a ++ .main :: b') ++ [y] := by simpa using e
      exact (List.append_inj' this rfl).1
  · rintro (⟨a, b, x, e, h1, h2⟩ | ⟨rfl, x, h1, h2⟩)
    · exact ⟨a, b ++ [op], x, by simp [e], h1, h2⟩
    · exact ⟨ops, [], x, rfl, h1, h2⟩

/-- Steps other than those of the caller. -/
theorem step_quiet (addr : Str) (s : St) (op : Op) (hm : op ≠ .main) : ((step addr s op).main.before ↔ s.main.before) ∧
    ((op ≠ .starter) → (step addr s op).accepting = s.accepting ∧ (step addr s op).starter = s.starter) := by
  cases op with
  | main => exact absurd rfl hm
  | starter => simp only [step, startStep]; split <;> simp
  | run t =>
    simp only [step, runStep]
    split
    · simp
    · split <;> simp
    · split
      · simp
      · split
        · rename_i em
          split <;> simp [em, Main.before]
        · simp
    · simp
  | client =>
    simp only [step, clientStep]
    split
    · rename_i em
      split
      · simp [em, Main.before]
      · split <;> simp [em, Main.before]
    · rename_i em
      split
      · split <;> simp [em, Main.before]
      · simp
    · simp
  | serve =>
    simp only [step, serveStep]
    split
    · rename_i em
      split <;> simp [em, Main.before]
    · simp

theorem stopped_runs (addr : Str) (v : Nat) (rules : List Rule) (ops : List Op) :
    ((runs addr (init v rules) ops).main.before → ¬ StoppedFirst addr (init v rules) ops) ∧
    (¬ (runs addr (init v rules) ops).main.before → (StoppedFirst addr (init v rules) ops ↔
      ((runs addr (init v rules) ops).starter = .fresh ∨ (runs addr (init v rules) ops).accepting = true))) := by
  induction ops using List.reverseRecOn with
  | nil => simp [StoppedFirst, runs, init, Main.before]
  | append_singleton ops op ih =>
    rw [runs_snoc, stoppedFirst_snoc]
    generalize runs addr (init v rules) ops = s at ih ⊢
    generalize StoppedFirst addr (init v rules) ops = P at ih ⊢
    by_cases hop : op = .main
    · subst hop
      simp only [step, mainStep]
      split
      · rename_i em; simp only [em, Main.before, not_true_eq_false, false_implies, and_true, forall_const] at ih; simp [em, Main.before, ih]
      · rename_i em; simp only [em, Main.before, not_true_eq_false, false_implies, and_true, forall_const] at ih; simp [em, Main.before, ih]
      · rename_i em; simp only [em, Main.before, not_true_eq_false, false_implies, and_true, forall_const] at ih; simp [em, Main.before, ih]
      · rename_i em; simp only [em, Main.before, not_true_eq_false, false_implies, and_true, forall_const] at ih; simp [em, Main.before, ih]
      · rename_i em
        simp only [em, Main.before, false_implies, not_false_eq_true, forall_const, true_and] at ih
        split <;> simp [em, Main.before, ih]
      · rename_i em
        simp only [em, Main.before, false_implies, not_false_eq_true, forall_const, true_and] at ih
        simp [em, Main.before, ih]
    · obtain ⟨q1, q2⟩ := step_quiet addr s op hop
      rw [q1]
      simp only [hop, false_and, or_false]
      refine ⟨ih.1, fun hb => ?_⟩
      rw [ih.2 hb]
      by_cases hst : op = .starter
      · subst hst
        simp only [step, startStep]
        split <;> simp_all
      · obtain ⟨q3, q4⟩ := q2 hst
        rw [q3, q4]

/-- **C120, exactly when the server survives.** When `rule2ofp` has returned or raised: the server still accepts if and only if `stop()` was called before the thread of `start()` had set
`accepting`. -/
theorem C120_server_exact (addr : Str) (v : Nat) (rules : List Rule) (ops : List Op) (h : Over (runs addr (init v rules) ops)) :
    (runs addr (init v rules) ops).accepting = true ↔ StoppedFirst addr (init v rules) ops := by
  have hd := (server_runs addr (server_init v rules) ops).joined h
  obtain ⟨r, hr⟩ := h
  rw [(stopped_runs addr v rules ops).2 (by simp [hr, Main.before]), hd]
  simp

theorem over_step (addr : Str) {s : St} (h : Over s) (hi : Server s) (op : Op) : (step addr s op).main = s.main ∧ (step addr s op).accepting = s.accepting := by
  obtain ⟨r, hr⟩ := h
  have hd := hi.joined ⟨r, hr⟩
  cases op with
  | main => simp [step, mainStep, hr]
  | starter => simp [step, startStep, hd]
  | run t => simp only [step, runStep]; split <;> (try split) <;> (try split) <;> simp_all
  | client => simp [step, clientStep, hr]
  | serve => simp [step, serveStep, hr]

theorem over_runs (addr : Str) {s : St} (h : Over s) (hi : Server s) (ops : List Op) : Over (runs addr s ops) ∧ (runs addr s ops).accepting = s.accepting := by
  induction ops generalizing s with
  | nil => exact ⟨h, rfl⟩
  | cons op ops ih =>
    obtain ⟨h1, h2⟩ := over_step addr h hi op
    obtain ⟨g1, g2⟩ := ih (s := step addr s op) (by obtain ⟨r, hr⟩ := h; exact ⟨r, h1.trans hr⟩) (server_step addr hi op)
    exact ⟨g1, g2.trans h2⟩

/-- In that case it serves for ever: nobody is left who could stop it. -/
theorem C120_immortal_refuted (addr : Str) (v : Nat) (rules : List Rule) (ops : List Op) (h : Over (runs addr (init v rules) ops))
    (hf : StoppedFirst addr (init v rules) ops) : Immortal addr (runs addr (init v rules) ops) := by
  have hi := server_runs addr (server_init v rules) ops
  have ha := (C120_server_exact addr v rules ops h).2 hf
  intro more
  obtain ⟨g1, g2⟩ := over_runs addr h hi more
  have hi' := server_runs addr hi more
  have hne : (runs addr (runs addr (init v rules) ops) more).runner ≠ .ended := by
    intro hc
    have := (hi'.over hc).1
    rw [g2, ha] at this; simp at this
  exact ⟨hi'.listening (.inr (hi'.joined g1)) hne, g2.trans ha, hne⟩

/-- In the other case it does not accept any more, and when its `accept` has timed out its loop ends and the socket is closed. -/
theorem C120_stopped_partial (addr : Str) (v : Nat) (rules : List Rule) (ops : List Op) (h : Over (runs addr (init v rules) ops))
    (hf : ¬ StoppedFirst addr (init v rules) ops) :
    (∀ more, (runs addr (init v rules) (ops ++ more)).accepting = false) ∧
    (runs addr (init v rules) (ops ++ [.run true, .run true])).runner = .ended ∧ (runs addr (init v rules) (ops ++ [.run true, .run true])).listening = false := by
  have hi := server_runs addr (server_init v rules) ops
  have ha : (runs addr (init v rules) ops).accepting = false := by
    have := mt (C120_server_exact addr v rules ops h).1 hf
    simpa using this
  refine ⟨fun more => ?_, ?_⟩
  · rw [runs_append, (over_runs addr h hi more).2, ha]
  · have key : (runs addr (init v rules) (ops ++ [.run true, .run true])).runner = .ended := by
      rw [runs_append]
      have hn := hi.runner.2 (hi.joined h)
      generalize runs addr (init v rules) ops = s at *
      cases hr : s.runner with
      | none => exact absurd hr hn
      | top => simp [runs, step, runStep, hr, ha]
      | accept => simp [runs, step, runStep, hr, ha]
      | ended => simp [runs, step, runStep, hr]
    exact ⟨key, ((server_runs addr (server_init v rules) _).over key).2⟩

/-- The server has listened before the second rule. -/
def Met (rules : List Rule) (s : St) : Prop :=
  match s.main with
  | .loop todo => todo = rules ∨ s.starter ≠ .fresh
  | .busy r todo .connecting => r :: todo = rules ∨ s.starter ≠ .fresh
  | .busy _ _ _ => s.starter ≠ .fresh
  | .stop none => rules = [] ∨ s.starter ≠ .fresh
  | _ => True

theorem met_step (addr : Str) {rules : List Rule} {s : St} (hi : Server s) (h : Met rules s) (op : Op) : Met rules (step addr s op) := by
  unfold Met at h
  cases op with
  | main =>
    simp only [step, mainStep]
    split
    · rename_i em; rw [em] at h; simp only [Met]; exact h.imp Eq.symm id
    · rename_i em; rw [em] at h; exact h
    · exact h
    · simp [Met]
    · split
      · simp only [Met]
      · exact h
    · exact h
  | starter =>
    simp only [step, startStep]
    split
    · simp only [Met]; split <;> simp
    · simp only [Met]; split <;> simp
    · simp only [Met]; split <;> simp
    · exact h
  | run t =>
    simp only [step, runStep]
    split
    · exact h
    · split <;> exact h
    · split
      · exact h
      · split
        · rename_i em
          split
          · rw [em] at h; exact h
          · exact h
        · exact h
    · exact h
  | client =>
    simp only [step, clientStep]
    split
    · split
      · simp [Met]
      · split
        · rename_i hl
          simp only [Met]
          intro hc
          have := hi.silent (.inl hc)
          rw [hl] at this; simp at this
        · simp [Met]
    · rename_i em
      rw [em] at h
      split
      · split
        · exact .inr h
        · simp only [Met, em]; exact h
      · simp only [Met, em]; exact h
    · exact h
  | serve =>
    simp only [step, serveStep]
    split
    · rename_i em
      rw [em] at h
      split
      · exact h
      · simp only [Met, em]; exact h
    · exact h

theorem met_runs (addr : Str) (v : Nat) (rules : List Rule) (ops : List Op) : Met rules (runs addr (init v rules) ops) := by
  induction ops using List.reverseRecOn with
  | nil => exact .inl rfl
  | append_singleton ops op ih => rw [runs_snoc]; exact met_step addr (server_runs addr (server_init v rules) ops) ih op

theorem failing_keeps (addr : Str) {s : St} (h : Failing s) (op : Op) : Failing (step addr s op) := by
  obtain ⟨e, h | h | h⟩ := h
  · cases op with
    | main => exact ⟨e, .inr (.inl (by simp [step, mainStep, h]))⟩
    | starter => exact ⟨e, .inl (by simp only [step, startStep]; split <;> exact h)⟩
    | run t => exact ⟨e, .inl (by simp only [step, runStep]; split <;> (try split) <;> (try split) <;> simp_all)⟩
    | client => exact ⟨e, .inl (by simp [step, clientStep, h])⟩
    | serve => exact ⟨e, .inl (by simp [step, serveStep, h])⟩
  · cases op with
    | main => simp only [step, mainStep, h]; split
              · exact ⟨e, .inr (.inr rfl)⟩
              · exact ⟨e, .inr (.inl h)⟩
    | starter => exact ⟨e, .inr (.inl (by simp only [step, startStep]; split <;> exact h))⟩
    | run t => exact ⟨e, .inr (.inl (by simp only [step, runStep]; split <;> (try split) <;> (try split) <;> simp_all))⟩
    | client => exact ⟨e, .inr (.inl (by simp [step, clientStep, h]))⟩
    | serve => exact ⟨e, .inr (.inl (by simp [step, serveStep, h]))⟩
  · cases op with
    | main => exact ⟨e, .inr (.inr (by simp [step, mainStep, h]))⟩
    | starter => exact ⟨e, .inr (.inr (by simp only [step, startStep]; split <;> exact h))⟩
    | run t => exact ⟨e, .inr (.inr (by simp only [step, runStep]; split <;> (try split) <;> (try split) <;> simp_all))⟩
    | client => exact ⟨e, .inr (.inr (by simp [step, clientStep, h]))⟩
    | serve => exact ⟨e, .inr (.inr (by simp [step, serveStep, h]))⟩

theorem failing_all (addr : Str) {s : St} (h : Failing s) (ops : List Op) : Failing (runs addr s ops) := by
  induction ops generalizing s with
  | nil => exact h
  | cons op ops ih => exact ih (failing_keeps addr h op)

/-- **C120, the common case**: if `rule2ofp` returns the messages of at least one rule, the server is stopped. -/
theorem C120_returned_partial (addr : Str) (v : Nat) (rules : List Rule) (hne : rules ≠ []) (ops : List Op) {rs : List Bytes}
    (h : (runs addr (init v rules) ops).main = .ended (.ok rs)) : ¬ StoppedFirst addr (init v rules) ops := by
  rintro ⟨a, b, e, rfl, h1, h2⟩
  cases e with
  | none =>
    have := met_runs addr v rules a
    simp only [Met, h1] at this
    rcases this with e | e
    · exact hne e
    · exact e h2
  | some e =>
    have hf := failing_all addr (s := runs addr (init v rules) a) ⟨e, .inl h1⟩ (.main :: b)
    rw [← runs_append] at hf
    obtain ⟨e', he | he | he⟩ := hf <;> (rw [h] at he; simp at he)

/-- Full statement: no server is left behind.  For every list of rules there is an interleaving after which the server serves for ever; without rules `rule2ofp` even
returns normally. -/
theorem C120_left_refuted (addr : Str) (v : Nat) (rules : List Rule) : ∃ ops, Over (runs addr (init v rules) ops) ∧
    (rules = [] → (runs addr (init v rules) ops).main = .ended (.ok [])) ∧ Immortal addr (runs addr (init v rules) ops) := by
  cases rules with
  | nil =>
    refine ⟨[.main, .main, .starter, .starter, .starter, .main], ⟨.ok [], rfl⟩, fun _ => rfl, ?_⟩
    exact C120_immortal_refuted addr v [] _ ⟨.ok [], rfl⟩ ⟨[.main], [.starter, .starter, .starter, .main], none, rfl, rfl, rfl⟩
  | cons r todo =>
    have hc : (runs addr (init v (r :: todo)) [.main, .client]).main = .stop (some .other) := by
      cases hm : r.mods <;> simp [runs, step, init, mainStep, clientStep, hm]
    have hst : (runs addr (init v (r :: todo)) [.main, .client]).starter = .fresh := by
      cases hm : r.mods <;> simp [runs, step, init, mainStep, clientStep, hm]
    have ho : Over (runs addr (init v (r :: todo)) [.main, .client, .main, .starter, .starter, .starter, .main]) :=
      ⟨.error .other, by cases hm : r.mods <;> simp [runs, step, init, mainStep, clientStep, startStep, hm]⟩
    exact ⟨_, ho, by simp, C120_immortal_refuted addr v _ _ ho ⟨[.main, .client], [.starter, .starter, .starter, .main], _, rfl, hc, hst⟩⟩

/-! ## It does work -/

theorem serve_all (addr : Str) {r : Rule} {todo : List Rule} : ∀ (ts tc : List Bytes) (s : St), (∀ m ∈ ts, 8 ≤ m.length) →
    s.main = .busy r todo (.accepted ts tc) →
    runs addr s (List.replicate ts.length .serve) = { s with results := s.results ++ flowMods ts, main := .busy r todo (.accepted [] (tc ++ barrierReplies ts)) } := by
  intro ts
  induction ts with
  | nil => intro tc s _ hm; simp [runs, flowMods, barrierReplies, ← hm]
  | cons m ts ih =>
    intro tc s hl hm
    have e : step addr s .serve = { s with results := s.results ++ flowMods [m], main := .busy r todo (.accepted ts (tc ++ barrierReplies [m])) } := by
      simp only [step, serveStep, hm]
      rw [ruleHandle_eq _ m (hl m (by simp))]
    simp only [List.length_cons, List.replicate_succ, runs]
    rw [e, ih _ _ (fun m' hm' => hl m' (by simp [hm'])) rfl]
    have e1 : flowMods (m :: ts) = flowMods [m] ++ flowMods ts := flowMods_append [m] ts
    have e2 : barrierReplies (m :: ts) = barrierReplies [m] ++ barrierReplies ts := barrierReplies_append [m] ts
    simp [e1, e2]

theorem barrier_answered {v x : Nat} (hv : v < 256) (hx : x < 2 ^ 32) : barrierReplies [barrierReq v x] = [barrierRep v x] := by
  have e : ∀ t : UInt8, ([UInt8.ofNat v, t, 0, 8] ++ encBE 4 x : Bytes) = ofHeader v t.toNat 8 x := by
    intro t
    rw [encBE_4]
    simp [ofHeader, b8, be16]
  have hx4 : u32 (barrierReq v x) 4 = x := by
    have h8 : (barrierReq v x).length = 8 := by simp [barrierReq, encBE]
    rw [← decBE_four (barrierReq v x) 4 (by omega)]
    have : ((barrierReq v x).drop 4).take 4 = encBE 4 x := by simp [barrierReq, encBE]
    rw [this, decBE_encBE 4 x (by simpa using hx)]
  have h0 : u8 (barrierReq v x) 0 = v := by simp [barrierReq, u8]; omega
  have h1 : u8 (barrierReq v x) 1 = if v = 1 then 18 else 20 := by unfold barrierReq; split <;> simp [u8]
  have hf : (u8 (barrierReq v x) 0 = 1 ∧ u8 (barrierReq v x) 1 = 18) ∨ (u8 (barrierReq v x) 0 ≠ 1 ∧ u8 (barrierReq v x) 1 = 20) := by
    rw [h0, h1]; by_cases hv1 : v = 1 <;> simp [hv1]
  have : barrierReplies [barrierReq v x] = [ofHeader (u8 (barrierReq v x) 0) (u8 (barrierReq v x) 1 + 1) 8 (u32 (barrierReq v x) 4)] := by
    unfold barrierReplies
    rw [List.filter_cons_of_pos (by simpa using hf)]
    rfl
  rw [this, h0, h1, hx4, barrierRep, e]
  by_cases hv1 : v = 1 <;> simp [hv1]

theorem answered {v x : Nat} {ms : List Bytes} (hv : v < 256) (hx : x < 2 ^ 32) : barrierRep v x ∈ barrierReplies (script v ms x) := by
  have e : script v ms x = (helloMsg v :: ms) ++ [barrierReq v x] := by simp [script]
  rw [e, barrierReplies_append, barrier_answered hv hx]
  simp

/-- The server is up and the caller has the rules `todo` before it. -/
def ready (v : Nat) (todo : List Rule) (acc : List Bytes) (cmds : List (List Str)) : St :=
  { version := v, accepting := true, listening := true, starter := .done, runner := .top, main := .loop todo, results := acc, cmds := cmds }

theorem one_rule (addr : Str) {v : Nat} (hv : v < 256) {r : Rule} (hs : Sane r) (hu : Understood r) (todo : List Rule) (acc : List Bytes) (cmds : List (List Str)) :
    ∃ ops cmds', runs addr (ready v (r :: todo) acc cmds) ops = ready v todo (acc ++ messages [r]) cmds' := by
  obtain ⟨⟨ms, x⟩, hm⟩ : ∃ p, r.mods = some p := Option.ne_none_iff_exists'.1 hu
  obtain ⟨hx, hms⟩ := hs ms x hm
  refine ⟨[.main, .client, .run false, .run false] ++ (List.replicate (script v ms x).length .serve ++ [.client]), cmds ++ [command v addr r.text], ?_⟩
  rw [runs_append, runs_append]
  have e1 : runs addr (ready v (r :: todo) acc cmds) [.main, .client, .run false, .run false] =
      { ready v todo acc (cmds ++ [command v addr r.text]) with main := .busy r todo (.accepted (script v ms x) []) } := by
    simp [runs, step, mainStep, clientStep, runStep, ready, hm]
  rw [e1, serve_all addr (script v ms x) [] _ (script_long (fun m hm => (hms m hm).1)) rfl]
  have hb : barrierRep v x ∈ barrierReplies (script v ms x) := answered hv hx
  simp [runs, step, clientStep, hm, ready, hb, script_mods (fun m hm => (hms m hm).2), messages]

theorem all_rules (addr : Str) {v : Nat} (hv : v < 256) : ∀ (todo : List Rule), (∀ r ∈ todo, Sane r) → (∀ r ∈ todo, Understood r) →
    ∀ (acc : List Bytes) (cmds : List (List Str)), ∃ ops cmds', runs addr (ready v todo acc cmds) ops = ready v [] (acc ++ messages todo) cmds'
  | [], _, _, acc, cmds => ⟨[], cmds, by simp [runs, messages]⟩
  | r :: todo, hs, hu, acc, cmds => by
    obtain ⟨o1, c1, h1⟩ := one_rule addr hv (hs r (by simp)) (hu r (by simp)) todo acc cmds
    obtain ⟨o2, c2, h2⟩ := all_rules addr hv todo (fun q hq => hs q (by simp [hq])) (fun q hq => hu q (by simp [hq])) (acc ++ messages [r]) c1
    refine ⟨o1 ++ o2, c2, ?_⟩
    have e : messages (r :: todo) = messages [r] ++ messages todo := messages_append [r] todo
    rw [runs_append, h1, h2, e, List.append_assoc]

/-- **C120, it can work**: for rules that `ovs-ofctl` understands there is always an interleaving in which `rule2ofp` returns their messages and the server ends. -/
theorem C120_works_partial (addr : Str) {v : Nat} (hv : v < 256) (rules : List Rule) (hs : ∀ r ∈ rules, Sane r) (hu : ∀ r ∈ rules, Understood r) : ∃ ops,
    (runs addr (init v rules) ops).main = .ended (.ok (messages rules)) ∧ (runs addr (init v rules) ops).listening = false := by
  obtain ⟨o, c, h⟩ := all_rules addr hv rules hs hu [] []
  refine ⟨[.starter, .starter, .starter] ++ (o ++ [.main, .main, .main, .run true, .run true]), ?_⟩
  have e : runs addr (init v rules) [.starter, .starter, .starter] = ready v rules [] [] := by simp [runs, step, startStep, init, ready]
  rw [runs_append, runs_append, e, h]
  simp [runs, step, mainStep, runStep, ready]

/-! ## The hypotheses can be met -/

/-- A rule of two flow modifications. -/
def exRule : Rule := { text := [], mods := some ([ofHeader 4 14 8 7, ofHeader 4 14 8 8], 9) }

/-- One that `ovs-ofctl` does not understand. -/
def exBad : Rule := { text := [], mods := none }

example : Sane exRule ∧ Understood exRule ∧ ¬ Understood exBad := by
  refine ⟨?_, by simp [Understood, exRule], by simp [Understood, exBad]⟩
  intro ms x h
  simp only [exRule, Option.some.injEq, Prod.mk.injEq] at h
  obtain ⟨rfl, rfl⟩ := h
  refine ⟨by omega, ?_⟩
  intro m hm
  simp only [List.mem_cons, List.not_mem_nil, or_false] at hm
  rcases hm with rfl | rfl <;> decide +kernel

example : (runs [] (init 4 [exRule, exRule]) ([.starter, .starter, .starter] ++
    ([.main, .client, .run false, .run false, .serve, .serve, .serve, .serve, .client] ++
    ([.main, .client, .run false, .run false, .serve, .serve, .serve, .serve, .client] ++ [.main, .main, .main])))).main =
    .ended (.ok [ofHeader 4 14 8 7, ofHeader 4 14 8 8, ofHeader 4 14 8 7, ofHeader 4 14 8 8]) := by decide +kernel

example : Refused [] (init 4 [exRule]) [.main, .client, .main, .starter, .starter, .starter, .main] ∧
    StoppedFirst [] (init 4 [exRule]) [.main, .client, .main, .starter, .starter, .starter, .main] :=
  ⟨⟨[.main], [.main, .starter, .starter, .starter, .main], exRule, [], rfl, by decide +kernel, by simp [Understood, exRule], by decide +kernel⟩,
    ⟨[.main, .client], [.starter, .starter, .starter, .main], some .other, rfl, by decide +kernel, by decide +kernel⟩⟩

end Twink.Rule2
