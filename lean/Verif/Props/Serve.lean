import Verif.Model.Serve

/-!
# C84: `serve_forever` stops what it has started.  C85: `use_gevent`.
-/

namespace Twink.Serve

/-- The claim of C84: every server that has been started is told to stop. -/
def Cleaned (evs : List Ev) : Prop := ∀ i, Ev.started i ∈ evs → Ev.stopped i ∈ evs

theorem startAll_ok {ss : List Server} {i : Nat} (h : ∀ s ∈ ss, s.start = none) :
    startAll i ss = ((List.range' i ss.length).map .started, .ok ()) := by
  induction ss generalizing i with
  | nil => rfl
  | cons s ss ih =>
    rw [startAll, h s (by simp)]
    simp only
    rw [ih (fun s hs => h s (by simp [hs]))]
    simp [List.range'_succ]

theorem stopAll_ok {ss : List Server} {i : Nat} (h : ∀ s ∈ ss.dropLast, s.stop = none) :
    (stopAll i ss).1 = (List.range' i ss.length).map .stopped ∧
    (stopAll i ss).2 = match ss.getLast? with | some s => (match s.stop with | some e => .error e | none => .ok ()) | none => .ok () := by
  induction ss generalizing i with
  | nil => exact ⟨rfl, rfl⟩
  | cons s ss ih =>
    rw [stopAll]
    cases ss with
    | nil => cases hs : s.stop <;> simp [stopAll, hs]
    | cons t ts =>
      rw [h s (by simp)]
      simp only
      obtain ⟨h1, h2⟩ := ih (i := i + 1) (fun s hs => h s (by simp [List.dropLast_cons_of_ne_nil, hs]))
      rw [h1, h2]
      simp [List.range'_succ]

theorem mem_stopAll {ss : List Server} {i k : Nat} :
    Ev.stopped (i + k) ∈ (stopAll i ss).1 ↔ k < ss.length ∧ ∀ s ∈ ss.take k, s.stop = none := by
  induction ss generalizing i k with
  | nil => simp [stopAll]
  | cons s ss ih =>
    rw [stopAll]
    cases k with
    | zero => cases hs : s.stop <;> simp
    | succ k =>
      have := ih (i := i + 1) (k := k)
      rw [Nat.add_assoc, Nat.add_comm 1 k] at this
      cases hs : s.stop with
      | none => simp [this, hs]
      | some e => simp [hs]

theorem startAll_err {ss : List Server} {i : Nat} (h : ¬ ∀ s ∈ ss, s.start = none) :
    (∃ e, (startAll i ss).2 = .error e) ∧ (∀ j, Ev.stopped j ∉ (startAll i ss).1) ∧
    ((∃ s, ss.head? = some s ∧ s.start ≠ none) ∨ Ev.started i ∈ (startAll i ss).1) ∧
    ((∃ s, ss.head? = some s ∧ s.start ≠ none) → (startAll i ss).1 = []) := by
  induction ss generalizing i with
  | nil => simp at h
  | cons s ss ih =>
    rw [startAll]
    cases hs : s.start with
    | some e => exact ⟨⟨e, rfl⟩, by simp, .inl ⟨s, rfl, by simp [hs]⟩, fun _ => rfl⟩
    | none =>
      obtain ⟨h1, h2, _, _⟩ := ih (i := i + 1) (fun hh => h (by simpa [hs] using hh))
      refine ⟨h1, by simpa using h2, .inr (by simp), ?_⟩
      rintro ⟨t, ht, hn⟩
      simp only [List.head?_cons, Option.some.injEq] at ht
      subst ht; exact (hn hs).elim

/-- C84. If every `start` returns, and every `stop` but the last: the servers are started in order, then stopped in order, each once; if
the last `stop` returns too, `serve_forever` ends as the waiting did. -/
theorem C84_basic_partial (ss : List Server) (wait : Py Unit) (h1 : ∀ s ∈ ss, s.start = none) (h2 : ∀ s ∈ ss.dropLast, s.stop = none) :
    (serveBasic ss wait).1 = (List.range ss.length).map .started ++ (List.range ss.length).map .stopped ∧
    ((∀ s ∈ ss, s.stop = none) → (serveBasic ss wait).2 = wait) := by
  obtain ⟨a, b⟩ := stopAll_ok (i := 0) h2
  unfold serveBasic
  rw [startAll_ok h1]
  simp only
  cases hs : stopAll 0 ss with
  | mk evs r =>
    rw [hs] at a b
    simp only at a b
    subst a
    cases r with
    | ok u => exact ⟨by simp [List.range_eq_range'], fun _ => rfl⟩
    | error e =>
      refine ⟨by simp [List.range_eq_range'], fun hall => ?_⟩
      cases hl : ss.getLast? with
      | none => rw [hl] at b; cases b
      | some t =>
        rw [hl] at b
        simp only [hall t (List.mem_of_getLast? hl)] at b; cases b

/-- C84. Exactly when the claim holds of `serve_forever` in threads. -/
theorem C84_basic_iff (ss : List Server) (wait : Py Unit) : Cleaned (serveBasic ss wait).1 ↔
    ((∀ s ∈ ss, s.start = none) ∧ ∀ s ∈ ss.dropLast, s.stop = none) ∨ ∃ s, ss.head? = some s ∧ s.start ≠ none := by
  by_cases h1 : ∀ s ∈ ss, s.start = none
  · have hev : (serveBasic ss wait).1 = (List.range ss.length).map .started ++ (stopAll 0 ss).1 := by
      unfold serveBasic
      rw [startAll_ok h1]
      simp only
      cases hs : stopAll 0 ss with
      | mk evs r => cases r <;> simp [List.range_eq_range']
    have hno : ¬ ∃ s, ss.head? = some s ∧ s.start ≠ none := by
      rintro ⟨s, hs, hn⟩; exact hn (h1 s (List.mem_of_head? hs))
    have hmem : ∀ i, Ev.stopped i ∈ (stopAll 0 ss).1 ↔ i < ss.length ∧ ∀ s ∈ ss.take i, s.stop = none := by
      intro i
      have := mem_stopAll (ss := ss) (i := 0) (k := i)
      rwa [Nat.zero_add] at this
    have hst : ∀ i, Ev.started i ∉ (stopAll 0 ss).1 := by
      have : ∀ (ts : List Server) (k i : Nat), Ev.started i ∉ (stopAll k ts).1 := by
        intro ts
        induction ts with
        | nil => simp [stopAll]
        | cons s ts ih =>
          intro k i
          rw [stopAll]
          cases hs : s.stop with
          | none => simp [ih]
          | some e => simp
      exact this ss 0
    rw [hev]
    constructor
    · intro hc
      refine .inl ⟨h1, ?_⟩
      cases hl : ss with
      | nil => simp
      | cons s ts =>
        rw [← hl]
        have hpos : ss.length = ts.length + 1 := by rw [hl]; rfl
        have := hc ts.length (by simp; omega)
        simp only [List.mem_append, List.mem_map, reduceCtorEq, and_false, exists_false, false_or] at this
        have := ((hmem _).1 this).2
        rwa [List.dropLast_eq_take, hpos, Nat.add_sub_cancel]
    · rintro (⟨_, h2⟩ | h)
      · intro i hi
        simp only [List.mem_append, List.mem_map, List.mem_range, Ev.started.injEq, exists_eq_right, hst, or_false] at hi
        refine List.mem_append_right _ ((hmem i).2 ⟨hi, fun s hs => h2 s ?_⟩)
        rw [List.dropLast_eq_take]
        exact (List.take_subset_take_left ss (by omega)) hs
      · exact (hno h).elim
  · obtain ⟨⟨e, he⟩, hno, hor, hnil⟩ := startAll_err (i := 0) h1
    have hev : (serveBasic ss wait).1 = (startAll 0 ss).1 := by
      unfold serveBasic
      cases hs : startAll 0 ss with
      | mk evs r => rw [hs] at he; simp only at he; subst he; rfl
    rw [hev]
    constructor
    · intro hc
      rcases hor with h | h
      · exact .inr h
      · exact (hno 0 (hc 0 h)).elim
    · rintro (⟨h, _⟩ | h)
      · exact (h1 h).elim
      · intro i hi; rw [hnil h] at hi; cases hi

/-- C84, the part that fails. A server whose `start` raises leaves those before it running. -/
theorem C84_start_refuted : ¬ ∀ ss wait, Cleaned (serveBasic ss wait).1 ∧ Cleaned (serveGevent ss wait).1 := by
  intro h
  have := (h [⟨none, none⟩, ⟨some .other, none⟩] (.ok ())).2 0 (by decide)
  revert this; decide

/-- C84, the part that fails. A `stop` that raises leaves the servers behind it running. -/
theorem C84_stop_refuted : ¬ ∀ ss wait, (∀ s ∈ ss, s.start = none) → Cleaned (serveBasic ss wait).1 := by
  intro h
  have := h [⟨none, some .other⟩, ⟨none, none⟩] (.ok ()) (by decide) 1 (by decide)
  revert this; decide

theorem spawnStops_eq (ss : List Server) (i : Nat) : spawnStops i ss = (List.range' i ss.length).map .stopped := by
  induction ss generalizing i with
  | nil => rfl
  | cons s ss ih => rw [spawnStops, ih]; simp [List.range'_succ]

/-- C84. With gevent a `stop` that raises does not matter. -/
theorem C84_gevent_partial (ss : List Server) (wait : Py Unit) (h : ∀ s ∈ ss, s.start = none) :
    serveGevent ss wait = ((List.range ss.length).map .started ++ (List.range ss.length).map .stopped, wait) := by
  unfold serveGevent
  rw [startAll_ok h, spawnStops_eq]
  simp [List.range_eq_range']

example : (∀ s ∈ [(⟨none, none⟩ : Server), ⟨none, some .other⟩], s.start = none) ∧
    ∀ s ∈ [(⟨none, none⟩ : Server), ⟨none, some .other⟩].dropLast, s.stop = none := by decide
example : serveBasic [⟨none, none⟩, ⟨none, some .other⟩] (.ok ()) = ([.started 0, .started 1, .stopped 0, .stopped 1], .error .other) := by decide

/-- The claim of C85: once `use_gevent()` has been called, attributes come from gevent. -/
def Switches : Prop := ∀ n g, 0 < n → ∀ name ∈ attributes, getattr (calls n g) name = .ok (.gevent, name)

/-- C85, the claim fails: `use_gevent` assigns to a local variable. -/
theorem C85_switches_refuted : ¬ Switches := by
  intro h
  have := h 1 globals0 (by decide) "spawn" (by decide)
  revert this; decide

/-- C85. What happens instead: however often it is called, attributes come from the scheduler that was chosen before: threads, as
`_use_gevent` starts as False. -/
theorem C85_no_effect_partial (n : Nat) (g : Globals) (name : String) :
    getattr (calls n g) name = getattr g name ∧ (name ∈ attributes → getattr (calls n globals0) name = .ok (.basic, name)) := by
  have hu : ∀ g, useGevent g = g := fun g => rfl
  have hc : ∀ n g, calls n g = g := by
    intro n
    induction n with
    | zero => intro g; rfl
    | succ n ih => intro g; rw [calls, hu, ih]
  rw [hc, hc]
  refine ⟨rfl, fun h => ?_⟩
  unfold getattr; rw [if_pos h]; rfl

/-- C85. `sched` has exactly seven attributes, among them all that the package asks for; any other name raises AttributeError. -/
theorem C85_attributes (g : Globals) (name : String) :
    ((∃ r, getattr g name = .ok r) ↔ name ∈ attributes) ∧ (name ∉ attributes → getattr g name = .error .attributeError) ∧
    ∀ a ∈ asked, a ∈ attributes := by
  refine ⟨?_, fun h => by unfold getattr; rw [if_neg h], by decide⟩
  unfold getattr
  split
  · rename_i h; exact ⟨fun _ => h, fun _ => ⟨_, rfl⟩⟩
  · rename_i h; exact ⟨fun ⟨r, hr⟩ => (by cases hr), fun h' => (h h').elim⟩

/-- A declaration would have been enough. -/
example : (assign ["_use_gevent"] ⟨[], globals0⟩ "_use_gevent" true).globals = ⟨true⟩ := by decide
example : getattr globals0 "Thread" = .error .attributeError := by decide

end Twink.Serve
