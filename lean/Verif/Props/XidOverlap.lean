import Verif.Props.Server

/-!
# C12, how much overlap the transaction ids bear

`hms_xid` reads the last id and later sets it, base.py L257-260.  Calls may overlap as long as nobody sets it in between; where two threads are about to set it, an id
can be returned twice.
-/

namespace Twink

/-- Thread `t` has read the last id for the last time and is about to set it. -/
def AboutToSet (s : XState) (t : Nat) : Prop := ∃ k, s.pc t = .wr k

/-- In no step of the schedule does a thread set the last id while another one is about to. -/
def Undisturbed (s : XState) : List (Nat × Clock) → Prop
  | [] => True
  | (t, c) :: sched => (AboutToSet s t → ∀ u, AboutToSet s u → u = t) ∧ Undisturbed (xstep s t c) sched

/-- Who is about to set the last id sets it to a larger one. -/
def Ahead (s : XState) : Prop := ∀ t k, s.pc t = .wr k → ∀ d, s.dedup = some d → d < k

/-- Who has found the last id set finds it set later. -/
def Found (s : XState) : Prop := ∀ t k, s.pc t = .cmp k ∨ s.pc t = .inc k → s.dedup ≠ none

theorem setPc_self (pc : Nat → XPc) (t : Nat) (p : XPc) : setPc pc t p t = p := by simp [setPc]

theorem setPc_other (pc : Nat → XPc) {t u : Nat} (p : XPc) (h : u ≠ t) : setPc pc t p u = pc u := by simp [setPc, h]

/-- A step that does not set the last id. -/
theorem ahead_read {s : XState} (h : Ahead s) {t : Nat} {p : XPc} (hp : ∀ k, p = .wr k → ∀ d, s.dedup = some d → d < k) :
    Ahead { s with pc := setPc s.pc t p } := by
  intro u k hu d hd
  have hu : setPc s.pc t p u = .wr k := hu
  by_cases e : u = t
  · subst e; rw [setPc_self] at hu; exact hp k hu d hd
  · rw [setPc_other _ _ e] at hu; exact h u k hu d hd

theorem found_read {s : XState} (h : Found s) {t : Nat} {p : XPc} (hp : ∀ k, p = .cmp k ∨ p = .inc k → s.dedup ≠ none) :
    Found { s with pc := setPc s.pc t p } := by
  intro u k hu
  have hu : setPc s.pc t p u = .cmp k ∨ setPc s.pc t p u = .inc k := hu
  by_cases e : u = t
  · subst e; rw [setPc_self] at hu; exact hp k hu
  · rw [setPc_other _ _ e] at hu; exact h u k hu

/-- What a step does to the last id and to the ids returned. -/
def Moves (s s' : XState) (t : Nat) : Prop :=
  (s'.dedup = s.dedup ∧ s'.out = s.out) ∨ ∃ k, (∀ d, s.dedup = some d → d < k) ∧ s'.dedup = some k ∧ s'.out = s.out ++ [(t, k)]

theorem step_read {s : XState} (h : Ahead s) (hf : Found s) {t : Nat} {c : Clock} (p : XPc) (he : xstep s t c = { s with pc := setPc s.pc t p })
    (ha : ∀ k, p = .wr k → ∀ d, s.dedup = some d → d < k) (hb : ∀ k, p = .cmp k ∨ p = .inc k → s.dedup ≠ none) :
    Ahead (xstep s t c) ∧ Found (xstep s t c) ∧ Moves s (xstep s t c) t := by
  rw [he]
  exact ⟨ahead_read h ha, found_read hf hb, .inl ⟨rfl, rfl⟩⟩

/-- One step. -/
theorem xstep_ahead {s : XState} (h : Ahead s) (hf : Found s) (t : Nat) (c : Clock) (hu : AboutToSet s t → ∀ u, AboutToSet s u → u = t) :
    Ahead (xstep s t c) ∧ Found (xstep s t c) ∧ Moves s (xstep s t c) t := by
  cases hp : s.pc t with
  | idle => exact step_read h hf (.has (candidate c)) (by unfold xstep; rw [hp]) (by simp) (by simp)
  | has k =>
    by_cases hd : s.dedup = none
    · exact step_read h hf (.wr k) (by unfold xstep; simp [hp, hd]) (by simp [hd]) (by simp)
    · have : s.dedup.isSome = true := Option.isSome_iff_ne_none.2 hd
      exact step_read h hf (.cmp k) (by unfold xstep; simp [hp, this]) (by simp) (fun _ _ => hd)
  | cmp k =>
    obtain ⟨d, hd⟩ := Option.ne_none_iff_exists'.1 (hf t k (.inl hp))
    by_cases hk : d ≥ k
    · exact step_read h hf (.inc k) (by unfold xstep; simp [hp, hd, hk]) (by simp) (by simp [hd])
    · refine step_read h hf (.wr k) (by unfold xstep; simp [hp, hd, hk]) (fun k' e d' hd' => ?_) (by simp)
      cases e
      rw [hd] at hd'
      cases hd'
      omega
  | inc k =>
    obtain ⟨d, hd⟩ := Option.ne_none_iff_exists'.1 (hf t k (.inr hp))
    refine step_read h hf (.wr (d + 1)) (by unfold xstep; simp [hp, hd]) (fun k' e d' hd' => ?_) (by simp)
    cases e
    rw [hd] at hd'
    cases hd'
    omega
  | wr k =>
    have e : xstep s t c = ⟨some k, setPc s.pc t .idle, s.out ++ [(t, k)]⟩ := by unfold xstep; rw [hp]
    rw [e]
    refine ⟨?_, ?_, .inr ⟨k, fun d hd => h t k hp d hd, rfl, rfl⟩⟩
    · intro u k' hu' d hd
      have hu' : setPc s.pc t .idle u = .wr k' := hu'
      by_cases e : u = t
      · subst e; rw [setPc_self] at hu'; cases hu'
      · rw [setPc_other _ _ e] at hu'
        exact absurd (hu ⟨k, hp⟩ u ⟨k', hu'⟩) e
    · intro u k' _ hd
      cases hd

/-- **C12 for calls that overlap.** Let the threads take turns in any way in which nobody sets the last id while another one, having read it for the last time, is about to set it.
Then all ids returned are strictly increasing, and so pairwise different, and larger than the last id before.  Missing: other schedules, see `C12_overlap_refuted`. -/
theorem C12_undisturbed_partial (s : XState) (hidle : ∀ t, s.pc t = .idle) (hout : s.out = []) (sched : List (Nat × Clock)) (hu : Undisturbed s sched) :
    ((xrun s sched).out.map (·.2)).Pairwise (· < ·) ∧ ∀ d, s.dedup = some d → ∀ x ∈ (xrun s sched).out, d < x.2 := by
  have key : ∀ (sched : List (Nat × Clock)) (s : XState), Ahead s → Found s → Undisturbed s sched →
      (s.out.map (·.2)).Pairwise (· < ·) → (∀ x ∈ s.out, ∃ d, s.dedup = some d ∧ x.2 ≤ d) →
      ((xrun s sched).out.map (·.2)).Pairwise (· < ·) ∧
        ∃ new, (xrun s sched).out = s.out ++ new ∧ ∀ d, s.dedup = some d → ∀ x ∈ new, d < x.2 := by
    intro sched
    induction sched with
    | nil => intro s _ _ _ h5 _; exact ⟨h5, [], by simp [xrun], by simp⟩
    | cons tc sched ih =>
      intro s h1 h2 h3 h4 h5
      obtain ⟨t, c⟩ := tc
      obtain ⟨k1, k2, k3⟩ := xstep_ahead h1 h2 t c h3.1
      rcases k3 with ⟨e1, e2⟩ | ⟨k, hk, e1, e2⟩
      · obtain ⟨r1, new, r2, r3⟩ := ih (xstep s t c) k1 k2 h3.2 (by rw [e2]; exact h4) (by rw [e1, e2]; exact h5)
        exact ⟨r1, new, by rw [← e2]; exact r2, by rw [← e1]; exact r3⟩
      · obtain ⟨r1, new, r2, r3⟩ := ih (xstep s t c) k1 k2 h3.2 (by
            rw [e2, List.map_append, List.pairwise_append]
            refine ⟨h4, by simp, fun a ha b hb => ?_⟩
            obtain ⟨x, hx, rfl⟩ := List.mem_map.1 ha
            obtain ⟨d, hd, hxd⟩ := h5 x hx
            have := hk d hd
            simp at hb
            omega) (by
            intro x hx
            rw [e2] at hx
            rcases List.mem_append.1 hx with hx | hx
            · obtain ⟨d, hd, hxd⟩ := h5 x hx
              have := hk d hd
              exact ⟨k, e1, by omega⟩
            · rw [List.mem_singleton.1 hx]
              exact ⟨k, e1, Nat.le_refl _⟩)
        refine ⟨r1, (t, k) :: new, by show (xrun (xstep s t c) sched).out = _; rw [r2, e2]; simp, fun d hd x hx => ?_⟩
        have := hk d hd
        rcases List.mem_cons.1 hx with rfl | hx
        · exact this
        · have := r3 k e1 x hx
          omega
  obtain ⟨h1, new, h2, h3⟩ := key sched s (by intro t k h; rw [hidle t] at h; cases h) (by intro t k h; rw [hidle t] at h; rcases h with h | h <;> cases h) hu
    (by simp [hout]) (by simp [hout])
  rw [hout, List.nil_append] at h2
  rw [← h2] at h3
  exact ⟨h1, h3⟩

/-- Two calls that overlap: both compare, then one after the other reads and sets. -/
example : Undisturbed ⟨some 5, fun _ => .idle, []⟩ [(1, ⟨0, 0, 0, 0⟩), (2, ⟨0, 0, 0, 0⟩), (1, ⟨0, 0, 0, 0⟩), (2, ⟨0, 0, 0, 0⟩), (1, ⟨0, 0, 0, 0⟩),
    (2, ⟨0, 0, 0, 0⟩), (1, ⟨0, 0, 0, 0⟩), (1, ⟨0, 0, 0, 0⟩), (2, ⟨0, 0, 0, 0⟩), (2, ⟨0, 0, 0, 0⟩)] ∧
    (xrun ⟨some 5, fun _ => .idle, []⟩ [(1, ⟨0, 0, 0, 0⟩), (2, ⟨0, 0, 0, 0⟩), (1, ⟨0, 0, 0, 0⟩), (2, ⟨0, 0, 0, 0⟩), (1, ⟨0, 0, 0, 0⟩),
      (2, ⟨0, 0, 0, 0⟩), (1, ⟨0, 0, 0, 0⟩), (1, ⟨0, 0, 0, 0⟩), (2, ⟨0, 0, 0, 0⟩), (2, ⟨0, 0, 0, 0⟩)]).out = [(1, 6), (2, 7)] := by
  have z : candidate ⟨0, 0, 0, 0⟩ = 0 := by decide
  refine ⟨?_, by decide⟩
  refine ⟨?_, ?_, ?_, ?_, ?_, ?_, ?_, ?_, ?_, ?_, trivial⟩
  all_goals
    rintro ⟨k, hk⟩ u ⟨j, hj⟩
    by_cases h1 : u = 1
    · subst h1; first | rfl | (exfalso; simp [xstep, setPc, z] at hj)
    · by_cases h2 : u = 2
      · subst h2; first | rfl | (exfalso; simp [xstep, setPc, z] at hj)
      · exfalso; simp [xstep, setPc, z, h1, h2] at hj

/-- A call of a thread, uninterrupted, by a clock that stands at midnight. -/
theorem xrun_midnight (s : XState) (t d : Nat) (hp : s.pc t = .idle) (hd : s.dedup = some d) :
    (xrun s (List.replicate 5 (t, ⟨0, 0, 0, 0⟩))).dedup = some (d + 1) ∧ (xrun s (List.replicate 5 (t, ⟨0, 0, 0, 0⟩))).pc t = .idle ∧
      (xrun s (List.replicate 5 (t, ⟨0, 0, 0, 0⟩))).out = s.out ++ [(t, d + 1)] := by
  have z : candidate ⟨0, 0, 0, 0⟩ = 0 := by decide
  obtain ⟨dd, pc, out⟩ := s
  simp only at hp hd
  subst hd
  simp [List.replicate, xrun, xstep, hp, setPc, z]

theorem xrun_append (s : XState) (a b : List (Nat × Clock)) : xrun s (a ++ b) = xrun (xrun s a) b := by
  induction a generalizing s with
  | nil => rfl
  | cons x a ih => obtain ⟨t, c⟩ := x; exact ih _

theorem xrun_count (n : Nat) (s : XState) (t d : Nat) (hp : s.pc t = .idle) (hd : s.dedup = some d) :
    (t, d + 1 + n) ∈ (xrun s (List.replicate (5 * (n + 1)) (t, ⟨0, 0, 0, 0⟩))).out ∧
      ∃ new, (xrun s (List.replicate (5 * (n + 1)) (t, ⟨0, 0, 0, 0⟩))).out = s.out ++ new ++ [(t, d + 1 + n)] := by
  induction n generalizing s d with
  | zero =>
    obtain ⟨_, _, h⟩ := xrun_midnight s t d hp hd
    rw [h]
    exact ⟨by simp, [], by simp⟩
  | succ n ih =>
    rw [show 5 * (n + 1 + 1) = 5 + 5 * (n + 1) by omega, List.replicate_add, xrun_append]
    obtain ⟨h1, h2, h3⟩ := xrun_midnight s t d hp hd
    obtain ⟨h4, new, h5⟩ := ih _ (d + 1) h2 h1
    rw [show d + 1 + (n + 1) = d + 1 + 1 + n by omega]
    exact ⟨h4, (t, d + 1) :: new, by rw [h5, h3]; simp⟩

/-- **C12 is false wherever it is not undisturbed**: from every state in which two threads are about to set the last id, however it came about, the threads can go on so that one
id is returned twice. -/
theorem C12_overlap_refuted (s : XState) (t u : Nat) (htu : t ≠ u) (ht : AboutToSet s t) (hu : AboutToSet s u) :
    ∃ sched v w x a b, (xrun s sched).out = s.out ++ a ++ [(v, x)] ++ b ++ [(w, x)] := by
  have two : ∀ (t u k j : Nat), t ≠ u → s.pc t = .wr k → s.pc u = .wr j → j ≤ k →
      ∃ sched v w x a b, (xrun s sched).out = s.out ++ a ++ [(v, x)] ++ b ++ [(w, x)] := by
    intro t u k j htu ht hu hle
    have e1 : xstep s t ⟨0, 0, 0, 0⟩ = ⟨some k, setPc s.pc t .idle, s.out ++ [(t, k)]⟩ := by unfold xstep; rw [ht]
    have e2 : xstep (xstep s t ⟨0, 0, 0, 0⟩) u ⟨0, 0, 0, 0⟩ = ⟨some j, setPc (setPc s.pc t .idle) u .idle, s.out ++ [(t, k)] ++ [(u, j)]⟩ := by
      rw [e1]; unfold xstep; simp only [setPc_other _ _ (Ne.symm htu), hu]
    by_cases e : j = k
    · subst e
      refine ⟨[(t, ⟨0, 0, 0, 0⟩), (u, ⟨0, 0, 0, 0⟩)], t, u, j, [], [], ?_⟩
      show (xstep (xstep s t ⟨0, 0, 0, 0⟩) u ⟨0, 0, 0, 0⟩).out = _
      rw [e2]; simp
    · obtain ⟨n, hn⟩ : ∃ n, k = j + 1 + n := ⟨k - j - 1, by omega⟩
      obtain ⟨_, new, h⟩ := xrun_count n (xstep (xstep s t ⟨0, 0, 0, 0⟩) u ⟨0, 0, 0, 0⟩) u j (by rw [e2]; exact setPc_self ..) (by rw [e2])
      refine ⟨(t, ⟨0, 0, 0, 0⟩) :: (u, ⟨0, 0, 0, 0⟩) :: List.replicate (5 * (n + 1)) (u, ⟨0, 0, 0, 0⟩), t, u, k, [], (u, j) :: new, ?_⟩
      show (xrun (xstep (xstep s t ⟨0, 0, 0, 0⟩) u ⟨0, 0, 0, 0⟩) _).out = _
      rw [h, e2, hn]
      simp
  obtain ⟨k, hk⟩ := ht
  obtain ⟨j, hj⟩ := hu
  rcases Nat.le_total j k with h | h
  · exact two t u k j htu hk hj h
  · exact two u t j k (Ne.symm htu) hj hk h

/-- Such a state is reached from the start. -/
example : AboutToSet (xrun ⟨none, fun _ => .idle, []⟩ [(1, ⟨0, 0, 0, 7⟩), (2, ⟨0, 0, 0, 0⟩), (1, ⟨0, 0, 0, 0⟩), (2, ⟨0, 0, 0, 0⟩)]) 1 ∧
    AboutToSet (xrun ⟨none, fun _ => .idle, []⟩ [(1, ⟨0, 0, 0, 7⟩), (2, ⟨0, 0, 0, 0⟩), (1, ⟨0, 0, 0, 0⟩), (2, ⟨0, 0, 0, 0⟩)]) 2 :=
  ⟨⟨_, rfl⟩, ⟨_, rfl⟩⟩

end Twink
