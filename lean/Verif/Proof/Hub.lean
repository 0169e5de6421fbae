import Verif.Spec.Hub

/-! Invariants of the switching hub. -/

namespace Twink.Hub

theorem src_six {f : Frame} (h : f.dst.length = 6 ∧ f.src.length = 6) : (f.data.drop 6).take 6 = f.src := by
  rw [Frame.data, ← h.1, List.drop_left, h.1, ← h.2, List.take_left]

theorem lookup_mem {h : Bytes} {p : Nat} : ∀ {l : List (Bytes × Nat)}, l.lookup h = some p → (h, p) ∈ l
  | [], hl => by cases hl
  | (a, b) :: l, hl => by
    rw [List.lookup_cons] at hl
    split at hl
    · rename_i hh
      rw [beq_iff_eq] at hh
      cases hl
      rw [hh]
      exact List.mem_cons_self
    · exact List.mem_cons_of_mem _ (lookup_mem hl)

theorem lookup_other {h m : Bytes} (hm : h ≠ m) : ∀ (l : List (Bytes × Nat)), (l.filter (·.1 ≠ m)).lookup h = l.lookup h
  | [] => rfl
  | (a, b) :: l => by
    have ih := lookup_other hm l
    rw [List.filter_cons]
    split
    · rw [List.lookup_cons, List.lookup_cons, ih]
    · rename_i hh
      simp only [ne_eq, decide_not, Bool.not_eq_true', decide_eq_false_iff_not, Decidable.not_not] at hh
      rw [List.lookup_cons, show (h == a) = false from beq_eq_false_iff_ne.2 (fun e => hm (e.trans hh)), ih]

theorem lookup_put {h m : Bytes} {q : Nat} (l : List (Bytes × Nat)) :
    ((m, q) :: l.filter (·.1 ≠ m)).lookup h = if h = m then some q else l.lookup h := by
  rw [List.lookup_cons]
  by_cases c : h = m
  · simp [c]
  · rw [beq_eq_false_iff_ne.2 c, if_neg c]
    exact lookup_other c l

theorem run_append (s : Hub) (l k : List Event) : s.run (l ++ k) = (s.run l).run k := by
  rw [Hub.run, List.foldl_append]; rfl

theorem mem_erase {t : Task} {l : List Task} {i : Nat} (h : t ∈ l.eraseIdx i) : t ∈ l := List.mem_of_mem_eraseIdx h

/-! ## Entries are of what has been seen -/

structure True0 (l : List Event) (s : Hub) : Prop where
  tasks : ∀ t ∈ s.tasks, SeenAt l t.mac t.port
  t0 : ∀ x ∈ s.t0, SeenAt l x.1 x.2
  t1 : ∀ x ∈ s.t1, SeenAt l x.1 x.2

theorem SeenAt.more {l : List Event} {h : Bytes} {p : Nat} (e : Event) (hs : SeenAt l h p) : SeenAt (l ++ [e]) h p := by
  obtain ⟨f, a, b⟩ := hs
  exact ⟨f, List.mem_append_left _ a, b⟩

theorem true0_next {l : List Event} {s : Hub} (h : True0 l s) (e : Event) (he : e.Six) : True0 (l ++ [e]) (s.next e) := by
  have h' : True0 (l ++ [e]) s := ⟨fun t ht => (h.tasks t ht).more e, fun x hx => (h.t0 x hx).more e, fun x hx => (h.t1 x hx).more e⟩
  cases e with
  | setup ports =>
    simp only [Hub.next, Hub.setup]
    split <;> exact ⟨h'.tasks, h'.t0, h'.t1⟩
  | frame f =>
    simp only [Hub.next, Hub.frame]
    split
    · exact h'
    · split
      · refine ⟨?_, h'.t0, h'.t1⟩
        intro t ht
        rw [List.mem_append, List.mem_singleton] at ht
        rcases ht with ht | rfl
        · exact h'.tasks t ht
        · exact ⟨f, by simp, (src_six he).symm, rfl⟩
      · exact h'
  | step i =>
    simp only [Hub.next, Hub.step]
    split
    · exact h'
    · rename_i t ht
      have ht' := List.mem_of_getElem? ht
      have hseen := h'.tasks t ht'
      have hset : ∀ d, ∀ u ∈ s.tasks.set i { t with done := d }, SeenAt (l ++ [Event.step i]) u.mac u.port := by
        intro d u hu
        rcases List.mem_or_eq_of_mem_set hu with hu | rfl
        · exact h'.tasks u hu
        · exact hseen
      split
      · refine ⟨hset 1, ?_, h'.t1⟩
        intro x hx
        split at hx
        · exact h'.t0 x hx
        · rcases List.mem_cons.1 hx with rfl | hx
          · exact hseen
          · exact h'.t0 x hx
      · refine ⟨hset 2, h'.t0, ?_⟩
        intro x hx
        rcases List.mem_cons.1 hx with rfl | hx
        · exact hseen
        · exact h'.t1 x (List.mem_filter.1 hx).1
      · exact ⟨fun u hu => h'.tasks u (mem_erase hu), h'.t0, h'.t1⟩
  | idle0 mac port => exact ⟨h'.tasks, fun x hx => h'.t0 x (List.mem_filter.1 hx).1, h'.t1⟩
  | idle1 mac => exact ⟨h'.tasks, h'.t0, fun x hx => h'.t1 x (List.mem_filter.1 hx).1⟩

theorem true0_run (l : List Event) : ∀ {k : List Event} {s : Hub}, True0 k s → (∀ e ∈ l, e.Six) → True0 (k ++ l) (s.run l) := by
  induction l with
  | nil => intro k s h _; rw [List.append_nil]; exact h
  | cons e l ih =>
    intro k s h he
    have := ih (true0_next h e (he e (by simp))) (fun x hx => he x (by simp [hx]))
    rw [List.append_assoc] at this
    exact this

theorem true0 (l : List Event) (h : ∀ e ∈ l, e.Six) : True0 l (start.run l) :=
  true0_run l (k := []) ⟨by simp [start], by simp [start], by simp [start]⟩ h

/-! ## The stage -/

theorem stage_next (s : Hub) (e : Event) : s.stage ≤ (s.next e).stage := by
  cases e with
  | setup ports => simp only [Hub.next, Hub.setup]; split <;> simp_all
  | frame f =>
    simp only [Hub.next, Hub.frame]
    split
    · simp
    · split <;> simp
  | step i =>
    simp only [Hub.next, Hub.step]
    split
    · simp
    · split <;> simp
  | idle0 mac port => simp [Hub.next]
  | idle1 mac => simp [Hub.next]

theorem stage_run (s : Hub) (l : List Event) : s.stage ≤ (s.run l).stage := by
  induction l generalizing s with
  | nil => exact Nat.le_refl _
  | cons e l ih => exact Nat.le_trans (stage_next s e) (ih _)

theorem group_next (s : Hub) (e : Event) (h : 1 ≤ s.stage) : (s.next e).group = s.group := by
  cases e with
  | setup ports => simp only [Hub.next, Hub.setup]; split <;> simp_all
  | frame f =>
    simp only [Hub.next, Hub.frame]
    split
    · rfl
    · split <;> rfl
  | step i =>
    simp only [Hub.next, Hub.step]
    split
    · rfl
    · split <;> rfl
  | idle0 mac port => rfl
  | idle1 mac => rfl

theorem group_run (l : List Event) (s : Hub) (h : 1 ≤ s.stage) : (s.run l).group = s.group := by
  induction l generalizing s with
  | nil => rfl
  | cons e l ih => exact (ih (s.next e) (Nat.le_trans h (stage_next s e))).trans (group_next s e h)

/-- Before HELLO nothing but time passes. -/
theorem group_ports (l : List Event) (s : Hub) (h : s.stage = 0) (hr : 1 ≤ (s.run l).stage) : portsAtHello l = some (s.run l).group := by
  induction l generalizing s with
  | nil => exact absurd hr (by rw [show s.run [] = s from rfl, h]; omega)
  | cons e l ih =>
    have hq : (∀ ports, e ≠ .setup ports) → (s.next e).stage = 0 := by
      intro hne
      cases e with
      | setup ports => exact absurd rfl (hne ports)
      | frame f =>
        simp only [Hub.next, Hub.frame]
        split
        · exact h
        · split <;> exact h
      | step i =>
        simp only [Hub.next, Hub.step]
        split
        · exact h
        · split <;> exact h
      | idle0 mac port => exact h
      | idle1 mac => exact h
    cases e with
    | setup ports =>
      have h1 : s.next (.setup ports) = { s with stage := 1, group := ports } := by simp only [Hub.next, Hub.setup, h]
      show some ports = some ((s.next (.setup ports)).run l).group
      rw [group_run l _ (by rw [h1]; exact Nat.le_refl _), h1]
    | frame f => exact ih _ (hq (by simp)) hr
    | step i => exact ih _ (hq (by simp)) hr
    | idle0 mac port => exact ih _ (hq (by simp)) hr
    | idle1 mac => exact ih _ (hq (by simp)) hr

/-! ## A host that has been learnt, or is about to be -/

structure Learning (h : Bytes) (p : Nat) (s : Hub) : Prop where
  tasks : ∀ t ∈ s.tasks, t.mac = h → t.port = p
  got : s.t1.lookup h = some p ∨ ∃ t ∈ s.tasks, t.mac = h ∧ t.done ≤ 1

theorem learning_next {h : Bytes} {p : Nat} {s : Hub} (hl : Learning h p s) (e : Event) (he : e.Six) (ho : Only h p [e]) (h1 : e ≠ .idle1 h) :
    Learning h p (s.next e) := by
  cases e with
  | setup ports =>
    simp only [Hub.next, Hub.setup]
    split <;> exact ⟨hl.tasks, hl.got⟩
  | frame f =>
    simp only [Hub.next, Hub.frame]
    split
    · exact hl
    · split
      · refine ⟨?_, hl.got.imp id fun ⟨t, a, b⟩ => ⟨t, List.mem_append_left _ a, b⟩⟩
        intro t ht hm
        rw [List.mem_append, List.mem_singleton] at ht
        rcases ht with ht | rfl
        · exact hl.tasks t ht hm
        · exact ho f (by simp) ((src_six he).symm.trans hm)
      · exact hl
  | step i =>
    simp only [Hub.next, Hub.step]
    split
    · exact hl
    · rename_i t ht
      have ht' := List.mem_of_getElem? ht
      have hset : ∀ d, ∀ u ∈ s.tasks.set i { t with done := d }, u.mac = h → u.port = p := by
        intro d u hu hm
        rcases List.mem_or_eq_of_mem_set hu with hu | rfl
        · exact hl.tasks u hu hm
        · exact hl.tasks t ht' hm
      have hi : i < s.tasks.length := (List.getElem?_eq_some_iff.1 ht).1
      have hkeep : ∀ d, ∀ u ∈ s.tasks, u ≠ t → u ∈ s.tasks.set i { t with done := d } := by
        intro d u hu hne
        obtain ⟨j, hj, rfl⟩ := List.getElem_of_mem hu
        have hij : i ≠ j := by
          rintro rfl
          exact hne (Option.some.inj ((List.getElem?_eq_getElem hj).symm.trans ht))
        exact List.mem_iff_getElem.2 ⟨j, by simpa using hj, by simp [hij]⟩
      have hnew : ∀ d, ({ t with done := d } : Task) ∈ s.tasks.set i { t with done := d } :=
        fun d => List.mem_iff_getElem.2 ⟨i, by simpa using hi, by simp⟩
      split
      · refine ⟨hset 1, hl.got.imp id ?_⟩
        rintro ⟨u, a, b, c⟩
        by_cases hu : u = t
        · exact ⟨_, hnew 1, hu ▸ b, Nat.le_refl _⟩
        · exact ⟨u, hkeep 1 u a hu, b, c⟩
      · refine ⟨hset 2, ?_⟩
        show List.lookup h ((t.mac, t.port) :: s.t1.filter (·.1 ≠ t.mac)) = some p ∨ _
        rw [lookup_put]
        by_cases hm : h = t.mac
        · exact .inl (by rw [if_pos hm, hl.tasks t ht' hm.symm])
        · rw [if_neg hm]
          refine hl.got.imp id ?_
          rintro ⟨u, a, b, c⟩
          exact ⟨u, hkeep 2 u a (fun hu => hm (hu ▸ b.symm)), b, c⟩
      · rename_i h0 h1'
        refine ⟨fun u hu => hl.tasks u (mem_erase hu), hl.got.imp id ?_⟩
        rintro ⟨u, a, b, c⟩
        refine ⟨u, ?_, b, c⟩
        obtain ⟨j, hj, rfl⟩ := List.getElem_of_mem a
        refine List.mem_eraseIdx_iff_getElem.2 ⟨j, hj, ?_, rfl⟩
        rintro rfl
        have : s.tasks[j] = t := Option.some.inj ((List.getElem?_eq_getElem hj).symm.trans ht)
        rw [this] at c
        rcases Nat.le_one_iff_eq_zero_or_eq_one.1 c with c | c
        · exact h0 c
        · exact h1' c
  | idle0 mac port => exact ⟨hl.tasks, hl.got⟩
  | idle1 mac =>
    refine ⟨hl.tasks, ?_⟩
    show List.lookup h (s.t1.filter (·.1 ≠ mac)) = some p ∨ _
    rw [lookup_other (fun hh => h1 (by rw [hh]))]
    exact hl.got

theorem learning_run {h : Bytes} {p : Nat} (l : List Event) {s : Hub} (hl : Learning h p s) (he : ∀ e ∈ l, e.Six) (ho : Only h p l) (h1 : Event.idle1 h ∉ l) :
    Learning h p (s.run l) := by
  induction l generalizing s with
  | nil => exact hl
  | cons e l ih =>
    refine ih (learning_next hl e (he e (by simp)) ?_ ?_) (fun x hx => he x (by simp [hx])) ?_ ?_
    · intro f hf; exact ho f (by simp at hf; simp [hf])
    · intro hh; exact h1 (by simp [hh])
    · intro f hf; exact ho f (by simp [hf])
    · intro hh; exact h1 (by simp [hh])

/-! ## A host that is not learnt -/

/-- Table 0 knows the host at `p`, table 1 has `r`. -/
structure Stuck (h : Bytes) (p : Nat) (r : Option Nat) (s : Hub) : Prop where
  known : (h, p) ∈ s.t0
  tasks : ∀ t ∈ s.tasks, t.mac ≠ h
  has : s.t1.lookup h = r

theorem stuck_next {h : Bytes} {p : Nat} {r : Option Nat} {s : Hub} (hs : Stuck h p r s) (e : Event) (he : e.Six) (ho : Only h p [e]) (h0 : e ≠ .idle0 h p)
    (h1 : e ≠ .idle1 h) : Stuck h p r (s.next e) := by
  cases e with
  | setup ports =>
    simp only [Hub.next, Hub.setup]
    split <;> exact ⟨hs.known, hs.tasks, hs.has⟩
  | frame f =>
    simp only [Hub.next, Hub.frame]
    split
    · exact hs
    · rename_i hn
      split
      · refine ⟨hs.known, ?_, hs.has⟩
        intro t ht
        rw [List.mem_append, List.mem_singleton] at ht
        rcases ht with ht | rfl
        · exact hs.tasks t ht
        · intro hm
          have hm : f.src = h := (src_six he).symm.trans hm
          have := ho f (by simp) hm
          exact hn (by rw [hm, this]; exact hs.known)
      · exact hs
  | step i =>
    simp only [Hub.next, Hub.step]
    split
    · exact hs
    · rename_i t ht
      have ht' := List.mem_of_getElem? ht
      have hm := hs.tasks t ht'
      have hset : ∀ d, ∀ u ∈ s.tasks.set i { t with done := d }, u.mac ≠ h := by
        intro d u hu
        rcases List.mem_or_eq_of_mem_set hu with hu | rfl
        · exact hs.tasks u hu
        · exact hm
      split
      · refine ⟨?_, hset 1, hs.has⟩
        show (h, p) ∈ (if _ then _ else _)
        split
        · exact hs.known
        · exact List.mem_cons_of_mem _ hs.known
      · refine ⟨hs.known, hset 2, ?_⟩
        show List.lookup h ((t.mac, t.port) :: s.t1.filter (·.1 ≠ t.mac)) = r
        rw [lookup_put, if_neg (Ne.symm hm)]
        exact hs.has
      · exact ⟨hs.known, fun u hu => hs.tasks u (mem_erase hu), hs.has⟩
  | idle0 mac port =>
    refine ⟨List.mem_filter.2 ⟨hs.known, ?_⟩, hs.tasks, hs.has⟩
    simp only [ne_eq, Prod.mk.injEq, decide_not, Bool.not_eq_true', decide_eq_false_iff_not]
    rintro ⟨a, b⟩
    exact h0 (by rw [a, b])
  | idle1 mac =>
    refine ⟨hs.known, hs.tasks, ?_⟩
    show List.lookup h (s.t1.filter (·.1 ≠ mac)) = r
    rw [lookup_other (fun hh => h1 (by rw [hh]))]
    exact hs.has

theorem stuck_run {h : Bytes} {p : Nat} {r : Option Nat} (l : List Event) {s : Hub} (hs : Stuck h p r s) (he : ∀ e ∈ l, e.Six) (ho : Only h p l)
    (h0 : Event.idle0 h p ∉ l) (h1 : Event.idle1 h ∉ l) : Stuck h p r (s.run l) := by
  induction l generalizing s with
  | nil => exact hs
  | cons e l ih =>
    refine ih (stuck_next hs e (he e (by simp)) ?_ ?_ ?_) (fun x hx => he x (by simp [hx])) ?_ ?_ ?_
    · intro f hf; exact ho f (by simp at hf; simp [hf])
    · intro hh; exact h0 (by simp [hh])
    · intro hh; exact h1 (by simp [hh])
    · intro f hf; exact ho f (by simp [hf])
    · intro hh; exact h0 (by simp [hh])
    · intro hh; exact h1 (by simp [hh])

end Twink.Hub
