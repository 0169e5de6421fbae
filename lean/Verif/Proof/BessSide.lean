import Verif.Spec.BessSide
import Verif.Props.Agent

/-!
# Lemmas on the datapath of the software switch
-/

namespace Twink.BessSide

theorem call_spec (w : World) (c : Call) :
    (∃ e, call w c = (⟨w.bess, w.ans.tail, w.log ++ [(c, some e)]⟩, some e)) ∨
    (possible w.bess c = true ∧ call w c = (⟨effect w.bess c, w.ans.tail, w.log ++ [(c, none)]⟩, none)) := by
  unfold call
  split
  · exact .inl ⟨_, rfl⟩
  · by_cases h : possible w.bess c = true
    · rw [if_pos h]; exact .inr ⟨h, rfl⟩
    · rw [if_neg h]; exact .inl ⟨_, rfl⟩

/-- What every call keeps, a run keeps. -/
theorem run_inv {P : Bess → Prop} : ∀ (cs : List Call) (w : World),
    (∀ c ∈ cs, ∀ b, P b → possible b c = true → P (effect b c)) → P w.bess → P (run w cs).1.bess
  | [], _, _, h => h
  | c :: cs, w, hc, h => by
    unfold run
    rcases call_spec w c with ⟨e, hw⟩ | ⟨hp, hw⟩ <;> rw [hw]
    · exact h
    · exact run_inv cs _ (fun c' h' => hc c' (by simp [h'])) (hc c (by simp) _ h hp)

theorem call_inv {P : Bess → Prop} (w : World) (c : Call) (hc : ∀ b, P b → possible b c = true → P (effect b c))
    (h : P w.bess) : P (call w c).1.bess := by
  rcases call_spec w c with ⟨e, hw⟩ | ⟨hp, hw⟩ <;> rw [hw]
  · exact h
  · exact hc _ h hp

theorem init_inv {P : Bess → Prop} (w : World) (n : Name)
    (h1 : ∀ c ∈ initTry n, ∀ b, P b → possible b c = true → P (effect b c))
    (h2 : ∀ c ∈ initElse n, ∀ b, P b → possible b c = true → P (effect b c)) (h : P w.bess) : P (initPkt w n).1.bess := by
  have hr : ∀ b, P b → possible b .resumeAll = true → P (effect b .resumeAll) := h2 _ (by simp [initElse])
  unfold initPkt
  by_cases hn : n = brInt
  · rw [if_pos hn]; exact h
  rw [if_neg hn]
  have a := run_inv (initTry n) w h1 h
  generalize run w (initTry n) = r at a
  obtain ⟨w1, x⟩ := r
  cases x with
  | none =>
    have c := run_inv (initElse n) w1 h2 a
    dsimp only
    generalize run w1 (initElse n) = r at c
    obtain ⟨w2, x⟩ := r
    cases x <;> exact c
  | some e =>
    have c := call_inv w1 .resumeAll hr a
    cases e
    all_goals dsimp only
    all_goals try exact a
    all_goals
      generalize call w1 .resumeAll = r at c
      obtain ⟨w2, x⟩ := r
      cases x <;> exact c

theorem deinit_inv {P : Bess → Prop} (w : World) (n : Name)
    (h1 : ∀ c ∈ deinitTry n, ∀ b, P b → possible b c = true → P (effect b c)) (h : P w.bess) : P (deinitPkt w n).1.bess := by
  have hr : ∀ b, P b → possible b .resumeAll = true → P (effect b .resumeAll) := h1 _ (by simp [deinitTry])
  unfold deinitPkt
  by_cases hn : n = brInt
  · rw [if_pos hn]; exact h
  rw [if_neg hn]
  have a := run_inv (deinitTry n) w h1 h
  generalize run w (deinitTry n) = r at a
  obtain ⟨w1, x⟩ := r
  cases x with
  | none => exact a
  | some e =>
    cases e
    · exact call_inv w1 .resumeAll hr a
    · exact a
    · exact a

theorem add_inv {P : Bess → Prop} (rnd : Nat) (w : World) (st : Agent.St) (n mac : Bytes)
    (h0 : ∀ b, P b → possible b (.createPort n) = true → P (effect b (.createPort n)))
    (h1 : ∀ c ∈ initTry n, ∀ b, P b → possible b c = true → P (effect b c))
    (h2 : ∀ c ∈ initElse n, ∀ b, P b → possible b c = true → P (effect b c)) (h : P w.bess) :
    P (addPort rnd w st n mac).1.bess := by
  unfold addPort
  by_cases hn : st.lastNo + 1 = 0xfffffffe
  · rw [if_pos hn]; exact h
  rw [if_neg hn]
  have a := call_inv w _ h0 h
  generalize call w (.createPort n) = r at a
  obtain ⟨w1, x⟩ := r
  cases x with
  | some e => exact a
  | none =>
    have c := init_inv w1 n h1 h2 a
    dsimp only
    generalize initPkt w1 n = r at c
    obtain ⟨w2, x⟩ := r
    cases x <;> exact c

theorem del_inv {P : Bess → Prop} (o : Agent.Order) (rnd : Nat) (w : World) (st : Agent.St) (n : Bytes)
    (h0 : ∀ b, P b → possible b (.destroyPort n) = true → P (effect b (.destroyPort n)))
    (h1 : ∀ c ∈ deinitTry n, ∀ b, P b → possible b c = true → P (effect b c)) (h : P w.bess) :
    P (delPort o rnd w st n).1.bess := by
  unfold delPort
  split
  · exact h
  · split
    · exact h
    · have c := deinit_inv w n h1 h
      generalize deinitPkt w n = r at c
      obtain ⟨w1, x⟩ := r
      cases x with
      | some e => exact c
      | none =>
        have a := call_inv w1 _ h0 c
        dsimp only
        generalize call w1 (.destroyPort n) = r at a
        obtain ⟨w2, x⟩ := r
        cases x <;> exact a

/-! ## The names -/

theorem pkt_inj {a b : Name} : pkt a = pkt b ↔ a = b := by simp [pkt]
theorem pi_inj {a b : Name} : pi a = pi b ↔ a = b := by simp [pi, pkt]
theorem po_inj {a b : Name} : po a = po b ↔ a = b := by simp [po]
theorem pi_ne_po (a b : Name) : pi a ≠ po b := by simp [pi, po, pkt]
theorem pkt_ne (a : Name) : pkt a ≠ a := by
  intro h; have := congrArg List.length h; simp [pkt] at this; omega

/-! ## The workers -/

/-- Paused, and not resumed since. -/
def Halted (w : World) : Prop :=
  w.bess.running = false ∧ (Call.pauseAll, none) ∈ w.log ∧ (Call.resumeAll, none) ∉ w.log

/-- Paused and resumed. -/
def Resumed (w : World) : Prop :=
  w.bess.running = true ∧ (Call.pauseAll, none) ∈ w.log ∧ (Call.resumeAll, none) ∈ w.log

/-- Never paused. -/
def Never (w : World) : Prop := w.bess.running = true ∧ (Call.pauseAll, none) ∉ w.log

theorem run_append : ∀ (as bs : List Call) (w : World), run w (as ++ bs) =
    match run w as with
    | (w', none) => run w' bs
    | (w', some e) => (w', some e)
  | [], _, _ => rfl
  | a :: as, bs, w => by
    simp only [List.cons_append, run]
    rcases call_spec w a with ⟨e, hw⟩ | ⟨_, hw⟩ <;> rw [hw]
    exact run_append as bs _

theorem effect_running {b : Bess} {c : Call} (h1 : c ≠ .pauseAll) (h2 : c ≠ .resumeAll) :
    (effect b c).running = b.running := by
  cases c <;> simp_all [effect]

theorem halted_call {w : World} (h : Halted w) {c : Call} (h1 : c ≠ .pauseAll) (h2 : c ≠ .resumeAll) :
    Halted (call w c).1 ∧ ∀ e, (call w c).2 = some e → (c, some e) ∈ (call w c).1.log := by
  obtain ⟨a, b, d⟩ := h
  rcases call_spec w c with ⟨e, hw⟩ | ⟨_, hw⟩ <;> rw [hw]
  · refine ⟨⟨a, by simp [b], by simp [d]⟩, ?_⟩
    intro e' he; simp at he; simp [he]
  · refine ⟨⟨by rw [← a]; exact effect_running h1 h2, by simp [b], by simp [d, Ne.symm h2]⟩, by simp⟩

theorem halted_run : ∀ (cs : List Call) {w : World}, Halted w → (∀ c ∈ cs, c ≠ .pauseAll ∧ c ≠ .resumeAll) →
    Halted (run w cs).1 ∧ ∀ e, (run w cs).2 = some e → ∃ c ∈ cs, (c, some e) ∈ (run w cs).1.log
  | [], _, h, _ => ⟨h, by simp [run]⟩
  | c :: cs, w, h, hc => by
    obtain ⟨h1, h2⟩ := hc c (by simp)
    have a := halted_call h h1 h2
    unfold run
    generalize call w c = r at a
    obtain ⟨w1, x⟩ := r
    cases x with
    | some e =>
      exact ⟨a.1, fun e' he => ⟨c, by simp, a.2 e' he⟩⟩
    | none =>
      obtain ⟨b1, b2⟩ := halted_run cs (w := w1) a.1 (fun c' h' => hc c' (by simp [h']))
      refine ⟨b1, fun e he => ?_⟩
      obtain ⟨c', hc', hm⟩ := b2 e he
      exact ⟨c', by simp [hc'], hm⟩

theorem halted_resume {w : World} (h : Halted w) :
    ((∃ e, (call w .resumeAll).2 = some e ∧ (Call.resumeAll, some e) ∈ (call w .resumeAll).1.log) ∧ Halted (call w .resumeAll).1) ∨
    ((call w .resumeAll).2 = none ∧ Resumed (call w .resumeAll).1) := by
  obtain ⟨a, b, d⟩ := h
  rcases call_spec w .resumeAll with ⟨e, hw⟩ | ⟨_, hw⟩ <;> rw [hw]
  · exact .inl ⟨⟨e, rfl, by simp⟩, ⟨a, by simp [b], by simp [d]⟩⟩
  · exact .inr ⟨rfl, ⟨rfl, by simp [b], by simp⟩⟩

theorem never_call {w : World} (h : Never w) {c : Call} (h1 : c ≠ .pauseAll) : Never (call w c).1 := by
  obtain ⟨a, b⟩ := h
  rcases call_spec w c with ⟨e, hw⟩ | ⟨_, hw⟩ <;> rw [hw]
  · exact ⟨a, by simp [b]⟩
  · refine ⟨?_, by simp [b, Ne.symm h1]⟩
    by_cases h2 : c = .resumeAll
    · subst h2; rfl
    · rw [← a]; exact effect_running h1 h2

theorem never_pause {w : World} (h : Never w) (hz : (Call.resumeAll, none) ∉ w.log) :
    ((∃ e, (call w .pauseAll).2 = some e) ∧ Never (call w .pauseAll).1) ∨
    ((call w .pauseAll).2 = none ∧ Halted (call w .pauseAll).1) := by
  obtain ⟨a, b⟩ := h
  rcases call_spec w .pauseAll with ⟨e, hw⟩ | ⟨_, hw⟩ <;> rw [hw]
  · exact .inl ⟨⟨e, rfl⟩, ⟨a, by simp [b]⟩⟩
  · exact .inr ⟨rfl, ⟨rfl, by simp, by simp [hz]⟩⟩

theorem init_states {w : World} (h : Never w) (hz : (Call.resumeAll, none) ∉ w.log) (n : Name) :
    (Halted (initPkt w n).1 ∧ (∃ e, (initPkt w n).2 = .error e) ∧ ∃ x ∈ (initPkt w n).1.log, ¬ Handled x) ∨
    (Resumed (initPkt w n).1 ∧ ∃ s, (initPkt w n).2 = .ok s) ∨ Never (initPkt w n).1 := by
  unfold initPkt
  by_cases hn : n = brInt
  · rw [if_pos hn]; exact .inr (.inr h)
  rw [if_neg hn]
  have hp : run w (initTry n) =
      match call w .pauseAll with
      | (w', some e) => (w', some e)
      | (w', none) => run w' [.createPort (pkt n), .connectSocket (pkt n)] := rfl
  rw [hp]; clear hp
  have a := never_pause h hz
  generalize call w .pauseAll = r at a
  obtain ⟨w1, x⟩ := r
  rcases a with ⟨⟨e, rfl⟩, a⟩ | ⟨hx, a⟩
  · have c := never_call a (c := .resumeAll) (by simp)
    refine .inr (.inr ?_)
    cases e
    all_goals dsimp only
    all_goals try exact a
    all_goals
      generalize call w1 .resumeAll = r at c
      obtain ⟨w2, x⟩ := r
      cases x <;> exact c
  · subst hx
    dsimp only at a ⊢
    have b := halted_run [.createPort (pkt n), .connectSocket (pkt n)] a (by simp)
    generalize run w1 [.createPort (pkt n), .connectSocket (pkt n)] = r at b
    obtain ⟨w2, x⟩ := r
    cases x with
    | some e =>
      obtain ⟨b1, b2⟩ := b
      obtain ⟨c, hc, hm⟩ := b2 e rfl
      have d := halted_resume b1
      cases e
      case other =>
        refine .inl ⟨b1, ⟨_, rfl⟩, _, hm, ?_⟩
        simp only [List.mem_cons, List.not_mem_nil, or_false] at hc
        rcases hc with rfl | rfl <;> simp [Handled]
      all_goals
        dsimp only
        generalize call w2 .resumeAll = r at d
        obtain ⟨w3, x⟩ := r
        rcases d with ⟨⟨e', he, hm'⟩, d⟩ | ⟨he, d⟩
        · simp only at he; subst he
          exact .inl ⟨d, ⟨_, rfl⟩, _, hm', by simp [Handled]⟩
        · simp only at he; subst he
          exact .inr (.inl ⟨d, _, rfl⟩)
    | none =>
      obtain ⟨b1, -⟩ := b
      dsimp only
      have hq : run w2 (initElse n) =
        match run w2 (if n = vxlan then [] else [.createModule ⟨true, pi n, pkt n⟩, .createModule ⟨false, po n, n⟩,
            .connectModules (pi n) (po n)]) with
        | (w', none) => run w' [.resumeAll]
        | (w', some e) => (w', some e) := run_append _ _ _
      rw [hq]; clear hq
      have hl : ∀ c ∈ (if n = vxlan then [] else [Call.createModule ⟨true, pi n, pkt n⟩, .createModule ⟨false, po n, n⟩,
            .connectModules (pi n) (po n)]), (c ≠ .pauseAll ∧ c ≠ .resumeAll) ∧ ∀ e, ¬ Handled (c, some e) := by
        intro c hc
        split at hc
        · simp at hc
        · simp only [List.mem_cons, List.not_mem_nil, or_false] at hc
          rcases hc with rfl | rfl | rfl <;> simp [Handled]
      generalize (if n = vxlan then [] else [Call.createModule ⟨true, pi n, pkt n⟩, .createModule ⟨false, po n, n⟩,
            .connectModules (pi n) (po n)]) = cs at hl
      have d := halted_run cs b1 (fun c hc => (hl c hc).1)
      generalize run w2 cs = r at d
      obtain ⟨w3, x⟩ := r
      cases x with
      | some e =>
        obtain ⟨d1, d2⟩ := d
        obtain ⟨c, hc, hm⟩ := d2 e rfl
        exact .inl ⟨d1, ⟨_, rfl⟩, _, hm, (hl c hc).2 e⟩
      | none =>
        have f := halted_resume d.1
        dsimp only [run]
        generalize call w3 .resumeAll = r at f
        obtain ⟨w4, x⟩ := r
        rcases f with ⟨⟨e', he, hm'⟩, f⟩ | ⟨he, f⟩
        · simp only at he; subst he
          exact .inl ⟨f, ⟨_, rfl⟩, _, hm', by simp [Handled]⟩
        · simp only at he; subst he
          exact .inr (.inl ⟨f, _, rfl⟩)

theorem deinit_states {w : World} (h : Never w) (hz : (Call.resumeAll, none) ∉ w.log) (n : Name) :
    (Halted (deinitPkt w n).1 ∧ (∃ e, (deinitPkt w n).2 = some e) ∧ ∃ x ∈ (deinitPkt w n).1.log, ¬ Handled x) ∨
    (Resumed (deinitPkt w n).1 ∧ (deinitPkt w n).2 = none) ∨ Never (deinitPkt w n).1 := by
  unfold deinitPkt
  by_cases hn : n = brInt
  · rw [if_pos hn]; exact .inr (.inr h)
  rw [if_neg hn]
  have hl : ∀ c ∈ (if n = vxlan then [] else [Call.disconnect (pi n), .destroyModule (pi n), .destroyModule (po n),
      .destroyPort (pkt n)]), (c ≠ .pauseAll ∧ c ≠ .resumeAll) ∧ ∀ e, e ≠ .api → ¬ Handled (c, some e) := by
    intro c hc
    split at hc
    · simp at hc
    · simp only [List.mem_cons, List.not_mem_nil, or_false] at hc
      rcases hc with rfl | rfl | rfl | rfl <;> simp [Handled]
  have hp : run w (deinitTry n) =
      match call w .pauseAll with
      | (w', some e) => (w', some e)
      | (w', none) => run w' ((if n = vxlan then [] else [Call.disconnect (pi n), .destroyModule (pi n), .destroyModule (po n),
      .destroyPort (pkt n)]) ++ [.resumeAll]) := by
    simp only [deinitTry, List.append_assoc, List.cons_append, List.nil_append]; rfl
  rw [hp]; clear hp
  generalize (if n = vxlan then [] else [Call.disconnect (pi n), .destroyModule (pi n), .destroyModule (po n),
      .destroyPort (pkt n)]) = cs at hl
  have a := never_pause h hz
  generalize call w .pauseAll = r at a
  obtain ⟨w1, x⟩ := r
  have last : ∀ {w : World}, Halted w → (Halted (call w .resumeAll).1 ∧ (∃ e, (call w .resumeAll).2 = some e) ∧
      ∃ x ∈ (call w .resumeAll).1.log, ¬ Handled x) ∨ (Resumed (call w .resumeAll).1 ∧ (call w .resumeAll).2 = none) ∨
      Never (call w .resumeAll).1 := by
    intro w hw
    rcases halted_resume hw with ⟨⟨e', he, hm'⟩, f⟩ | ⟨he, f⟩
    · exact .inl ⟨f, ⟨_, he⟩, _, hm', by simp [Handled]⟩
    · exact .inr (.inl ⟨f, he⟩)
  rcases a with ⟨⟨e, he⟩, a⟩ | ⟨hx, a⟩
  · simp only at he; subst he
    refine .inr (.inr ?_)
    cases e
    · exact never_call a (by simp)
    · exact a
    · exact a
  · simp only at hx; subst hx
    dsimp only at a ⊢
    rw [run_append]
    have d := halted_run cs a (fun c hc => (hl c hc).1)
    generalize run w1 cs = r at d
    obtain ⟨w3, x⟩ := r
    cases x with
    | some e =>
      obtain ⟨d1, d2⟩ := d
      obtain ⟨c, hc, hm⟩ := d2 e rfl
      cases e
      · exact last d1
      · exact .inl ⟨d1, ⟨_, rfl⟩, _, hm, (hl c hc).2 _ (by simp)⟩
      · exact .inl ⟨d1, ⟨_, rfl⟩, _, hm, (hl c hc).2 _ (by simp)⟩
    | none =>
      have f := halted_resume d.1
      dsimp only [run]
      generalize call w3 .resumeAll = r at f
      obtain ⟨w4, x⟩ := r
      rcases f with ⟨⟨e', he, hm'⟩, f⟩ | ⟨he, f⟩
      · simp only at he; subst he
        cases e'
        · exact last f
        · exact .inl ⟨f, ⟨_, rfl⟩, _, hm', by simp [Handled]⟩
        · exact .inl ⟨f, ⟨_, rfl⟩, _, hm', by simp [Handled]⟩
      · simp only at he; subst he
        exact .inr (.inl ⟨f, rfl⟩)

/-- A call of the port manager. -/
theorem act_states (b : Bess) (hb : b.running = true) (st : Agent.St) (a : Act) :
    (Halted (act b st a).1 ∧ ∃ x ∈ (act b st a).1.log, ¬ Handled x) ∨ Resumed (act b st a).1 ∨ Never (act b st a).1 := by
  cases a with
  | msg o rnd m =>
    refine .inr (.inr ?_)
    simp only [act]
    split <;> exact ⟨hb, by simp⟩
  | add rnd dev mac ans =>
    have h0 : Never ⟨b, ans, []⟩ := ⟨hb, by simp⟩
    simp only [act]
    unfold addPort
    by_cases hn : st.lastNo + 1 = 0xfffffffe
    · rw [if_pos hn]; exact .inr (.inr h0)
    rw [if_neg hn]
    have h1 := never_call h0 (c := .createPort dev) (by simp)
    have hz : (Call.resumeAll, none) ∉ (call ⟨b, ans, []⟩ (.createPort dev)).1.log := by
      rcases call_spec ⟨b, ans, []⟩ (.createPort dev) with ⟨e, hw⟩ | ⟨_, hw⟩ <;> rw [hw] <;> simp
    generalize call ⟨b, ans, []⟩ (.createPort dev) = r at h1 hz
    obtain ⟨w1, x⟩ := r
    cases x with
    | some e => exact .inr (.inr h1)
    | none =>
      have c := init_states h1 hz dev
      dsimp only at c ⊢
      generalize initPkt w1 dev = r at c
      obtain ⟨w2, x⟩ := r
      rcases c with ⟨c, -, d⟩ | ⟨c, -⟩ | c
      · cases x <;> exact .inl ⟨c, d⟩
      · cases x <;> exact .inr (.inl c)
      · cases x <;> exact .inr (.inr c)
  | del o rnd dev ans =>
    have h0 : Never ⟨b, ans, []⟩ := ⟨hb, by simp⟩
    simp only [act]
    unfold delPort
    split
    · exact .inr (.inr h0)
    split
    · exact .inr (.inr h0)
    have c := deinit_states h0 (by simp) dev
    generalize deinitPkt ⟨b, ans, []⟩ dev = r at c
    obtain ⟨w1, x⟩ := r
    cases x with
    | some e =>
      rcases c with ⟨c, -, d⟩ | ⟨c, -⟩ | c
      · exact .inl ⟨c, d⟩
      · exact .inr (.inl c)
      · exact .inr (.inr c)
    | none =>
      have hk : Resumed w1 ∨ Never w1 := by
        rcases c with ⟨-, ⟨e, he⟩, -⟩ | ⟨c, -⟩ | c
        · simp at he
        · exact .inl c
        · exact .inr c
      have hk' : Resumed (call w1 (.destroyPort dev)).1 ∨ Never (call w1 (.destroyPort dev)).1 := by
        rcases hk with ⟨a1, a2, a3⟩ | hk
        · refine .inl ?_
          rcases call_spec w1 (.destroyPort dev) with ⟨e, hw⟩ | ⟨_, hw⟩ <;> rw [hw]
          · exact ⟨a1, by simp [a2], by simp [a3]⟩
          · exact ⟨a1, by simp [a2], by simp [a3]⟩
        · exact .inr (never_call hk (by simp))
      dsimp only
      generalize call w1 (.destroyPort dev) = r at hk'
      obtain ⟨w2, x⟩ := r
      cases x <;> exact .inr hk'

end Twink.BessSide
