import Mathlib.Data.List.Induction
import Verif.Spec.Race

/-!
# The two threads of the software switch: invariant
-/

namespace Twink.Race
open Of13 (PortT)

theorem runs_append (s : St) (a b : List Op) : runs s (a ++ b) = runs (runs s a) b := by
  induction a generalizing s with
  | nil => rfl
  | cons op a ih => exact ih (step s op)

theorem runs_snoc (s : St) (ops : List Op) (op : Op) : runs s (ops ++ [op]) = step (runs s ops) op := runs_append s ops [op]

/-- What may come after what. -/
def Before (x y : Msg) : Prop := ∀ p, (x = .del p → y ≠ .add p ∧ y ≠ .del p) ∧ (x = .add p → y ≠ .add p)

/-- What is known of the port the manager is busy with. -/
def Busy (ever : List PortT) (s : St) : Prop :=
  match s.mgr with
  | .idle => True
  | .insert p => p ∈ ever ∧ p ∉ ports s ∧ Msg.add p ∉ s.out ∧ Msg.del p ∉ s.out
  | .announce p => p ∈ ports s ∧ Msg.add p ∉ s.out ∧ Msg.del p ∉ s.out
  | .retract p => p ∈ ports s ∧ Msg.del p ∉ s.out
  | .remove p => p ∈ ports s ∧ Msg.del p ∈ s.out

/-- The ports seen by the loop. -/
def Loop.seen : Loop → List PortT
  | .iter _ _ l => l
  | .reply l => l
  | _ => []

/-- `first`: the ports at the start; `ever`: all ports there have been. -/
structure Inv (first ever : List PortT) (s : St) : Prop where
  distinct : ∀ p ∈ ever, ∀ q ∈ ever, p.portNo = q.portNo → p = q
  below : ∀ p ∈ ever, p.portNo ≤ s.lastNo ∨ p.portNo = 0xfffffffe
  last : s.lastNo < 0xfffffffe
  nodup : (ports s).Nodup
  sub : ∀ p ∈ ports s, p ∈ ever
  start : ∀ p ∈ first, p ∈ ever
  msgs : ∀ p, (Msg.add p ∈ s.out ∨ Msg.del p ∈ s.out) → p ∈ ever
  descs : ∀ l, Msg.desc l ∈ s.out → ∀ p ∈ l, p ∈ ever
  seen : ∀ p ∈ s.loop.seen, p ∈ ever
  busy : Busy ever s
  gone : ∀ p ∈ ever, p ∈ ports s ∨ Msg.del p ∈ s.out ∨ s.mgr = .insert p
  here : ∀ p ∈ ports s, Msg.del p ∉ s.out ∨ s.mgr = .remove p
  told : ∀ p ∈ ports s, p ∈ first ∨ Msg.add p ∈ s.out ∨ s.mgr = .announce p
  order : s.out.Pairwise Before

theorem inv_fresh {s : St} (h : Fresh s) : Inv (ports s) (ports s) s where
  distinct := h.unique
  below := h.below
  last := h.last
  nodup := h.nodup
  sub := fun _ hp => hp
  start := fun _ hp => hp
  msgs := by simp [h.quiet]
  descs := by simp [h.quiet]
  seen := by simp [h.idle.2, Loop.seen]
  busy := by simp [Busy, h.idle.1]
  gone := fun _ hp => .inl hp
  here := by simp [h.quiet]
  told := fun _ hp => .inl hp
  order := by simp [h.quiet]

theorem filterMap_clear (p : PortT) : ∀ slots : List (Option PortT),
    (slots.map (fun e => if e = some p then none else e)).filterMap id = (slots.filterMap id).filter (fun q => decide (q ≠ p))
  | [] => rfl
  | none :: l => by simpa using filterMap_clear p l
  | some q :: l => by
    have ih := filterMap_clear p l
    by_cases e : q = p
    · subst e; simpa using ih
    · simpa [e] using ih

/-- The next entry, by what is left of the table. -/
theorem nextFrom_spec (slots : List (Option PortT)) (i : Nat) :
    match nextFrom slots i with
    | none => (slots.drop i).filterMap id = []
    | some (p, j) => (slots.drop i).filterMap id = p :: (slots.drop j).filterMap id := by
  induction i using nextFrom.induct slots with
  | case1 i h =>
    have e : nextFrom slots i = none := by rw [nextFrom]; split <;> simp_all
    rw [e]
    simp [List.drop_eq_nil_of_le (List.getElem?_eq_none_iff.1 h)]
  | case2 i p h =>
    have e : nextFrom slots i = some (p, i + 1) := by rw [nextFrom]; split <;> simp_all
    obtain ⟨hl, he⟩ := List.getElem?_eq_some_iff.1 h
    rw [e]
    simp [List.drop_eq_getElem_cons hl, he]
  | case3 i h ih =>
    have e : nextFrom slots i = nextFrom slots (i + 1) := by rw [nextFrom]; split <;> simp_all
    obtain ⟨hl, he⟩ := List.getElem?_eq_some_iff.1 h
    have e' : (slots.drop i).filterMap id = (slots.drop (i + 1)).filterMap id := by
      simp [List.drop_eq_getElem_cons hl, he]
    rw [e, e']
    exact ih

theorem nextFrom_mem {slots : List (Option PortT)} {i j : Nat} {p : PortT} (h : nextFrom slots i = some (p, j)) : p ∈ slots.filterMap id := by
  have := nextFrom_spec slots i
  rw [h] at this
  have hp : p ∈ (slots.drop i).filterMap id := by simp only at this; rw [this]; simp
  simp only [List.mem_filterMap, id] at hp ⊢
  obtain ⟨a, ha, e⟩ := hp
  exact ⟨a, List.mem_of_mem_drop ha, e⟩

theorem inv_step {first ever : List PortT} {s : St} (h : Inv first ever s) (op : Op) : ∃ ever', Inv first ever' (step s op) := by
  cases op with
  | add hw dev =>
    simp only [step]
    split
    · rename_i em
      by_cases c1 : s.lastNo + 1 = 0xfffffffe
      · rw [if_pos c1]; exact ⟨ever, h⟩
      by_cases c2 : hw.length = 6 ∧ dev.length ≤ 16
      · rw [if_neg c1, if_pos c2]
        generalize hp : (Agent.newPort (s.lastNo + 1) hw dev none).desc = p
        have hno : p.portNo = s.lastNo + 1 := by rw [← hp]; rfl
        have hnew : p ∉ ever := by
          intro hc
          rcases h.below p hc with e | e
          · omega
          · rw [hno] at e; exact c1 e
        have hlast := h.last
        refine ⟨p :: ever, ?_⟩
        refine ⟨?_, ?_, by show s.lastNo + 1 < _; omega, h.nodup, fun q hq => List.mem_cons_of_mem _ (h.sub q hq), fun q hq => List.mem_cons_of_mem _ (h.start q hq),
          fun q hq => List.mem_cons_of_mem _ (h.msgs q hq), fun l hl q hq => List.mem_cons_of_mem _ (h.descs l hl q hq), fun q hq => List.mem_cons_of_mem _ (h.seen q hq),
          ?_, ?_, ?_, ?_, h.order⟩
        · intro a ha b hb e
          rcases List.mem_cons.1 ha with ea | ha'
          · rcases List.mem_cons.1 hb with eb | hb'
            · rw [ea, eb]
            · rw [ea] at e; rcases h.below b hb' with e' | e' <;> omega
          · rcases List.mem_cons.1 hb with eb | hb'
            · rw [eb] at e; rcases h.below a ha' with e' | e' <;> omega
            · exact h.distinct a ha' b hb' e
        · intro q hq
          show q.portNo ≤ s.lastNo + 1 ∨ _
          rcases List.mem_cons.1 hq with rfl | hq
          · left; omega
          · rcases h.below q hq with e | e
            · left; omega
            · exact .inr e
        · exact ⟨List.mem_cons_self, fun hc => hnew (h.sub p hc), fun hc => hnew (h.msgs p (.inl hc)), fun hc => hnew (h.msgs p (.inr hc))⟩
        · intro q hq
          rcases List.mem_cons.1 hq with rfl | hq
          · exact .inr (.inr rfl)
          · rcases h.gone q hq with e | e | e
            · exact .inl e
            · exact .inr (.inl e)
            · rw [em] at e; simp at e
        · intro q hq
          rcases h.here q hq with e | e
          · exact .inl e
          · rw [em] at e; simp at e
        · intro q hq
          rcases h.told q hq with e | e | e
          · exact .inl e
          · exact .inr (.inl e)
          · rw [em] at e; simp at e
      · rw [if_neg c1, if_neg c2]; exact ⟨ever, h⟩
    · exact ⟨ever, h⟩
  | del no =>
    simp only [step]
    split
    · rename_i em
      split
      · rename_i p hf
        have hp : p ∈ ports s := List.mem_of_find?_eq_some hf
        refine ⟨ever, h.distinct, h.below, h.last, h.nodup, h.sub, h.start, h.msgs, h.descs, h.seen, ?_, ?_, ?_, ?_, h.order⟩
        · refine ⟨hp, ?_⟩
          rcases h.here p hp with e | e
          · exact e
          · rw [em] at e; simp at e
        · intro q hq
          rcases h.gone q hq with e | e | e
          · exact .inl e
          · exact .inr (.inl e)
          · rw [em] at e; simp at e
        · intro q hq
          rcases h.here q hq with e | e
          · exact .inl e
          · rw [em] at e; simp at e
        · intro q hq
          rcases h.told q hq with e | e | e
          · exact .inl e
          · exact .inr (.inl e)
          · rw [em] at e; simp at e
      · exact ⟨ever, h⟩
    · exact ⟨ever, h⟩
  | insert slots =>
    simp only [step]
    split
    · rename_i p em
      split
      · rename_i hperm
        have hb := h.busy
        simp only [Busy, em] at hb
        obtain ⟨b1, b2, b3, b4⟩ := hb
        have hmem : ∀ q, q ∈ slots.filterMap id ↔ q = p ∨ q ∈ ports s := by
          intro q; rw [hperm.mem_iff]; simp
        refine ⟨ever, h.distinct, h.below, h.last, ?_, ?_, h.start, h.msgs, h.descs, h.seen, ?_, ?_, ?_, ?_, h.order⟩
        · exact hperm.nodup_iff.2 (List.nodup_cons.2 ⟨b2, h.nodup⟩)
        · intro q hq
          rcases (hmem q).1 hq with rfl | hq
          · exact b1
          · exact h.sub q hq
        · exact ⟨(hmem p).2 (.inl rfl), b3, b4⟩
        · intro q hq
          rcases h.gone q hq with e | e | e
          · exact .inl ((hmem q).2 (.inr e))
          · exact .inr (.inl e)
          · rw [em] at e
            simp only [Mgr.insert.injEq] at e
            exact .inl ((hmem q).2 (.inl e.symm))
        · intro q hq
          rcases (hmem q).1 hq with rfl | hq
          · exact .inl b4
          · rcases h.here q hq with e | e
            · exact .inl e
            · rw [em] at e; simp at e
        · intro q hq
          rcases (hmem q).1 hq with rfl | hq
          · exact .inr (.inr rfl)
          · rcases h.told q hq with e | e | e
            · exact .inl e
            · exact .inr (.inl e)
            · rw [em] at e; simp at e
      · exact ⟨ever, h⟩
    · exact ⟨ever, h⟩
  | mgr =>
    simp only [step]
    split
    · rename_i p em
      have hb := h.busy
      simp only [Busy, em] at hb
      obtain ⟨b1, b2, b3⟩ := hb
      refine ⟨ever, h.distinct, h.below, h.last, h.nodup, h.sub, h.start, ?_, ?_, h.seen, trivial, ?_, ?_, ?_, ?_⟩
      · intro q hq
        simp only [List.mem_append, List.mem_singleton, Msg.add.injEq, reduceCtorEq, or_false] at hq
        rcases hq with (e | rfl) | e
        · exact h.msgs q (.inl e)
        · exact h.sub q b1
        · exact h.msgs q (.inr e)
      · intro l hl
        simp only [List.mem_append, List.mem_singleton, reduceCtorEq, or_false] at hl
        exact h.descs l hl
      · intro q hq
        rcases h.gone q hq with e | e | e
        · exact .inl e
        · exact .inr (.inl (by simp [e]))
        · rw [em] at e; simp at e
      · intro q hq
        rcases h.here q hq with e | e
        · exact .inl (by simpa using e)
        · rw [em] at e; simp at e
      · intro q hq
        rcases h.told q hq with e | e | e
        · exact .inl e
        · exact .inr (.inl (by simp [e]))
        · rw [em] at e
          simp only [Mgr.announce.injEq] at e
          exact .inr (.inl (by simp [e]))
      · refine List.pairwise_append.2 ⟨h.order, by simp, ?_⟩
        intro x hx y hy q
        simp only [List.mem_singleton] at hy
        subst hy
        refine ⟨?_, ?_⟩
        · rintro rfl
          refine ⟨?_, by simp⟩
          intro e
          simp only [Msg.add.injEq] at e
          subst e
          exact b3 hx
        · rintro rfl e
          simp only [Msg.add.injEq] at e
          subst e
          exact b2 hx
    · rename_i p em
      have hb := h.busy
      simp only [Busy, em] at hb
      obtain ⟨b1, b2⟩ := hb
      refine ⟨ever, h.distinct, h.below, h.last, h.nodup, h.sub, h.start, ?_, ?_, h.seen, ⟨b1, by simp⟩, ?_, ?_, ?_, ?_⟩
      · intro q hq
        simp only [List.mem_append, List.mem_singleton, Msg.del.injEq, reduceCtorEq, or_false] at hq
        rcases hq with e | e | rfl
        · exact h.msgs q (.inl e)
        · exact h.msgs q (.inr e)
        · exact h.sub q b1
      · intro l hl
        simp only [List.mem_append, List.mem_singleton, reduceCtorEq, or_false] at hl
        exact h.descs l hl
      · intro q hq
        rcases h.gone q hq with e | e | e
        · exact .inl e
        · exact .inr (.inl (by simp [e]))
        · rw [em] at e; simp at e
      · intro q hq
        by_cases eq : q = p
        · subst eq; exact .inr rfl
        · rcases h.here q hq with e | e
          · exact .inl (by simp [e, eq])
          · rw [em] at e; simp at e
      · intro q hq
        rcases h.told q hq with e | e | e
        · exact .inl e
        · exact .inr (.inl (by simp [e]))
        · rw [em] at e; simp at e
      · refine List.pairwise_append.2 ⟨h.order, by simp, ?_⟩
        intro x hx y hy q
        simp only [List.mem_singleton] at hy
        subst hy
        refine ⟨?_, by simp⟩
        rintro rfl
        refine ⟨by simp, ?_⟩
        intro e
        simp only [Msg.del.injEq] at e
        subst e
        exact b2 hx
    · rename_i p em
      have hb := h.busy
      simp only [Busy, em] at hb
      obtain ⟨b1, b2⟩ := hb
      have hports : ∀ o : List Msg, ports { s with slots := s.slots.map (fun e => if e = some p then none else e), mgr := Mgr.idle } =
          (ports s).filter (fun q => decide (q ≠ p)) := fun _ => filterMap_clear p s.slots
      have hp' := hports []
      refine ⟨ever, h.distinct, h.below, h.last, ?_, ?_, h.start, h.msgs, h.descs, h.seen, trivial, ?_, ?_, ?_, h.order⟩
      · rw [hp']; exact h.nodup.filter _
      · rw [hp']; intro q hq; exact h.sub q (List.mem_filter.1 hq).1
      · rw [hp']
        intro q hq
        by_cases eq : q = p
        · subst eq; exact .inr (.inl b2)
        · rcases h.gone q hq with e | e | e
          · exact .inl (List.mem_filter.2 ⟨e, by simpa using eq⟩)
          · exact .inr (.inl e)
          · rw [em] at e; simp at e
      · rw [hp']
        intro q hq
        obtain ⟨q1, q2⟩ := List.mem_filter.1 hq
        rcases h.here q q1 with e | e
        · exact .inl e
        · rw [em] at e
          simp only [Mgr.remove.injEq] at e
          simp [e] at q2
      · rw [hp']
        intro q hq
        rcases h.told q (List.mem_filter.1 hq).1 with e | e | e
        · exact .inl e
        · exact .inr (.inl e)
        · rw [em] at e; simp at e
    · exact ⟨ever, h⟩
  | request =>
    simp only [step]
    split
    · exact ⟨ever, h.distinct, h.below, h.last, h.nodup, h.sub, h.start, h.msgs, h.descs, by simp [Loop.seen], h.busy, h.gone, h.here, h.told, h.order⟩
    · exact ⟨ever, h⟩
  | next =>
    simp only [step]
    split
    · rename_i n i seen el
      split
      · exact ⟨ever, h.distinct, h.below, h.last, h.nodup, h.sub, h.start, h.msgs, h.descs, by simp [Loop.seen], h.busy, h.gone, h.here, h.told, h.order⟩
      · have hsn := h.seen
        rw [el] at hsn
        split
        · rename_i p j hn
          refine ⟨ever, h.distinct, h.below, h.last, h.nodup, h.sub, h.start, h.msgs, h.descs, ?_, h.busy, h.gone, h.here, h.told, h.order⟩
          intro q hq
          rcases List.mem_append.1 hq with hq | hq
          · exact hsn q hq
          · rw [List.mem_singleton.1 hq]; exact h.sub p (nextFrom_mem hn)
        · exact ⟨ever, h.distinct, h.below, h.last, h.nodup, h.sub, h.start, h.msgs, h.descs, hsn, h.busy, h.gone, h.here, h.told, h.order⟩
    · exact ⟨ever, h⟩
  | send =>
    simp only [step]
    split
    · rename_i seen el
      have hsn := h.seen
      rw [el] at hsn
      have hadd : ∀ p, Msg.add p ∈ s.out ++ [Msg.desc seen] ↔ Msg.add p ∈ s.out := by simp
      have hdel : ∀ p, Msg.del p ∈ s.out ++ [Msg.desc seen] ↔ Msg.del p ∈ s.out := by simp
      refine ⟨ever, h.distinct, h.below, h.last, h.nodup, h.sub, h.start, ?_, ?_, by simp [Loop.seen], ?_, ?_, ?_, ?_, ?_⟩
      · intro p; simp only [hadd, hdel]; exact h.msgs p
      · intro l hl
        simp only [List.mem_append, List.mem_singleton, Msg.desc.injEq] at hl
        rcases hl with hl | rfl
        · exact h.descs l hl
        · exact hsn
      · have hb := h.busy
        unfold Busy at hb ⊢
        simp only [hadd, hdel]
        exact hb
      · simp only [hdel]; exact h.gone
      · simp only [hdel]; exact h.here
      · simp only [hadd]; exact h.told
      · refine List.pairwise_append.2 ⟨h.order, by simp, ?_⟩
        intro x _ y hy q
        simp only [List.mem_singleton] at hy
        subst hy
        simp
    · exact ⟨ever, h⟩

theorem inv_runs {first ever : List PortT} {s : St} (h : Inv first ever s) (ops : List Op) : ∃ ever', Inv first ever' (runs s ops) := by
  induction ops generalizing s ever with
  | nil => exact ⟨ever, h⟩
  | cons op ops ih =>
    obtain ⟨e', h'⟩ := inv_step h op
    exact ih h'

/-! ## What a controller knows -/

/-- The message is about the port with this number. -/
def About (no : Nat) : Msg → Prop
  | .add p => p.portNo = no
  | .del p => p.portNo = no
  | .desc _ => False

theorem mem_learnt (X : List PortT) (ms : List Msg) (hd : ∀ l, Msg.desc l ∉ ms) (q : PortT) :
    q ∈ ms.foldl learn X ↔ (q ∈ X ∧ ∀ m ∈ ms, ¬ About q.portNo m) ∨ q ∈ ms.foldl learn [] := by
  induction ms using List.reverseRecOn with
  | nil => simp
  | append_singleton ms m ih =>
    have ih := ih (fun l hl => hd l (by simp [hl]))
    simp only [List.foldl_append, List.foldl_cons, List.foldl_nil]
    cases m with
    | add p =>
      simp only [learn, List.mem_append, List.mem_filter, decide_eq_true_eq, List.mem_singleton, ih, About]
      constructor
      · rintro (⟨(⟨a, b⟩ | a), c⟩ | a)
        · left; refine ⟨a, ?_⟩
          rintro m (hm | rfl)
          · exact b m hm
          · exact fun e => c e.symm
        · exact .inr (.inl ⟨a, c⟩)
        · exact .inr (.inr a)
      · rintro (⟨a, b⟩ | ⟨a, c⟩ | a)
        · left; exact ⟨.inl ⟨a, fun m hm => b m (.inl hm)⟩, fun e => b (.add p) (.inr rfl) e.symm⟩
        · exact .inl ⟨.inr a, c⟩
        · exact .inr a
    | del p =>
      simp only [learn, List.mem_append, List.mem_filter, decide_eq_true_eq, List.mem_singleton, ih]
      constructor
      · rintro ⟨(⟨a, b⟩ | a), c⟩
        · left; refine ⟨a, ?_⟩
          rintro m (hm | rfl)
          · exact b m hm
          · exact fun e => c e.symm
        · exact .inr ⟨a, c⟩
      · rintro (⟨a, b⟩ | ⟨a, c⟩)
        · exact ⟨.inl ⟨a, fun m hm => b m (.inl hm)⟩, fun e => b (.del p) (.inr rfl) e.symm⟩
        · exact ⟨.inr a, c⟩
    | desc l => exact absurd (by simp) (hd l)

theorem mem_new (ever : List PortT) (hdist : ∀ p ∈ ever, ∀ q ∈ ever, p.portNo = q.portNo → p = q) (ms : List Msg) (hd : ∀ l, Msg.desc l ∉ ms)
    (hm : ∀ p, (Msg.add p ∈ ms ∨ Msg.del p ∈ ms) → p ∈ ever) (ho : ms.Pairwise Before) (q : PortT) :
    q ∈ ms.foldl learn [] ↔ Msg.add q ∈ ms ∧ Msg.del q ∉ ms := by
  induction ms using List.reverseRecOn with
  | nil => simp
  | append_singleton ms m ih =>
    obtain ⟨o1, _, o3⟩ := List.pairwise_append.1 ho
    have ih := ih (fun l hl => hd l (by simp [hl])) (fun p hp => hm p (by rcases hp with h | h <;> simp [h])) o1
    simp only [List.foldl_append, List.foldl_cons, List.foldl_nil]
    have hbef : ∀ x ∈ ms, Before x m := fun x hx => o3 x hx m (by simp)
    cases m with
    | add p =>
      have hp : p ∈ ever := hm p (by simp)
      simp only [learn, List.mem_append, List.mem_filter, decide_eq_true_eq, List.mem_singleton, ih, Msg.add.injEq, reduceCtorEq, or_false]
      constructor
      · rintro (⟨⟨a, b⟩, c⟩ | rfl)
        · exact ⟨.inl a, b⟩
        · exact ⟨.inr rfl, fun hc => ((hbef _ hc q).1 rfl).1 rfl⟩
      · rintro ⟨a | rfl, b⟩
        · left
          refine ⟨⟨a, b⟩, fun e => ?_⟩
          have : q = p := hdist q (hm q (by simp [a])) p hp e
          subst this
          exact (hbef _ a q).2 rfl rfl
        · exact .inr rfl
    | del p =>
      have hp : p ∈ ever := hm p (by simp)
      simp only [learn, List.mem_append, List.mem_filter, decide_eq_true_eq, List.mem_singleton, ih, Msg.del.injEq, reduceCtorEq, or_false]
      constructor
      · rintro ⟨⟨a, b⟩, c⟩
        refine ⟨a, ?_⟩
        rintro (e | rfl)
        · exact b e
        · exact c rfl
      · rintro ⟨a, b⟩
        refine ⟨⟨a, fun e => b (.inl e)⟩, fun e => b (.inr ?_)⟩
        exact hdist q (hm q (by simp [a])) p hp e
    | desc l => exact absurd (by simp) (hd l)

end Twink.Race
