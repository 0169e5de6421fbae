import Verif.Props.Mro

/-!
# C107: which class statements Python accepts
-/

namespace Twink.Mro

theorem pick_some {ls : List (List Cls)} {x : Cls} (hx : inTail ls x = false) :
    ∀ {cs : List (List Cls)} {r : List Cls}, (x :: r) ∈ cs → ∃ c, pick ls cs = some c
  | [], _, h => by cases h
  | [] :: cs, r, h => by
    rcases List.mem_cons.1 h with h | h
    · cases h
    · unfold pick; exact pick_some hx h
  | (d :: t) :: cs, r, h => by
    unfold pick
    by_cases hd : inTail ls d = true
    · rw [if_pos hd]
      rcases List.mem_cons.1 h with h | h
      · cases h; rw [hx] at hd; cases hd
      · exact pick_some hx h
    · rw [if_neg hd]; exact ⟨d, rfl⟩

theorem sub_skip {l : List Cls} : ∀ {p q : List Cls}, l.Sublist (p ++ q) → (∀ y ∈ p, y ∉ l) → l.Sublist q
  | [], _, h, _ => h
  | y :: p, q, h, hp => by
    cases h with
    | cons _ h => exact sub_skip h fun z hz => hp z (by simp [hz])
    | cons_cons _ h => exact absurd (by simp) (hp y (by simp))

/-- The first class of a consistent order that occurs in the lists. -/
theorem first_in {ls : List (List Cls)} : ∀ {m : List Cls}, (∃ l ∈ ls, ∃ x ∈ l, x ∈ m) →
    ∃ p x q, m = p ++ x :: q ∧ (∀ y ∈ p, ∀ l ∈ ls, y ∉ l) ∧ ∃ l ∈ ls, x ∈ l
  | [], h => by obtain ⟨_, _, _, _, h⟩ := h; cases h
  | y :: m, h => by
    by_cases hy : ∃ l ∈ ls, y ∈ l
    · exact ⟨[], y, m, rfl, by simp, hy⟩
    · obtain ⟨l, hl, x, hx, hm⟩ := h
      rcases List.mem_cons.1 hm with rfl | hm
      · exact absurd ⟨l, hl, hx⟩ hy
      · obtain ⟨p, x, q, rfl, h1, h2⟩ := first_in ⟨l, hl, x, hx, hm⟩
        refine ⟨y :: p, x, q, rfl, ?_, h2⟩
        intro z hz l hl
        rcases List.mem_cons.1 hz with rfl | hz
        · exact fun h => hy ⟨l, hl, h⟩
        · exact h1 z hz l hl

theorem advance_le (c : Cls) (l : List Cls) : (advance c l).Sublist l := by
  cases l with
  | nil => exact .slnil
  | cons d r => unfold advance; simp only; split
                · exact List.sublist_cons_self _ _
                · exact List.Sublist.refl _

theorem mergeN_some {m : List Cls} (hm : m.Nodup) : ∀ (n : Nat) (ls : List (List Cls)), (ls.map List.length).sum ≤ n →
    (∀ l ∈ ls, l.Sublist m) → ∃ out, mergeN n ls = some out
  | 0, ls, hn, hs => by
    refine ⟨[], ?_⟩
    unfold mergeN
    rw [if_pos (total_zero (by omega))]
  | n + 1, ls, hn, hs => by
    unfold mergeN
    by_cases he : ls.all (·.isEmpty) = true
    · exact ⟨[], by rw [if_pos he]⟩
    · rw [if_neg he]
      have : ∃ l ∈ ls, ∃ x ∈ l, x ∈ m := by
        apply Classical.byContradiction
        intro hno
        apply he
        rw [List.all_eq_true]
        intro l hl
        cases l with
        | nil => rfl
        | cons x r => exact absurd ⟨_, hl, x, by simp, (hs _ hl).subset (by simp)⟩ hno
      obtain ⟨p, x, q, rfl, hp, l, hl, hx⟩ := first_in this
      have hxq : x ∉ q := by
        have := (List.nodup_append.1 hm).2.1
        exact (List.nodup_cons.1 this).1
      have hsub : ∀ l ∈ ls, l.Sublist (x :: q) := fun l hl => sub_skip (hs l hl) fun y hy => hp y hy l hl
      have htail : inTail ls x = false := by
        unfold inTail
        rw [Bool.eq_false_iff]
        intro h
        rw [List.any_eq_true] at h
        obtain ⟨l, hl, h⟩ := h
        have := (hsub l hl).tail
        exact hxq (this.subset (by simpa using h))
      have hhead : ∃ r, l = x :: r := by
        have := hsub l hl
        cases this with
        | cons _ h => exact absurd (h.subset hx) hxq
        | cons_cons _ h => exact ⟨_, rfl⟩
      obtain ⟨r, rfl⟩ := hhead
      obtain ⟨c, hc⟩ := pick_some htail hl
      rw [hc]
      obtain ⟨_, r', hr'⟩ := pick_not_tail hc
      have hlt := total_advance_lt hr'
      obtain ⟨out, ho⟩ := mergeN_some hm n (ls.map (advance c)) (by omega) (by
        intro l' hl'
        obtain ⟨l0, h0, rfl⟩ := List.mem_map.1 hl'
        exact (advance_le c l0).trans (hs l0 h0))
      exact ⟨c :: out, by simp only [ho, Option.map_some]⟩

/-- C107. A class statement (of a new class with some known bases) is accepted if and only if there is an order at all of classes, none twice, that keeps the orders of
all bases and the order in which the statement lists the bases.  So `TypeError` tells of a real contradiction, and a base listed
twice always is one. -/
theorem C107_accepted (env : Env) (c : Cls) (bs : List Cls) (ls : List (List Cls))
    (hnew : env.lookup c = none) (hbs : bs ≠ []) (hls : bs.mapM (fun b => env.lookup b) = some ls) :
    (∃ env', define env (c, bs) = some env') ↔ ∃ m : List Cls, m.Nodup ∧ bs.Sublist m ∧ ∀ l ∈ ls, l.Sublist m := by
  constructor
  · rintro ⟨env', he⟩
    unfold define at he
    simp only [hls] at he
    split at he
    · cases he
    · cases hm : merge (ls ++ [bs]) with
      | none => rw [hm] at he; cases he
      | some m =>
        rw [hm] at he
        obtain ⟨h1, _, h3⟩ := mergeN_spec _ _ _ hm
        exact ⟨m, h3, h1 _ (by simp), fun l hl => h1 l (by simp [hl])⟩
  · rintro ⟨m, hm, hb, hl⟩
    have hnd : bs.Nodup := hb.nodup hm
    obtain ⟨out, ho⟩ := mergeN_some hm _ (ls ++ [bs]) (Nat.le_refl _) (by
      intro l hl'
      rcases List.mem_append.1 hl' with h1 | h1
      · exact hl l h1
      · simp only [List.mem_singleton] at h1; subst h1; exact hb)
    refine ⟨(c, c :: out) :: env, ?_⟩
    unfold define
    simp only [hnew, hls]
    rw [if_neg (by simp [hbs, hnd])]
    have : merge (ls ++ [bs]) = some out := ho
    rw [this]

/-- The order of the bases of `class A(Channel, OpenflowBaseChannel)` contradicts the order of `OpenflowBaseChannel`. -/
example : ∃ env ls, run library builtin = some env ∧ [Cls.channel, .base].mapM (fun b => env.lookup b) = some ls ∧
    env.lookup (.user 0) = none ∧ define env (.user 0, [.channel, .base]) = none ∧ define env (.user 0, [.base, .channel]) ≠ none :=
  ⟨_, _, rfl, rfl, rfl, by decide +kernel, by decide +kernel⟩

end Twink.Mro
