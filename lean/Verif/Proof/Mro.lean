import Verif.Model.Mro

/-!
# Lemmas about linearisation
-/

namespace Twink.Mro

theorem pick_not_tail {ls : List (List Cls)} : ∀ {cs : List (List Cls)} {c : Cls}, pick ls cs = some c → inTail ls c = false ∧ ∃ r, (c :: r) ∈ cs
  | [], _, h => by simp [pick] at h
  | [] :: cs, c, h => by
    obtain ⟨h1, r, h2⟩ := pick_not_tail (cs := cs) (by simpa [pick] using h)
    exact ⟨h1, r, List.mem_cons_of_mem _ h2⟩
  | (d :: r) :: cs, c, h => by
    rw [pick] at h
    split at h
    · obtain ⟨h1, r, h2⟩ := pick_not_tail (cs := cs) h
      exact ⟨h1, r, List.mem_cons_of_mem _ h2⟩
    · rename_i hn
      cases h
      exact ⟨by simpa using hn, r, List.mem_cons_self⟩

theorem not_inTail {ls : List (List Cls)} {c : Cls} (h : inTail ls c = false) {l : List Cls} (hl : l ∈ ls) : c ∉ l.tail := by
  intro hc
  have : inTail ls c = true := by
    unfold inTail
    rw [List.any_eq_true]
    exact ⟨l, hl, by simpa using hc⟩
  rw [h] at this
  cases this

theorem mem_advance {c x : Cls} {l : List Cls} (h : x ∈ advance c l) : x ∈ l := by
  cases l with
  | nil => exact h
  | cons d r =>
    unfold advance at h
    dsimp only at h
    split at h
    · exact List.mem_cons_of_mem _ h
    · exact h

theorem mem_advance_self {c : Cls} {l : List Cls} (h : c ∈ advance c l) : c ∈ l.tail := by
  cases l with
  | nil => exact h
  | cons d r =>
    unfold advance at h
    dsimp only at h
    split at h
    · exact h
    · rename_i hd
      rcases List.mem_cons.1 h with h | h
      · exact absurd h.symm hd
      · exact h

theorem advance_sub {c : Cls} {l out : List Cls} (h : (advance c l).Sublist out) : l.Sublist (c :: out) := by
  cases l with
  | nil => exact List.nil_sublist _
  | cons d r =>
    unfold advance at h
    dsimp only at h
    split at h
    · rename_i hd
      subst hd
      exact h.cons_cons _
    · exact h.cons _

theorem all_empty {ls : List (List Cls)} (h : ls.all (·.isEmpty) = true) {l : List Cls} (hl : l ∈ ls) : l = [] := by
  rw [List.all_eq_true] at h
  simpa using h l hl

theorem mergeN_spec : ∀ (n : Nat) (ls : List (List Cls)) (out : List Cls), mergeN n ls = some out →
    (∀ l ∈ ls, l.Sublist out) ∧ (∀ x ∈ out, ∃ l ∈ ls, x ∈ l) ∧ out.Nodup
  | 0, ls, out, h => by
    rw [mergeN] at h
    split at h
    · rename_i he
      cases h
      exact ⟨fun l hl => by rw [all_empty he hl]; exact List.nil_sublist _, by simp, List.nodup_nil⟩
    · cases h
  | n + 1, ls, out, h => by
    rw [mergeN] at h
    split at h
    · rename_i he
      cases h
      exact ⟨fun l hl => by rw [all_empty he hl]; exact List.nil_sublist _, by simp, List.nodup_nil⟩
    · split at h
      · cases h
      · rename_i c hc
        rw [Option.map_eq_some_iff] at h
        obtain ⟨out', ho, rfl⟩ := h
        obtain ⟨h1, h2, h3⟩ := mergeN_spec n _ out' ho
        obtain ⟨ht, r, hr⟩ := pick_not_tail hc
        refine ⟨fun l hl => advance_sub (h1 _ (List.mem_map_of_mem hl)), ?_, ?_⟩
        · intro x hx
          rcases List.mem_cons.1 hx with rfl | hx
          · exact ⟨_, hr, List.mem_cons_self⟩
          · obtain ⟨l', hl', hx'⟩ := h2 x hx
            obtain ⟨l, hl, rfl⟩ := List.mem_map.1 hl'
            exact ⟨l, hl, mem_advance hx'⟩
        · refine List.nodup_cons.2 ⟨?_, h3⟩
          intro hx
          obtain ⟨l', hl', hx'⟩ := h2 c hx
          obtain ⟨l, hl, rfl⟩ := List.mem_map.1 hl'
          exact not_inTail ht hl (mem_advance_self hx')

/-! ## The number of turns is enough -/

theorem total_advance_le (c : Cls) : ∀ ls : List (List Cls), ((ls.map (advance c)).map List.length).sum ≤ (ls.map List.length).sum
  | [] => Nat.le_refl _
  | l :: ls => by
    have ih := total_advance_le c ls
    have : (advance c l).length ≤ l.length := by
      cases l with
      | nil => exact Nat.le_refl _
      | cons d r =>
        unfold advance
        dsimp only
        split <;> simp
    simp only [List.map_cons, List.sum_cons]
    omega

theorem total_advance_lt {c : Cls} {r : List Cls} : ∀ {ls : List (List Cls)}, (c :: r) ∈ ls →
    ((ls.map (advance c)).map List.length).sum < (ls.map List.length).sum
  | [], h => by cases h
  | l :: ls, h => by
    have hle : (advance c l).length ≤ l.length := by
      cases l with
      | nil => exact Nat.le_refl _
      | cons d r =>
        unfold advance
        dsimp only
        split <;> simp
    simp only [List.map_cons, List.sum_cons]
    rcases List.mem_cons.1 h with h | h
    · subst h
      have := total_advance_le c ls
      simp only [advance, if_true, List.length_cons]
      omega
    · have := total_advance_lt h
      omega

theorem total_zero {ls : List (List Cls)} (h : (ls.map List.length).sum = 0) : ls.all (·.isEmpty) = true := by
  rw [List.all_eq_true]
  intro l hl
  have : l.length ≤ (ls.map List.length).sum := by
    clear h
    induction ls with
    | nil => cases hl
    | cons a ls ih =>
      simp only [List.map_cons, List.sum_cons]
      rcases List.mem_cons.1 hl with rfl | hl
      · omega
      · have := ih hl
        omega
  simp only [List.isEmpty_iff]
  exact List.eq_nil_of_length_eq_zero (by omega)

theorem mergeN_enough : ∀ (n : Nat) (ls : List (List Cls)), (ls.map List.length).sum ≤ n → mergeN n ls = mergeN (n + 1) ls
  | 0, ls, h => by
    have he := total_zero (Nat.le_zero.1 h)
    rw [mergeN, mergeN, if_pos he, if_pos he]
  | n + 1, ls, h => by
    rw [mergeN, show mergeN (n + 1 + 1) ls = _ from mergeN.eq_2 ls (n + 1)]
    split
    · rfl
    · split
      · rfl
      · rename_i c hc
        obtain ⟨_, r, hr⟩ := pick_not_tail hc
        have := total_advance_lt hr
        rw [mergeN_enough n _ (by omega)]

theorem mergeN_more (ls : List (List Cls)) : ∀ (k : Nat), mergeN ((ls.map List.length).sum + k) ls = merge ls
  | 0 => rfl
  | k + 1 => by rw [← Nat.add_assoc, ← mergeN_enough _ _ (by omega), mergeN_more ls k]

/-- `merge` is a loop without bound: as long as a list has elements, the class that `pick` finds comes next. -/
theorem merge_eq (ls : List (List Cls)) :
    merge ls = if ls.all (·.isEmpty) then some [] else match pick ls ls with
      | none => none
      | some c => (merge (ls.map (advance c))).map (c :: ·) := by
  rw [← mergeN_more ls 1, mergeN]
  split
  · rfl
  · cases hc : pick ls ls with
    | none => rfl
    | some c =>
      dsimp only
      obtain ⟨_, r, hr⟩ := pick_not_tail hc
      have := total_advance_lt hr
      obtain ⟨k, hk⟩ := Nat.le.dest (Nat.le_of_lt this)
      rw [← hk, mergeN_more]

/-! ## What class statements keep -/

/-- What is known of a class that exists. -/
structure Good (env : Env) (defs : List Def) (c : Cls) (m : List Cls) : Prop where
  head : ∃ t, m = c :: t
  nodup : m.Nodup
  sub : ∀ x ∈ m, ∃ mx, env.lookup x = some mx ∧ mx.Sublist m
  bases : ∀ bs, (c, bs) ∈ defs → (c :: bs).Sublist m
  from_ : c = .object ∧ m = [.object] ∨ ∃ bs, (c, bs) ∈ defs ∧ ∀ x ∈ m, x = c ∨ ∃ b ∈ bs, ∃ mb, env.lookup b = some mb ∧ x ∈ mb

structure Inv (env : Env) (defs : List Def) : Prop where
  good : ∀ c m, env.lookup c = some m → Good env defs c m
  known : ∀ c bs, (c, bs) ∈ defs → ∃ m, env.lookup c = some m

theorem inv_builtin : Inv builtin [] := by
  refine ⟨?_, by simp⟩
  intro c m h
  simp only [builtin, List.lookup_cons, List.lookup_nil] at h
  split at h
  · rename_i hc
    have hc : c = .object := by simpa using hc
    cases h
    subst hc
    exact ⟨⟨[], rfl⟩, by simp, fun x hx => ⟨[.object], by simp at hx; subst hx; simp [builtin], List.Sublist.refl _⟩, by simp, .inl ⟨rfl, rfl⟩⟩
  · cases h

theorem mapM_mem {env : Env} : ∀ {bs : List Cls} {ls : List (List Cls)}, bs.mapM (fun c => env.lookup c) = some ls →
    (∀ b ∈ bs, ∃ l ∈ ls, env.lookup b = some l) ∧ (∀ l ∈ ls, ∃ b ∈ bs, env.lookup b = some l)
  | [], ls, h => by
    simp at h
    subst h
    simp
  | b :: bs, ls, h => by
    rw [List.mapM_cons] at h
    cases hb : List.lookup b env with
    | none => simp [hb] at h
    | some l =>
      cases hr : bs.mapM (fun c => env.lookup c) with
      | none => simp [hb, hr] at h
      | some ls' =>
        simp [hb, hr] at h
        subst h
        obtain ⟨h1, h2⟩ := mapM_mem hr
        refine ⟨?_, ?_⟩
        · intro b' hb'
          rcases List.mem_cons.1 hb' with rfl | hb'
          · exact ⟨l, List.mem_cons_self, hb⟩
          · obtain ⟨l', hl', h⟩ := h1 b' hb'
            exact ⟨l', List.mem_cons_of_mem _ hl', h⟩
        · intro l' hl'
          rcases List.mem_cons.1 hl' with rfl | hl'
          · exact ⟨b, List.mem_cons_self, hb⟩
          · obtain ⟨b', hb', h⟩ := h2 l' hl'
            exact ⟨b', List.mem_cons_of_mem _ hb', h⟩

theorem lookup_new {env : Env} {c x : Cls} {m : List Cls} (hn : env.lookup c = none) {mx : List Cls} (h : env.lookup x = some mx) :
    List.lookup x ((c, m) :: env) = some mx := by
  have hx : x ≠ c := by
    rintro rfl
    rw [hn] at h
    cases h
  rw [List.lookup_cons]
  have : (x == c) = false := by simpa using hx
  rw [this]
  exact h

theorem inv_define {env env' : Env} {defs : List Def} {d : Def} (hi : Inv env defs) (h : define env d = some env') : Inv env' (d :: defs) := by
  obtain ⟨c, bs⟩ := d
  unfold define at h
  split at h
  · cases h
  rename_i hcond
  have hn : env.lookup c = none := by
    cases hh : List.lookup c env with
    | none => rfl
    | some m => exact absurd (.inl (by simp [hh])) hcond
  split at h
  · cases h
  rename_i ls hls
  split at h
  · cases h
  rename_i m hm
  cases h
  obtain ⟨hm1, hm2⟩ := mapM_mem hls
  obtain ⟨s1, s2, s3⟩ := mergeN_spec _ _ _ hm
  -- every class that exists already is found in `m` with its order
  have hold : ∀ x ∈ m, ∃ b ∈ bs, ∃ mb, env.lookup b = some mb ∧ x ∈ mb := by
    intro x hx
    obtain ⟨l, hl, hxl⟩ := s2 x hx
    rcases List.mem_append.1 hl with hl | hl
    · obtain ⟨b, hb, hbl⟩ := hm2 l hl
      exact ⟨b, hb, l, hbl, hxl⟩
    · rw [List.mem_singleton] at hl
      subst hl
      obtain ⟨l, _, hbl⟩ := hm1 x hxl
      obtain ⟨t, rfl⟩ := (hi.good x l hbl).head
      exact ⟨x, hxl, _, hbl, List.mem_cons_self⟩
  have hsubm : ∀ b ∈ bs, ∀ mb, env.lookup b = some mb → mb.Sublist m := by
    intro b hb mb hmb
    obtain ⟨l, hl, hbl⟩ := hm1 b hb
    rw [hmb] at hbl
    cases hbl
    exact s1 mb (List.mem_append_left _ hl)
  have hcm : c ∉ m := by
    intro hc
    obtain ⟨b, _, mb, hmb, hcb⟩ := hold c hc
    obtain ⟨mx, hx, _⟩ := (hi.good b mb hmb).sub c hcb
    rw [hn] at hx
    cases hx
  have hself : List.lookup c ((c, c :: m) :: env) = some (c :: m) := by simp
  refine ⟨?_, ?_⟩
  · intro x mx hx
    rw [List.lookup_cons] at hx
    split at hx
    · rename_i hxc
      have hxc : x = c := by simpa using hxc
      subst hxc
      cases hx
      refine ⟨⟨m, rfl⟩, List.nodup_cons.2 ⟨hcm, s3⟩, ?_, ?_, .inr ⟨bs, List.mem_cons_self, ?_⟩⟩
      · intro y hy
        rcases List.mem_cons.1 hy with rfl | hy
        · exact ⟨_, hself, List.Sublist.refl _⟩
        · obtain ⟨b, hb, mb, hmb, hyb⟩ := hold y hy
          obtain ⟨my, hmy, hsub⟩ := (hi.good b mb hmb).sub y hyb
          exact ⟨my, lookup_new hn hmy, (hsub.trans (hsubm b hb mb hmb)).cons _⟩
      · intro bs' hb'
        rcases List.mem_cons.1 hb' with hb' | hb'
        · cases hb'
          exact (s1 _ (List.mem_append_right _ (List.mem_singleton.2 rfl))).cons_cons _
        · obtain ⟨m', hm'⟩ := hi.known x bs' hb'
          rw [hn] at hm'
          cases hm'
      · intro y hy
        rcases List.mem_cons.1 hy with rfl | hy
        · exact .inl rfl
        · obtain ⟨b, hb, mb, hmb, hyb⟩ := hold y hy
          exact .inr ⟨b, hb, mb, lookup_new hn hmb, hyb⟩
    · rename_i hxc
      have hxc : x ≠ c := by simpa using hxc
      have hg := hi.good x mx hx
      refine ⟨hg.head, hg.nodup, ?_, ?_, ?_⟩
      · intro y hy
        obtain ⟨my, hmy, hs⟩ := hg.sub y hy
        exact ⟨my, lookup_new hn hmy, hs⟩
      · intro bs' hb'
        rcases List.mem_cons.1 hb' with hb' | hb'
        · cases hb'
          exact absurd rfl hxc
        · exact hg.bases bs' hb'
      · rcases hg.from_ with h | ⟨bs', hb', h⟩
        · exact .inl h
        · refine .inr ⟨bs', List.mem_cons_of_mem _ hb', fun y hy => ?_⟩
          rcases h y hy with h | ⟨b, hb, mb, hmb, hyb⟩
          · exact .inl h
          · exact .inr ⟨b, hb, mb, lookup_new hn hmb, hyb⟩
  · intro x bs' hb'
    rcases List.mem_cons.1 hb' with hb' | hb'
    · cases hb'
      exact ⟨_, hself⟩
    · obtain ⟨mx, hmx⟩ := hi.known x bs' hb'
      exact ⟨mx, lookup_new hn hmx⟩

theorem inv_run : ∀ {prog : List Def} {env env' : Env} {defs : List Def}, Inv env defs → run prog env = some env' → Inv env' (prog.reverse ++ defs)
  | [], env, env', defs, hi, h => by
    cases h
    exact hi
  | d :: r, env, env', defs, hi, h => by
    rw [run, Option.bind_eq_some_iff] at h
    obtain ⟨e1, h1, h2⟩ := h
    have := inv_run (inv_define hi h1) h2
    simpa using this

theorem run_good {prog : List Def} {env : Env} (h : run prog builtin = some env) {c : Cls} {m : List Cls} (hc : env.lookup c = some m) :
    Good env (prog.reverse ++ []) c m := (inv_run inv_builtin h).good c m hc

/-- Two classes in the order they have in a sublist. -/
theorem before_of_sub {a b : Cls} {l : List Cls} (hn : l.Nodup) (h : [a, b].Sublist l) : a ∈ l.takeWhile (· ≠ b) := by
  induction l with
  | nil => cases h
  | cons x l ih =>
    have hn' := List.nodup_cons.1 hn
    have hab : a ≠ b := by
      have := h.nodup hn
      simp at this
      exact this
    cases h with
    | cons _ h =>
      have hb : b ∈ l := h.subset (by simp)
      have hx : x ≠ b := fun hh => hn'.1 (hh ▸ hb)
      rw [List.takeWhile_cons, if_pos (by simpa using hx)]
      exact List.mem_cons_of_mem _ (ih hn'.2 h)
    | cons_cons _ h =>
      rw [List.takeWhile_cons, if_pos (by simpa using hab)]
      exact List.mem_cons_self

theorem mem_tw {p : Cls → Bool} {x : Cls} : ∀ {l : List Cls}, x ∈ l.takeWhile p → p x = true
  | [], h => by cases h
  | a :: l, h => by
    rw [List.takeWhile_cons] at h
    split at h
    · rename_i ha
      rcases List.mem_cons.1 h with rfl | h
      · exact ha
      · exact mem_tw h
    · cases h

theorem tw_split {a : Cls} {q : List Cls} : ∀ {p : List Cls}, a ∉ p → (p ++ a :: q).takeWhile (· ≠ a) = p
  | [], _ => by simp
  | b :: p, h => by
    have hb : b ≠ a := fun e => h (e ▸ List.mem_cons_self)
    rw [List.cons_append, List.takeWhile_cons, if_pos (by simpa using hb), tw_split (fun hm => h (List.mem_cons_of_mem _ hm))]

theorem tw_upto {a : Cls} : ∀ {l : List Cls}, a ∈ l → (l.takeWhile (· ≠ a) ++ [a]).Sublist l
  | [], h => by cases h
  | b :: l, h => by
    by_cases hb : b = a
    · rw [List.takeWhile_cons, if_neg (by simpa using hb), hb]
      exact (List.nil_sublist _).cons_cons _
    · rw [List.takeWhile_cons, if_pos (by simpa using hb)]
      refine (tw_upto ?_).cons_cons _
      rcases List.mem_cons.1 h with h | h
      · exact absurd h.symm hb
      · exact h

/-- What comes after a class does not come before it. -/
theorem not_before {a b : Cls} {l : List Cls} (hn : l.Nodup) (h : [a, b].Sublist l) : b ∉ l.takeWhile (· ≠ a) ∧ b ≠ a := by
  have hne : b ≠ a := by
    have := h.nodup hn
    simp at this
    exact Ne.symm this
  refine ⟨fun hb => ?_, hne⟩
  have h1 := before_of_sub hn h
  have h2 : [b, a].Sublist l := ((List.singleton_sublist.2 hb).append_right [a]).trans (tw_upto (h.subset (by simp)))
  have h3 : (l.takeWhile (· ≠ b) ++ [b]).Sublist l := tw_upto (h.subset (by simp))
  have h4 : [a, b].Sublist (l.takeWhile (· ≠ b) ++ [b]) := (List.singleton_sublist.2 h1).append_right [b]
  -- `b` stands before `a` and `a` before `b`
  clear h3 h4
  induction l with
  | nil => cases h
  | cons x l ih =>
    have hn' := List.nodup_cons.1 hn
    cases h with
    | cons _ h =>
      cases h2 with
      | cons _ h2 =>
        exact ih hn'.2 h (by
          have hx : x ≠ a := fun e => hn'.1 (e ▸ h.subset (by simp))
          rw [List.takeWhile_cons, if_pos (by simpa using hx)] at hb
          rcases List.mem_cons.1 hb with hb | hb
          · subst hb; exact absurd (h.subset (by simp)) hn'.1
          · exact hb) (before_of_sub hn'.2 h) h2
      | cons_cons _ h2 => exact hn'.1 (h.subset (by simp))
    | cons_cons _ h =>
      cases h2 with
      | cons _ h2 => exact hn'.1 (h2.subset (by simp))
      | cons_cons _ h2 => exact hne rfl

theorem split_at {a : Cls} {k : List Cls} : ∀ {l : List Cls}, (a :: k).Sublist l → ∃ p q, l = p ++ a :: q ∧ k.Sublist q
  | [], h => by cases h
  | x :: l, h => by
    cases h with
    | cons _ h =>
      obtain ⟨p, q, rfl, hp⟩ := split_at h
      exact ⟨x :: p, q, rfl, hp⟩
    | cons_cons _ h => exact ⟨[], l, rfl, h⟩

theorem chain_last {body : Cls → Body} {root : Cls} (hl : body root = .last) (hs : ∀ x, x ≠ root → body x = .absent ∨ body x = .super) :
    ∀ {l : List Cls}, root ∈ l → chain body none l = ((l.takeWhile (· ≠ root)).filter (fun x => body x ≠ .absent) ++ [root], true)
  | [], h => by cases h
  | c :: r, h => by
    rw [chain]
    by_cases hc : c = root
    · subst hc
      rw [hl]
      simp
    · have hr : root ∈ r := by
        rcases List.mem_cons.1 h with h | h
        · exact absurd h.symm hc
        · exact h
      have ih := chain_last hl hs hr
      rw [List.takeWhile_cons, if_pos (by simpa using hc)]
      rcases hs c hc with h0 | h0
      · rw [h0]
        dsimp only
        rw [ih, List.filter_cons_of_neg (by simp [h0])]
      · rw [h0]
        dsimp only
        rw [ih, List.filter_cons_of_pos (by simp [h0])]
        rfl

end Twink.Mro
