import Verif.Model.Enum
import Verif.Spec.Enum
import Mathlib.Data.Nat.Bitwise
import Mathlib.Data.List.TakeWhile

/-!
# C77: enumerations
-/

namespace Twink.Enum

theorem isSpace_iff (c : Char) : isSpace c = true ↔ Blank c := by
  have e1 : c.toNat = 11 ↔ c = Char.ofNat 11 := ⟨fun h => by rw [← h, Char.ofNat_toNat], fun h => by rw [h]; rfl⟩
  have e2 : c.toNat = 12 ↔ c = Char.ofNat 12 := ⟨fun h => by rw [← h, Char.ofNat_toNat], fun h => by rw [h]; rfl⟩
  simp only [isSpace, Blank, Bool.or_eq_true, beq_iff_eq, List.mem_cons, List.not_mem_nil, or_false, e1, e2, or_assoc]

theorem splitAux_blank (b s : List Char) (h : ∀ c ∈ b, Blank c) : splitAux (b ++ s) [] = splitAux s [] := by
  induction b with
  | nil => rfl
  | cons c b ih =>
    rw [List.cons_append, splitAux, if_pos ((isSpace_iff c).2 (h c (by simp)))]
    exact ih fun c hc => h c (by simp [hc])

theorem splitAux_word (w s u : List Char) (h : ∀ c ∈ w, ¬ Blank c) : splitAux (w ++ s) u = splitAux s (w.reverse ++ u) := by
  induction w generalizing u with
  | nil => rfl
  | cons c w ih =>
    rw [List.cons_append, splitAux, if_neg (fun hc => h c (by simp) ((isSpace_iff c).1 hc)), ih _ fun c hc => h c (by simp [hc])]
    simp

theorem words_split {s : List Char} {ws : List Name} (h : Words s ws) : splitAux s [] = ws := by
  induction h with
  | nil s hs => simpa [splitAux] using splitAux_blank s [] hs
  | cons b w r ws hb hw hw' hr _ ih =>
    rw [splitAux_blank _ _ hb, splitAux_word _ _ _ hw', List.append_nil]
    have hne : w.reverse.isEmpty = false := by
      cases w with
      | nil => exact (hw rfl).elim
      | cons => simp
    cases r with
    | nil =>
      simp only [splitAux, hne, Bool.false_eq_true, if_false, List.reverse_reverse] at ih ⊢
      rw [← ih]; rfl
    | cons c r =>
      have hc := (isSpace_iff c).2 (hr c rfl)
      rw [splitAux, if_pos hc] at ih ⊢
      simp only [hne, Bool.false_eq_true, if_false, List.reverse_reverse, List.isEmpty_nil, if_true] at ih ⊢
      rw [ih]

theorem split_words (s : List Char) : Words s (splitAux s []) := by
  -- with a word begun
  have key : ∀ (n : Nat) (s : List Char), s.length ≤ n → Words s (splitAux s []) := by
    intro n
    induction n with
    | zero =>
      intro s hs
      have : s = [] := List.eq_nil_of_length_eq_zero (by omega)
      subst this
      exact .nil [] (by simp)
    | succ n ih =>
      intro s hs
      -- blanks, word, rest
      have hb : ∀ c ∈ s.takeWhile isSpace, Blank c := fun c hc => (isSpace_iff c).1 (List.mem_takeWhile_imp hc)
      have e1 : s = s.takeWhile isSpace ++ s.dropWhile isSpace := (List.takeWhile_append_dropWhile).symm
      generalize hd : s.dropWhile isSpace = t at e1
      generalize s.takeWhile isSpace = b at hb e1
      cases t with
      | nil =>
        subst e1
        rw [splitAux_blank _ _ hb]
        exact .nil _ (by simpa using hb)
      | cons c t =>
        have hc : isSpace c = false := by
          have := List.head_dropWhile_not isSpace (l := s) (by rw [hd]; simp)
          simpa [hd] using this
        have hw : ∀ d ∈ (c :: t).takeWhile (fun c => !isSpace c), ¬ Blank d := by
          intro d hd' hbl
          have := List.mem_takeWhile_imp hd'
          rw [(isSpace_iff d).2 hbl] at this
          cases this
        have hne : (c :: t).takeWhile (fun c => !isSpace c) ≠ [] := by simp [List.takeWhile_cons, hc]
        have e2 : c :: t = (c :: t).takeWhile (fun c => !isSpace c) ++ (c :: t).dropWhile (fun c => !isSpace c) :=
          (List.takeWhile_append_dropWhile).symm
        have hr : ∀ d, ((c :: t).dropWhile (fun c => !isSpace c)).head? = some d → Blank d := by
          intro d hd'
          have h2 := List.head?_dropWhile_not (fun c => !isSpace c) (c :: t)
          rw [hd'] at h2
          exact (isSpace_iff d).1 (by simpa using h2)
        generalize (c :: t).takeWhile (fun c => !isSpace c) = w at hw hne e2
        generalize (c :: t).dropWhile (fun c => !isSpace c) = r at hr e2
        rw [e2] at e1
        have hlen : r.length ≤ n := by
          have h3 := congrArg List.length e1
          have h4 : 0 < w.length := List.length_pos_iff.2 hne
          simp at h3
          omega
        have h5 := Words.cons b w r _ hb hne hw hr (ih r hlen)
        rw [e1, words_split h5]
        exact h5
  exact key s.length s (Nat.le_refl _)

theorem words_iff (s : List Char) (ws : List Name) : Words s ws ↔ ws = split s :=
  ⟨fun h => (words_split h).symm, fun h => h ▸ split_words s⟩

theorem mem_numbered (ks : List Name) (v : Nat) (k : Name) (n : Nat) :
    (k, n) ∈ numbered ks v ↔ ∃ i, ks[i]? = some k ∧ n = v + i := by
  induction ks generalizing v with
  | nil => simp [numbered]
  | cons x ks ih =>
    simp only [numbered, List.mem_cons, Prod.mk.injEq, ih]
    constructor
    · rintro (⟨rfl, rfl⟩ | ⟨i, hi, rfl⟩)
      · exact ⟨0, by simp, rfl⟩
      · exact ⟨i + 1, by simpa using hi, by omega⟩
    · rintro ⟨i, hi, rfl⟩
      cases i with
      | zero => left; simp at hi; exact ⟨hi.symm, rfl⟩
      | succ i => right; exact ⟨i, by simpa using hi, by omega⟩

theorem bit_iff (v : Int) (n : Nat) : n = bit v ↔ OneBit v n := by
  unfold bit OneBit
  split
  · rename_i h
    constructor
    · intro e; exact .inl ⟨h, e⟩
    · rintro (⟨_, e⟩ | ⟨j, e, _⟩)
      · exact e
      · omega
  · rename_i h
    rw [Nat.one_shiftLeft]
    constructor
    · intro e; exact .inr ⟨v.toNat, by omega, e⟩
    · rintro (⟨h', _⟩ | ⟨j, e, e'⟩)
      · omega
      · subst e; simpa using e'

theorem mem_shifted (ks : List Name) (v : Int) (k : Name) (n : Nat) :
    (k, n) ∈ shifted ks v ↔ ∃ i : Nat, ks[i]? = some k ∧ OneBit (v + i) n := by
  induction ks generalizing v with
  | nil => simp [shifted]
  | cons x ks ih =>
    simp only [shifted, List.mem_cons, Prod.mk.injEq, ih]
    constructor
    · rintro (⟨rfl, h⟩ | ⟨i, hi, h⟩)
      · exact ⟨0, by simp, by simpa using (bit_iff v n).1 h⟩
      · refine ⟨i + 1, by simpa using hi, ?_⟩
        rwa [show v + ((i + 1 : Nat) : Int) = v + 1 + (i : Int) by omega]
    · rintro ⟨i, hi, h⟩
      cases i with
      | zero => left; simp at hi; exact ⟨hi.symm, (bit_iff v n).2 (by simpa using h)⟩
      | succ i =>
        right
        refine ⟨i, by simpa using hi, ?_⟩
        rwa [show v + ((i + 1 : Nat) : Int) = v + 1 + (i : Int) by omega] at h

theorem mem_zip_range (ws : List Name) (k : Name) (i : Nat) : (k, i) ∈ ws.zip (List.range ws.length) ↔ ws[i]? = some k := by
  rw [List.mem_iff_getElem?]
  constructor
  · rintro ⟨j, hj⟩
    rw [List.getElem?_zip_eq_some] at hj
    obtain ⟨h1, h2⟩ := hj
    obtain ⟨h3, h4⟩ := List.getElem?_eq_some_iff.1 h2
    simp at h4
    subst h4; exact h1
  · intro h
    have hlt := (List.getElem?_eq_some_iff.1 h).1
    exact ⟨i, by rw [List.getElem?_zip_eq_some]; exact ⟨h, by simp [hlt]⟩⟩

theorem mem_itemsNumbers (src : Src Nat) (k : Name) (n : Nat) : (k, n) ∈ itemsNumbers src ↔ NumberOf k n src := by
  cases src with
  | none => simp [itemsNumbers, NumberOf]
  | str s => simp only [itemsNumbers, NumberOf, words_iff, exists_eq_left, mem_zip_range]
  | dict l =>
    simp only [itemsNumbers, NumberOf, words_iff, List.mem_flatMap, mem_numbered, Prod.exists]
    constructor
    · rintro ⟨t, v, h, i, hi, e⟩; exact ⟨t, v, _, i, h, rfl, hi, e⟩
    · rintro ⟨t, v, _, i, h, rfl, hi, e⟩; exact ⟨t, v, h, i, hi, e⟩

theorem mem_itemsBitshifts (src : Src Int) (k : Name) (n : Nat) : (k, n) ∈ itemsBitshifts src ↔ FlagOf k n src := by
  cases src with
  | none => simp [itemsBitshifts, FlagOf]
  | str s =>
    simp only [itemsBitshifts, FlagOf, words_iff, List.mem_map, Prod.exists, Prod.mk.injEq, mem_zip_range]
    constructor
    · rintro ⟨k', i, h, rfl, h'⟩; exact ⟨_, i, rfl, h, (bit_iff _ _).1 h'.symm⟩
    · rintro ⟨_, i, rfl, h, h'⟩; exact ⟨k, i, h, rfl, ((bit_iff _ _).2 h').symm⟩
  | dict l =>
    simp only [itemsBitshifts, FlagOf, words_iff, List.mem_flatMap, mem_shifted, Prod.exists]
    constructor
    · rintro ⟨t, v, h, i, hi, e⟩; exact ⟨t, v, _, i, h, rfl, hi, e⟩
    · rintro ⟨t, v, _, i, h, rfl, hi, e⟩; exact ⟨t, v, h, i, hi, e⟩

theorem mem_items (e : Enum) (k : Name) (n : Nat) : (k, n) ∈ items e ↔ Declares e k n := by
  simp only [items, List.mem_append, mem_itemsNumbers, mem_itemsBitshifts, Declares]

theorem full_eq (e : Enum) (k : Name) : full e k = fullName e k := by simp [full, fullName]

theorem full_inj {e : Enum} {k k' : Name} (h : full e k = full e k') : k = k' := by
  simpa [full] using h

theorem init_fold (e : Enum) (l : List (Name × Nat)) (s : Scope) (nm : Name) (v : Nat)
    (hc : ∀ k n m, (k, n) ∈ l → (k, m) ∈ l → n = m) :
    l.foldl (fun s kv => fun n => if n = full e kv.1 then some kv.2 else s n) s nm = some v ↔
      (∃ k, (k, v) ∈ l ∧ nm = full e k) ∨ ((∀ k n, (k, n) ∈ l → nm ≠ full e k) ∧ s nm = some v) := by
  induction l generalizing s with
  | nil => simp
  | cons a l ih =>
    obtain ⟨k₀, v₀⟩ := a
    rw [List.foldl_cons, ih _ fun k n m h h' => hc k n m (by simp [h]) (by simp [h'])]
    by_cases hk : ∃ k n, (k, n) ∈ l ∧ nm = full e k
    · obtain ⟨k, n, hm, rfl⟩ := hk
      constructor
      · rintro (⟨k', h, e'⟩ | ⟨h, _⟩)
        · exact .inl ⟨k', by simp [h], e'⟩
        · exact (h k n hm rfl).elim
      · rintro (⟨k', h, e'⟩ | ⟨h, _⟩)
        · have := full_inj e'
          subst this
          rcases List.mem_cons.1 h with h' | h'
          · have := hc k n v (by simp [hm]) h
            subst this
            exact .inl ⟨k, hm, rfl⟩
          · exact .inl ⟨k, h', rfl⟩
        · exact (h k n (by simp [hm]) rfl).elim
    · have hno : ∀ k n, (k, n) ∈ l → nm ≠ full e k := fun k n h e' => hk ⟨k, n, h, e'⟩
      by_cases h0 : nm = full e k₀
      · subst h0
        simp only [if_true, Option.some.injEq]
        constructor
        · rintro (⟨k', h, e'⟩ | ⟨_, rfl⟩)
          · exact (hno k' v h e').elim
          · exact .inl ⟨k₀, by simp, rfl⟩
        · rintro (⟨k', h, e'⟩ | ⟨h, _⟩)
          · rcases List.mem_cons.1 h with h' | h'
            · simp only [Prod.mk.injEq] at h'
              exact .inr ⟨hno, h'.2.symm⟩
            · exact (hno k' v h' e').elim
          · exact (h k₀ v₀ (by simp) rfl).elim
      · simp only [if_neg h0]
        constructor
        · rintro (⟨k', h, e'⟩ | ⟨_, h⟩)
          · exact (hno k' v h e').elim
          · refine .inr ⟨fun k n h' => ?_, h⟩
            rcases List.mem_cons.1 h' with h' | h'
            · simp only [Prod.mk.injEq] at h'; rw [h'.1]; exact h0
            · exact hno k n h'
        · rintro (⟨k', h, e'⟩ | ⟨_, h⟩)
          · rcases List.mem_cons.1 h with h' | h'
            · simp only [Prod.mk.injEq] at h'; rw [h'.1] at e'; exact (h0 e').elim
            · exact (hno k' v h' e').elim
          · exact .inr ⟨hno, h⟩

/-- C77. Defining an enumeration that declares no name with two values sets, in whatever order its dictionaries are iterated, the
constant prefix_name to the declared value for every declared name, and leaves every other constant as it is. -/
theorem C77_constants (scope : Scope) (e : Enum) (hc : Consistent e) (c : Name) (v : Nat) :
    init scope e c = some v ↔
      (∃ k, Declares e k v ∧ c = fullName e k) ∨ ((∀ k n, Declares e k n → c ≠ fullName e k) ∧ scope c = some v) := by
  have := init_fold e (items e) scope c v fun k n m h h' => hc k n m ((mem_items e k n).1 h) ((mem_items e k m).1 h')
  simp only [mem_items, full_eq] at this
  simpa only [init, full_eq] using this

/-- C77. `keys` and `values` are those of the declared pairs, in the same order. -/
theorem C77_keys_values (e : Enum) :
    (∀ k n, Declares e k n ↔ ∃ i : Nat, (keys e)[i]? = some k ∧ (values e)[i]? = some n) ∧ (keys e).length = (values e).length := by
  refine ⟨fun k n => ?_, by simp [keys, values]⟩
  rw [← mem_items, List.mem_iff_getElem?]
  refine exists_congr fun i => ?_
  simp only [keys, values, List.getElem?_map]
  cases (items e)[i]? with
  | none => simp
  | some p => cases p; simp

/-- C77. `name` finds a name for exactly the declared values; the name found is declared with the value. -/
theorem C77_name (e : Enum) (v : Nat) :
    (∀ c, name e v = some c → ∃ k, Declares e k v ∧ c = fullName e k) ∧
    (name e v = none ↔ ∀ k, ¬ Declares e k v) ∧
    (∀ k, Declares e k v → (∀ k', Declares e k' v → k' = k) → name e v = some (fullName e k)) := by
  have h1 : ∀ c, name e v = some c → ∃ k, Declares e k v ∧ c = fullName e k := by
    intro c h
    simp only [name, Option.map_eq_some_iff] at h
    obtain ⟨⟨k, n⟩, h, rfl⟩ := h
    have hm := List.mem_of_find?_eq_some h
    have hv := List.find?_some h
    simp at hv
    subst hv
    exact ⟨k, (mem_items e k n).1 hm, full_eq e k⟩
  have h2 : name e v = none ↔ ∀ k, ¬ Declares e k v := by
    simp only [name, Option.map_eq_none_iff, List.find?_eq_none, Prod.forall, beq_iff_eq]
    constructor
    · intro h k hd
      exact h k v ((mem_items e k v).2 hd) rfl
    · rintro h k n hm rfl
      exact h k ((mem_items e k n).1 hm)
  refine ⟨h1, h2, fun k hd hu => ?_⟩
  cases hn : name e v with
  | none => exact (h2.1 hn k hd).elim
  | some c =>
    obtain ⟨k', hd', rfl⟩ := h1 c hn
    rw [hu k' hd']

/-- C77. A constant's own name is found for its value if no other name has that value. -/
theorem C77_name_of_constant (scope : Scope) (e : Enum) (hc : Consistent e) (v : Nat) (c : Name) (h : name e v = some c) :
    init scope e c = some v := by
  obtain ⟨k, hd, rfl⟩ := (C77_name e v).1 c h
  exact (C77_constants scope e hc _ v).2 (.inl ⟨k, hd, rfl⟩)

/-- Names for masks of several bits, which `bitnames` leaves out. -/
def IsMask (k : Name) : Prop := (txt! "_MASK") <:+ k

theorem bitLoop_eq (e : Enum) (value : Nat) (l : List (Name × Nat)) (nohit : Option Name) (ret : List Name) :
    bitLoop e value l nohit ret =
      ((l.filter fun kv => !(endsMask kv.1) && kv.2 == 0).foldl (fun _ kv => some (full e kv.1)) nohit,
        ret ++ (l.filter fun kv => !(endsMask kv.1) && (value &&& kv.2 != 0)).map fun kv => full e kv.1) := by
  induction l generalizing nohit ret with
  | nil => simp [bitLoop]
  | cons a l ih =>
    obtain ⟨k, v⟩ := a
    rw [bitLoop]
    by_cases hm : endsMask k = true
    · rw [if_pos hm, ih]
      simp [hm]
    · have hm' : endsMask k = false := by simpa using hm
      rw [if_neg hm]
      by_cases hv : value &&& v ≠ 0
      · have h0 : v ≠ 0 := by rintro rfl; simp at hv
        rw [if_pos hv, ih]
        simp [hm', hv, h0, List.filter_cons]
      · rw [if_neg hv]
        have hv' : value &&& v = 0 := by simpa using hv
        by_cases h0 : v = 0
        · subst h0
          rw [if_pos rfl, ih]
          simp [hm', List.filter_cons]
        · rw [if_neg h0, ih]
          simp [hm', hv', h0, List.filter_cons]

theorem foldl_last (e : Enum) (l : List (Name × Nat)) (o : Option Name) (c : Name)
    (h : l.foldl (fun _ kv => some (full e kv.1)) o = some c) : o = some c ∨ ∃ kv ∈ l, c = full e kv.1 := by
  induction l generalizing o with
  | nil => exact .inl h
  | cons a l ih =>
    rcases ih _ h with h' | ⟨kv, hm, e'⟩
    · injection h' with h'; exact .inr ⟨a, by simp, h'.symm⟩
    · exact .inr ⟨kv, by simp [hm], e'⟩

theorem foldl_some (e : Enum) (l : List (Name × Nat)) (o : Option Name) (hl : l ≠ []) :
    ∃ c, l.foldl (fun _ kv => some (full e kv.1)) o = some c := by
  induction l generalizing o with
  | nil => exact (hl rfl).elim
  | cons a l ih =>
    cases l with
    | nil => exact ⟨_, rfl⟩
    | cons b l => exact ih (some (full e a.1)) (by simp)

/-- C77, for flags declared as bits. `bitnames` gives the names, other than of masks, of the declared flags that are set; when there
are none and some name is declared for "no flag", one such name alone. -/
theorem C77_bitnames_partial (e : Enum) (value : Nat) :
    ((∃ k n, FlagOf k n e.bitshifts ∧ ¬ IsMask k ∧ value &&& n ≠ 0) →
      ∀ c, c ∈ bitnames e value ↔ ∃ k n, FlagOf k n e.bitshifts ∧ ¬ IsMask k ∧ value &&& n ≠ 0 ∧ c = fullName e k) ∧
    ((¬ ∃ k n, FlagOf k n e.bitshifts ∧ ¬ IsMask k ∧ value &&& n ≠ 0) →
      (∃ k, FlagOf k 0 e.bitshifts ∧ ¬ IsMask k ∧ bitnames e value = [fullName e k]) ∨
      ((∀ k, FlagOf k 0 e.bitshifts → IsMask k) ∧ bitnames e value = [])) := by
  have hmask : ∀ k : Name, (endsMask k = false) ↔ ¬ IsMask k := by
    intro k
    rw [IsMask, ← List.isSuffixOf_iff_suffix, Bool.not_eq_true]
    rfl
  have hret : ∀ c, c ∈ ((itemsBitshifts e.bitshifts).filter fun kv => !(endsMask kv.1) && (value &&& kv.2 != 0)).map
      (fun kv => full e kv.1) ↔ ∃ k n, FlagOf k n e.bitshifts ∧ ¬ IsMask k ∧ value &&& n ≠ 0 ∧ c = fullName e k := by
    intro c
    simp only [List.mem_map, List.mem_filter, Prod.exists, mem_itemsBitshifts, Bool.and_eq_true, Bool.not_eq_true', hmask, bne_iff_ne, full_eq]
    constructor
    · rintro ⟨k, n, ⟨h1, h2, h3⟩, h4⟩; exact ⟨k, n, h1, h2, h3, h4.symm⟩
    · rintro ⟨k, n, h1, h2, h3, h4⟩; exact ⟨k, n, ⟨h1, h2, h3⟩, h4.symm⟩
  have hb := bitLoop_eq e value (itemsBitshifts e.bitshifts) none []
  rw [List.nil_append] at hb
  generalize hr : ((itemsBitshifts e.bitshifts).filter fun kv => !(endsMask kv.1) && (value &&& kv.2 != 0)).map
      (fun kv => full e kv.1) = ret at hret hb
  generalize hf : ((itemsBitshifts e.bitshifts).filter fun kv => !(endsMask kv.1) && kv.2 == 0) = zs at hb
  have hz : ∀ k n, (k, n) ∈ zs ↔ FlagOf k n e.bitshifts ∧ ¬ IsMask k ∧ n = 0 := by
    intro k n
    rw [← hf, List.mem_filter, mem_itemsBitshifts]
    simp only [Bool.and_eq_true, Bool.not_eq_true', hmask, beq_iff_eq]
  refine ⟨fun ⟨k, n, h1, h2, h3⟩ c => ?_, fun h => ?_⟩
  · have hne : ret ≠ [] := List.ne_nil_of_mem ((hret (fullName e k)).2 ⟨k, n, h1, h2, h3, rfl⟩)
    have : bitnames e value = ret := by
      rw [bitnames, hb]
      split
      · rename_i heq; simp only [Prod.mk.injEq] at heq; exact (hne heq.2).elim
      · rename_i heq; simp only [Prod.mk.injEq] at heq; exact heq.2.symm
    rw [this, hret]
  · have hnil : ret = [] := by
      cases ret with
      | nil => rfl
      | cons c ret =>
        obtain ⟨k, n, h1, h2, h3, _⟩ := (hret c).1 (by simp)
        exact (h ⟨k, n, h1, h2, h3⟩).elim
    subst hnil
    by_cases hzs : zs = []
    · subst hzs
      refine .inr ⟨fun k hk => ?_, by rw [bitnames, hb]; rfl⟩
      by_contra hm
      exact absurd ((hz k 0).2 ⟨hk, hm, rfl⟩) (by simp)
    · obtain ⟨c, hc⟩ := foldl_some e zs none hzs
      rcases foldl_last e zs none c hc with h' | ⟨⟨k, n⟩, hm, rfl⟩
      · cases h'
      · obtain ⟨h1, h2, rfl⟩ := (hz k n).1 hm
        refine .inl ⟨k, h1, h2, ?_⟩
        rw [bitnames, hb, hc, full_eq]

/-- C77, for flags declared as bits. The names of a value made of declared flags say which value it is: two such values with the same
names are equal. -/
theorem C77_bitnames_injective_partial (e : Enum) (hc : Consistent e) (v w : Nat)
    (hv : ∀ i, v.testBit i → ∃ k, FlagOf k (2 ^ i) e.bitshifts ∧ ¬ IsMask k)
    (hw : ∀ i, w.testBit i → ∃ k, FlagOf k (2 ^ i) e.bitshifts ∧ ¬ IsMask k)
    (h : bitnames e v = bitnames e w) : v = w := by
  have hand : ∀ (x i : Nat), x &&& 2 ^ i ≠ 0 ↔ x.testBit i = true := by
    intro x i
    rw [Nat.and_two_pow]
    cases x.testBit i <;> simp
  have hmem : ∀ (x i : Nat) (k : Name), FlagOf k (2 ^ i) e.bitshifts → ¬ IsMask k → (fullName e k ∈ bitnames e x ↔ x.testBit i = true) := by
    intro x i k hk hm
    constructor
    · intro hin
      by_cases hex : ∃ k n, FlagOf k n e.bitshifts ∧ ¬ IsMask k ∧ x &&& n ≠ 0
      · obtain ⟨k', n, h1, _, h3, h4⟩ := ((C77_bitnames_partial e x).1 hex _).1 hin
        have : k = k' := by simpa [fullName] using h4
        subst this
        have := hc k n (2 ^ i) (.inr h1) (.inr hk)
        subst this
        exact (hand x i).1 h3
      · rcases (C77_bitnames_partial e x).2 hex with ⟨k', h1, _, h3⟩ | ⟨_, h3⟩
        · rw [h3, List.mem_singleton] at hin
          have : k = k' := by simpa [fullName] using hin
          subst this
          have := hc k 0 (2 ^ i) (.inr h1) (.inr hk)
          have := Nat.two_pow_pos i
          omega
        · rw [h3] at hin; simp at hin
    · intro ht
      have hx := (hand x i).2 ht
      exact ((C77_bitnames_partial e x).1 ⟨k, _, hk, hm, hx⟩ _).2 ⟨k, _, hk, hm, hx, rfl⟩
  refine Nat.eq_of_testBit_eq fun i => ?_
  rw [Bool.eq_iff_iff]
  constructor
  · intro ht
    obtain ⟨k, hk, hm⟩ := hv i ht
    rw [← hmem w i k hk hm, ← h]
    exact (hmem v i k hk hm).2 ht
  · intro ht
    obtain ⟨k, hk, hm⟩ := hw i ht
    rw [← hmem v i k hk hm, h]
    exact (hmem w i k hk hm).2 ht

/-- C77 is false of the code for flags declared as numbers, as the bundle flags, the table configuration and the flag of multipart
messages are: `bitnames` gives no name, whatever the value. -/
theorem C77_bitnames_refuted (e : Enum) (h : e.bitshifts = .none) (value : Nat) : bitnames e value = [] := by
  simp [bitnames, h, itemsBitshifts, bitLoop]

end Twink.Enum
