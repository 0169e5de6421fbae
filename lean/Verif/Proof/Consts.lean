import Verif.Model.Consts
import Verif.Spec.Enum
import Verif.Props.Enum

/-! Tables of constants: a search tree to decide facts about hundreds of names. -/

namespace Twink.Enum

/-- The same attribute, with a dictionary iterated in another order. -/
inductive Src.Reorder {α : Type} : Src α → Src α → Prop
  | none : Src.Reorder .none .none
  | str (s : List Char) : Src.Reorder (.str s) (.str s)
  | dict (l l' : List (List Char × α)) : l.Perm l' → Src.Reorder (.dict l) (.dict l')

/-- The same enumeration, with dictionaries iterated in another order. -/
def Reorder (e e' : Enum) : Prop := e.pre = e'.pre ∧ e.numbers.Reorder e'.numbers ∧ e.bitshifts.Reorder e'.bitshifts

theorem Src.Reorder.refl {α : Type} (s : Src α) : s.Reorder s := by
  cases s with
  | none => exact .none
  | str s => exact .str s
  | dict l => exact .dict l l (List.Perm.refl l)

theorem reorder_declares {e e' : Enum} (h : Reorder e e') (k : Name) (n : Nat) : Declares e k n ↔ Declares e' k n := by
  obtain ⟨p, a, b⟩ := e
  obtain ⟨p', a', b'⟩ := e'
  obtain ⟨_, h2, h3⟩ := h
  simp only [Declares] at h2 h3 ⊢
  have e1 : NumberOf k n a ↔ NumberOf k n a' := by
    cases h2 with
    | none => rfl
    | str s => rfl
    | dict l l' hp => simp only [NumberOf, hp.mem_iff]
  have e2 : FlagOf k n b ↔ FlagOf k n b' := by
    cases h3 with
    | none => rfl
    | str s => rfl
    | dict l l' hp => simp only [FlagOf, hp.mem_iff]
  rw [e1, e2]

/-- The constant `c` is declared with value `v` by one of the enumerations. -/
def DeclaredIn (es : List Enum) (c : Name) (v : Nat) : Prop := ∃ e ∈ es, ∃ k, Declares e k v ∧ c = fullName e k

theorem reorder_declaredIn {es es' : List Enum} (h : List.Forall₂ Reorder es es') (c : Name) (v : Nat) :
    DeclaredIn es c v ↔ DeclaredIn es' c v := by
  induction h with
  | nil => rfl
  | @cons e e' es es' h _ ih =>
    have hf : ∀ k, fullName e k = fullName e' k := fun k => by simp [fullName, h.1]
    simp only [DeclaredIn, List.mem_cons, exists_eq_or_imp] at ih ⊢
    rw [ih]
    simp only [reorder_declares h, hf]

/-- All constants. -/
def decls (es : List Enum) : List (Name × Nat) := es.flatMap fun e => (items e).map fun kv => (full e kv.1, kv.2)

theorem mem_decls (es : List Enum) (c : Name) (v : Nat) : (c, v) ∈ decls es ↔ DeclaredIn es c v := by
  simp only [decls, DeclaredIn, List.mem_flatMap, List.mem_map, Prod.exists, Prod.mk.injEq]
  refine exists_congr fun e => and_congr_right fun _ => ?_
  constructor
  · rintro ⟨k, n, h, h1, rfl⟩; exact ⟨k, (mem_items e k n).1 h, by rw [← full_eq]; exact h1.symm⟩
  · rintro ⟨k, h, h1⟩; exact ⟨k, v, (mem_items e k v).2 h, by rw [full_eq]; exact h1.symm, rfl⟩

theorem defineAll_iff (es : List Enum) (hc : ∀ c v w, DeclaredIn es c v → DeclaredIn es c w → v = w) (scope : Scope) (c : Name) (v : Nat) :
    defineAll scope es c = some v ↔ DeclaredIn es c v ∨ ((∀ w, ¬ DeclaredIn es c w) ∧ scope c = some v) := by
  induction es generalizing scope with
  | nil => simp [defineAll, DeclaredIn]
  | cons e es ih =>
    have hsub : ∀ c v, DeclaredIn es c v → DeclaredIn (e :: es) c v := fun c v ⟨e', h, h'⟩ => ⟨e', by simp [h], h'⟩
    have hce : Consistent e := fun k n m h h' => hc (fullName e k) n m ⟨e, by simp, k, h, rfl⟩ ⟨e, by simp, k, h', rfl⟩
    have ih := ih (fun c v w h h' => hc c v w (hsub c v h) (hsub c w h')) (init scope e)
    rw [defineAll, List.foldl_cons]
    rw [defineAll] at ih
    rw [ih, C77_constants scope e hce]
    have hcons : ∀ w, DeclaredIn (e :: es) c w ↔ (∃ k, Declares e k w ∧ c = fullName e k) ∨ DeclaredIn es c w := by
      intro w; simp only [DeclaredIn, List.mem_cons, exists_eq_or_imp]
    constructor
    · rintro (h | ⟨h, h' | ⟨h', h''⟩⟩)
      · exact .inl (hsub c v h)
      · exact .inl ((hcons v).2 (.inl h'))
      · refine .inr ⟨fun w hw => ?_, h''⟩
        rcases (hcons w).1 hw with ⟨k, hk, rfl⟩ | hw
        · exact h' k w hk rfl
        · exact h w hw
    · rintro (h | ⟨h, h'⟩)
      · rcases (hcons v).1 h with ⟨k, hk, rfl⟩ | h'
        · by_cases hex : ∃ w, DeclaredIn es (fullName e k) w
          · obtain ⟨w, hw⟩ := hex
            have := hc _ v w h (hsub _ w hw)
            subst this
            exact .inl hw
          · exact .inr ⟨fun w hw => hex ⟨w, hw⟩, .inl ⟨k, hk, rfl⟩⟩
        · exact .inl h'
      · refine .inr ⟨fun w hw => h w (hsub c w hw), .inr ⟨fun k n hk e' => h n ((hcons n).2 (.inl ⟨k, hk, e'⟩)), h'⟩⟩

/-- A name as a number. -/
def key : Name → Nat
  | [] => 0
  | c :: s => c.toNat + 1 + 2097152 * key s

theorem key_inj : ∀ {a b : Name}, key a = key b → a = b
  | [], [], _ => rfl
  | [], c :: s, h => by simp only [key] at h; omega
  | c :: s, [], h => by simp only [key] at h; omega
  | c :: s, d :: t, h => by
    have hlt : ∀ c : Char, c.toNat < 1114112 := by
      intro c
      rcases c.valid with h | h
      · exact Nat.lt_trans h (by decide)
      · exact h.2
    simp only [key] at h
    have h1 := hlt c
    have h2 := hlt d
    have h3 : c.toNat = d.toNat ∧ key s = key t := by omega
    rw [key_inj h3.2]
    have : c = d := by rw [← Char.ofNat_toNat c, h3.1, Char.ofNat_toNat]
    rw [this]

/-- A search tree. -/
inductive Tree where
  | leaf
  | node (l : Tree) (k v : Nat) (r : Tree)

def Tree.insert : Tree → Nat → Nat → Tree
  | .leaf, k, v => .node .leaf k v .leaf
  | .node l k' v' r, k, v =>
    bif Nat.beq k k' then .node l k v r
    else bif Nat.blt k k' then .node (l.insert k v) k' v' r else .node l k' v' (r.insert k v)

def Tree.lookup : Tree → Nat → Option Nat
  | .leaf, _ => none
  | .node l k' v' r, k => bif Nat.beq k k' then some v' else bif Nat.blt k k' then l.lookup k else r.lookup k

def Tree.build : List (Nat × Nat) → Tree → Tree
  | [], t => t
  | p :: l, t => Tree.build l (t.insert p.1 p.2)

theorem Tree.lookup_insert (t : Tree) (k v k' w : Nat) (h : (t.insert k v).lookup k' = some w) :
    (k' = k ∧ w = v) ∨ t.lookup k' = some w := by
  induction t with
  | leaf =>
    simp only [Tree.insert, Tree.lookup] at h
    cases hb : Nat.beq k' k with
    | true => rw [hb] at h; exact .inl ⟨Nat.eq_of_beq_eq_true hb, by simpa using h.symm⟩
    | false => rw [hb] at h; simp at h
  | node l x y r ihl ihr =>
    simp only [Tree.insert] at h
    cases hb : Nat.beq k x with
    | true =>
      have := Nat.eq_of_beq_eq_true hb
      subst this
      rw [hb] at h
      simp only [cond_true, Tree.lookup] at h ⊢
      cases hb' : Nat.beq k' k with
      | true => rw [hb'] at h; exact .inl ⟨Nat.eq_of_beq_eq_true hb', by simpa using h.symm⟩
      | false => rw [hb'] at h; exact .inr h
    | false =>
      rw [hb] at h
      simp only [cond_false] at h
      cases hl : Nat.blt k x with
      | true =>
        rw [hl] at h
        simp only [cond_true, Tree.lookup] at h ⊢
        cases hb' : Nat.beq k' x with
        | true => rw [hb'] at h; exact .inr h
        | false =>
          rw [hb'] at h
          cases hl' : Nat.blt k' x with
          | true => rw [hl'] at h; simpa using ihl (by simpa using h)
          | false => rw [hl'] at h; exact .inr h
      | false =>
        rw [hl] at h
        simp only [cond_false, Tree.lookup] at h ⊢
        cases hb' : Nat.beq k' x with
        | true => rw [hb'] at h; exact .inr h
        | false =>
          rw [hb'] at h
          cases hl' : Nat.blt k' x with
          | true => rw [hl'] at h; exact .inr h
          | false => rw [hl'] at h; simpa using ihr (by simpa using h)

theorem Tree.lookup_build (l : List (Nat × Nat)) (t : Tree) (k v : Nat) (h : (Tree.build l t).lookup k = some v) :
    (k, v) ∈ l ∨ t.lookup k = some v := by
  induction l generalizing t with
  | nil => exact .inr h
  | cons p l ih =>
    rcases ih _ h with h' | h'
    · exact .inl (by simp [h'])
    · rcases Tree.lookup_insert _ _ _ _ _ h' with ⟨rfl, rfl⟩ | h'
      · exact .inl (by simp)
      · exact .inr h'

/-- All constants, names as numbers. -/
def keyed (es : List Enum) : List (Nat × Nat) := (decls es).map fun p => (key p.1, p.2)

/-- The search tree of all constants. -/
def tree (es : List Enum) : Tree := Tree.build (keyed es) .leaf

/-- Every constant is found in the tree with its value, so that no constant has two. -/
def checkAll (t : Tree) : List (Nat × Nat) → Bool
  | [] => true
  | p :: l => (match t.lookup p.1 with | none => false | some v => Nat.beq v p.2) && checkAll t l

theorem checkAll_mem {t : Tree} {l : List (Nat × Nat)} (h : checkAll t l = true) (p : Nat × Nat) (hp : p ∈ l) : t.lookup p.1 = some p.2 := by
  induction l with
  | nil => simp at hp
  | cons q l ih =>
    simp only [checkAll, Bool.and_eq_true] at h
    rcases List.mem_cons.1 hp with rfl | hp
    · have h1 := h.1
      split at h1
      · cases h1
      · rename_i heq; rw [heq, Nat.eq_of_beq_eq_true h1]
    · exact ih h.2 hp

theorem tree_declared {es : List Enum} {c : Name} {v : Nat} (h : (tree es).lookup (key c) = some v) : DeclaredIn es c v := by
  rcases Tree.lookup_build _ _ _ _ h with h | h
  · simp only [keyed, List.mem_map, Prod.mk.injEq, Prod.exists] at h
    obtain ⟨c', v', h2, h1, rfl⟩ := h
    rw [← key_inj h1]
    exact (mem_decls es c' v').1 h2
  · cases h

theorem declared_tree {es : List Enum} (h : checkAll (tree es) (keyed es) = true) {c : Name} {v : Nat} (hd : DeclaredIn es c v) :
    (tree es).lookup (key c) = some v := by
  refine checkAll_mem h (key c, v) ?_
  simp only [keyed, List.mem_map, Prod.mk.injEq, Prod.exists]
  exact ⟨c, v, (mem_decls es c v).2 hd, rfl, rfl⟩

theorem defineAll_tree {es es' : List Enum} (h : checkAll (tree es) (keyed es) = true) (hr : List.Forall₂ Reorder es es') (scope : Scope)
    (c : Name) : defineAll scope es' c = ((tree es).lookup (key c)).or (scope c) := by
  have hc : ∀ c v w, DeclaredIn es' c v → DeclaredIn es' c w → v = w := by
    intro c v w h1 h2
    have e1 := declared_tree h ((reorder_declaredIn hr c v).2 h1)
    have e2 := declared_tree h ((reorder_declaredIn hr c w).2 h2)
    rw [e1] at e2
    exact Option.some.inj e2
  have hiff := defineAll_iff es' hc scope c
  simp only [← reorder_declaredIn hr] at hiff
  cases ht : (tree es).lookup (key c) with
  | some v => exact (hiff v).2 (.inl (tree_declared ht))
  | none =>
    have hno : ∀ w, ¬ DeclaredIn es c w := fun w hw => by rw [declared_tree h hw] at ht; cases ht
    rw [Option.none_or]
    refine Option.ext fun v => ?_
    rw [hiff v]
    constructor
    · rintro (h' | h')
      · exact (hno v h').elim
      · exact h'.2
    · exact fun h' => .inr ⟨hno, h'⟩

/-- One constant of the standard against the tree. -/
def checkOne (t : Tree) (wrong : List (Nat × Nat)) (missing : List Nat) (c v : Nat) : Bool :=
  match wrong.find? fun p => Nat.beq p.1 c with
  | some p => t.lookup c == some p.2 && !Nat.beq p.2 v && (wrong.all fun q => !Nat.beq q.1 c || Nat.beq q.2 p.2) && !missing.contains c
  | none => bif missing.any (Nat.beq c) then t.lookup c == none else t.lookup c == some v

theorem table_ok {es es' : List Enum} {std wrong : List (Name × Nat)} {missing : List Name}
    (h : checkAll (tree es) (keyed es) = true)
    (ht : (std.all fun p => checkOne (tree es) (wrong.map fun p => (key p.1, p.2)) (missing.map key) (key p.1) p.2) = true)
    (hr : List.Forall₂ Reorder es es') {scope : Scope} {c : Name} {v : Nat} (hc : (c, v) ∈ std) :
    (∀ w, (c, w) ∈ wrong → defineAll scope es' c = some w ∧ w ≠ v) ∧
    (c ∈ missing → defineAll scope es' c = scope c) ∧
    ((∀ w, (c, w) ∉ wrong) → c ∉ missing → defineAll scope es' c = some v) := by
  have h1 := List.all_eq_true.1 ht (c, v) hc
  rw [defineAll_tree h hr scope c]
  simp only [checkOne] at h1
  split at h1
  · rename_i p hf
    simp only [Bool.and_eq_true, Bool.not_eq_true', beq_iff_eq, List.all_eq_true, Bool.or_eq_true] at h1
    obtain ⟨⟨⟨h1, h2⟩, h3⟩, h4⟩ := h1
    have hp := List.find?_some hf
    have hm := List.mem_of_find?_eq_some hf
    simp only [List.mem_map, Prod.exists] at hm
    obtain ⟨c', w', hm, rfl⟩ := hm
    have hcc : c' = c := key_inj (Nat.eq_of_beq_eq_true hp)
    subst hcc
    refine ⟨fun w hw => ?_, fun hmis => ?_, fun hno => (hno w' hm).elim⟩
    · have h5 := h3 (key c', w) (List.mem_map.2 ⟨(c', w), hw, rfl⟩)
      rw [show Nat.beq (key c') (key c') = true from Nat.beq_refl _] at h5
      simp only [Bool.true_eq_false, false_or] at h5
      have := Nat.eq_of_beq_eq_true h5
      subst this
      rw [h1]
      refine ⟨rfl, fun e => ?_⟩
      subst e
      rw [show Nat.beq w w = true from Nat.beq_refl _] at h2
      cases h2
    · have : (missing.map key).contains (key c') = true := by
        rw [List.contains_iff_mem]; exact List.mem_map.2 ⟨c', hmis, rfl⟩
      rw [this] at h4; cases h4
  · rename_i hf
    have hno : ∀ w, (c, w) ∉ wrong := by
      intro w hw
      have := List.find?_eq_none.1 hf (key c, w) (List.mem_map.2 ⟨(c, w), hw, rfl⟩)
      exact this (Nat.beq_refl _)
    have hmis : (missing.map key).any (Nat.beq (key c)) = true ↔ c ∈ missing := by
      simp only [List.any_eq_true, List.mem_map, exists_exists_and_eq_and]
      constructor
      · rintro ⟨a, ha, hk⟩; rw [key_inj (Nat.eq_of_beq_eq_true hk)]; exact ha
      · intro ha; exact ⟨c, ha, Nat.beq_refl _⟩
    refine ⟨fun w hw => (hno w hw).elim, fun hm => ?_, fun _ hm => ?_⟩
    · rw [hmis.2 hm] at h1
      simp only [cond_true, beq_iff_eq] at h1
      rw [h1]; rfl
    · have : (missing.map key).any (Nat.beq (key c)) = false := by
        rw [← Bool.not_eq_true, hmis]; exact hm
      rw [this] at h1
      simp only [cond_false, beq_iff_eq] at h1
      rw [h1]; rfl

end Twink.Enum
