import Verif.Proof.Of13Loop
import Verif.Proof.Fields
import Verif.Spec.Reads

/-! Reading at an offset, loops, and texts, against `Spec/Reads`. -/

namespace Twink.Reads
open Fmt Spec Of13

theorem part_slice (m : Bytes) (i j : Nat) : slice m i j = part m i j := by
  rw [slice, part, List.drop_take]

theorem up8_align (n : Nat) : align n = up8 n := by
  unfold align up8; omega

/-- The fields of a format, each at its place. -/
def vals : Fmt → Bytes → Nat → List Val
  | [], _, _ => []
  | .u 1 :: f, m, o => .int (u8 m o) :: vals f m (o + 1)
  | .u 2 :: f, m, o => .int (u16 m o) :: vals f m (o + 2)
  | .u 4 :: f, m, o => .int (u32 m o) :: vals f m (o + 4)
  | .u 8 :: f, m, o => .int (u64 m o) :: vals f m (o + 8)
  | .u w :: f, m, o => .int (decBE (part m o (o + w))) :: vals f m (o + w)
  | .s n :: f, m, o => .str (part m o (o + n)) :: vals f m (o + n)
  | .x n :: f, m, o => vals f m (o + n)

theorem take_drop_part (m : Bytes) (o w : Nat) : (m.drop o).take w = part m o (o + w) := by
  rw [part, List.drop_take, Nat.add_sub_cancel_left]

theorem dec_vals (f : Fmt) (m : Bytes) (o : Nat) (h : o + calcsize f ≤ m.length) : dec f (m.drop o) = vals f m o := by
  induction f generalizing o with
  | nil => rfl
  | cons i f ih =>
    cases i with
    | x n => simp only [calcsize, Item.width] at h; simp only [dec, vals, List.drop_drop]; exact ih (o + n) (by omega)
    | s n =>
      simp only [calcsize, Item.width] at h
      simp only [dec, vals, List.drop_drop, take_drop_part]; rw [ih (o + n) (by omega)]
    | u w =>
      simp only [calcsize, Item.width] at h
      have e : dec (.u w :: f) (m.drop o) = .int (decBE ((m.drop o).take w)) :: vals f m (o + w) := by
        simp only [dec, List.drop_drop]; rw [ih (o + w) (by omega)]
      rw [e]
      by_cases h1 : w = 1
      · subst h1; rw [decBE_u8 m o (by omega)]; rfl
      by_cases h2 : w = 2
      · subst h2; rw [decBE_u16 m o (by omega)]; rfl
      by_cases h4 : w = 4
      · subst h4; rw [decBE_u32 m o (by omega)]; rfl
      by_cases h8 : w = 8
      · subst h8; rw [decBE_u64 m o (by omega)]; rfl
      rw [vals, take_drop_part] <;> assumption

theorem rd_iff {f : Fmt} {m : Bytes} {o : Nat} {k : List Val → Option α} {r : α × Nat} :
    rd f m o k = .ok r ↔ o + calcsize f ≤ m.length ∧ k (vals f m o) = some r.1 ∧ r.2 = o + calcsize f := by
  unfold rd unpackFrom
  by_cases h : o + calcsize f ≤ m.length
  · rw [if_pos h, dec_vals f m o h]
    simp only
    cases k (vals f m o) with
    | none => simp
    | some a => simp only [ok_inj, h, Option.some.injEq, true_and]; constructor
                · rintro rfl; exact ⟨rfl, rfl⟩
                · rintro ⟨rfl, h2⟩; exact Prod.ext rfl h2.symm
  · rw [if_neg h]; simp [h]

/-! ### loops -/

theorem whileFetch_iff {fetch : Nat → Py (α × Nat)} {At : Nat → α → Nat → Prop} (hf : ∀ o a e, fetch o = .ok (a, e) ↔ At o a e)
    (limit o : Nat) (l : List α) (e : Nat) : whileFetch fetch limit o = .ok (l, e) ↔ Row At limit o l e := by
  induction l generalizing o with
  | nil =>
    rw [whileFetch, Row]
    by_cases h : o < limit
    · rw [if_pos h]
      constructor
      · intro h2
        cases hx : fetch o with
        | error x => simp [hx] at h2
        | ok p =>
          obtain ⟨a, o'⟩ := p
          simp only [hx] at h2
          split at h2
          · split at h2
            · simp at h2
            · simp at h2
          · simp at h2
      · omega
    · rw [if_neg h]; simp only [ok_inj, Prod.mk.injEq, true_and]; omega
  | cons a l ih =>
    rw [whileFetch, Row]
    by_cases h : o < limit
    · rw [if_pos h]
      constructor
      · intro h2
        cases hx : fetch o with
        | error x => simp [hx] at h2
        | ok p =>
          obtain ⟨b, o'⟩ := p
          simp only [hx] at h2
          split at h2
          · rename_i hlt
            split at h2
            · simp at h2
            · rename_i as e' hw
              simp only [ok_inj, Prod.mk.injEq, List.cons.injEq] at h2
              obtain ⟨⟨rfl, rfl⟩, rfl⟩ := h2
              exact ⟨h, o', (hf _ _ _).1 hx, hlt, (ih o').1 hw⟩
          · simp at h2
      · rintro ⟨-, o', h1, h2, h3⟩
        rw [(hf _ _ _).2 h1]
        simp only [h2, ↓reduceIte, (ih o').2 h3]
    · rw [if_neg h]; simp only [ok_inj, Prod.mk.injEq]
      constructor
      · rintro ⟨h1, -⟩; cases h1
      · rintro ⟨h1, -⟩; exact absurd h1 h

theorem listFetch_iff {fetch : Nat → Py (α × Nat)} {At : Nat → α → Nat → Prop} (hf : ∀ o a e, fetch o = .ok (a, e) ↔ At o a e)
    (limit o : Nat) (l : List α) (e : Nat) : listFetch fetch limit o = .ok (l, e) ↔ Row At limit o l e ∧ e = limit := by
  rw [listFetch, bind_ok, ← whileFetch_iff hf]
  constructor
  · rintro ⟨⟨l', e'⟩, h1, h2⟩
    simp only [bind_ok, pyAssert_ok, ok_inj, Prod.mk.injEq] at h2
    obtain ⟨_, rfl, rfl, rfl⟩ := h2
    exact ⟨h1, rfl⟩
  · rintro ⟨h1, rfl⟩
    exact ⟨_, h1, by simp [pyAssert, ok_bind]⟩

theorem whileFetch_never {fetch : Nat → Py (α × Nat)} {At : Nat → α → Nat → Prop} {Never : Nat → Prop}
    (hf : ∀ o a e, fetch o = .ok (a, e) ↔ At o a e) (hn : ∀ o, fetch o = .error .diverges ↔ Never o) (limit o : Nat) :
    whileFetch fetch limit o = .error .diverges ↔ Endless At Never limit o := by
  constructor
  · intro h
    induction hk : limit - o using Nat.strongRecOn generalizing o with
    | ind k ih =>
      rw [whileFetch] at h
      split at h
      · rename_i hlt
        cases hfe : fetch o with
        | error e => rw [hfe] at h; simp at h; exact .inside hlt ((hn o).1 (by rw [hfe, h]))
        | ok p =>
          obtain ⟨a, o'⟩ := p
          rw [hfe] at h
          simp only at h
          split at h
          · rename_i hp
            have h1 : whileFetch fetch limit o' = .error .diverges := by
              cases hw : whileFetch fetch limit o' with
              | error e => rw [hw] at h; simpa using h
              | ok q => rw [hw] at h; simp at h
            exact .later hlt ((hf _ _ _).1 hfe) hp (ih (limit - o') (by omega) o' h1 rfl)
          · exact .stuck hlt ((hf _ _ _).1 hfe) (by omega)
      · simp at h
  · intro h
    induction h with
    | stuck h1 h2 h3 => rw [whileFetch, if_pos h1, (hf _ _ _).2 h2]; simp only [Nat.not_lt.2 h3, ↓reduceIte]
    | inside h1 h2 => rw [whileFetch, if_pos h1, (hn _).2 h2]
    | later h1 h2 h3 _ ih => rw [whileFetch, if_pos h1, (hf _ _ _).2 h2]; simp only [h3, ↓reduceIte, ih]

theorem listFetch_never {fetch : Nat → Py (α × Nat)} {At : Nat → α → Nat → Prop} {Never : Nat → Prop}
    (hf : ∀ o a e, fetch o = .ok (a, e) ↔ At o a e) (hn : ∀ o, fetch o = .error .diverges ↔ Never o) (limit o : Nat) :
    listFetch fetch limit o = .error .diverges ↔ Endless At Never limit o := by
  rw [← whileFetch_never hf hn, listFetch]
  constructor
  · intro h
    rcases bind_diverges h with h | ⟨a, _, h⟩
    · exact h
    · rcases bind_diverges h with h | ⟨_, _, h⟩
      · exact absurd h assert_nd
      · simp at h
  · intro h; rw [h]; rfl

/-- When a sequence does not end. -/
theorem bind_never {x : Py α} {f : α → Py β} : (x >>= f) = .error .diverges ↔ x = .error .diverges ∨ ∃ a, x = .ok a ∧ f a = .error .diverges :=
  ⟨bind_diverges, by rintro (h | ⟨a, h, h2⟩) <;> rw [h]; · rfl
                     · exact h2⟩

/-! ### texts -/

theorem upToNul_iff (b s : Bytes) : UpToNul b s ↔ beforeNul b = s := by
  unfold UpToNul beforeNul
  induction b generalizing s with
  | nil =>
    simp only [List.takeWhile_nil, List.nil_eq_append_iff, List.cons_ne_nil, and_false, exists_false, or_false]
    constructor
    · rintro ⟨-, rfl⟩; rfl
    · rintro rfl; simp
  | cons x b ih =>
    by_cases hx : x = 0
    · subst hx
      simp only [bne_self_eq_false, Bool.false_eq_true, not_false_eq_true, List.takeWhile_cons_of_neg]
      constructor
      · rintro ⟨h1, rfl | ⟨r, h2⟩⟩
        · simp at h1
        · cases s with
          | nil => rfl
          | cons y s => simp only [List.cons_append, List.cons.injEq] at h2; exact absurd (h2.1 ▸ List.mem_cons_self) h1
      · rintro rfl; exact ⟨by simp, .inr ⟨b, rfl⟩⟩
    · rw [List.takeWhile_cons_of_pos (by simpa using hx)]
      cases s with
      | nil =>
        simp only [reduceCtorEq, iff_false]
        rintro ⟨-, h | ⟨r, h⟩⟩
        · cases h
        · simp only [List.nil_append, List.cons.injEq] at h; exact hx h.1
      | cons y s =>
        simp only [List.cons.injEq, List.mem_cons, not_or, List.cons_append]
        rw [← ih s]
        constructor
        · rintro ⟨⟨h1, h2⟩, ⟨rfl, rfl⟩ | ⟨r, rfl, rfl⟩⟩
          · exact ⟨rfl, h2, .inl rfl⟩
          · exact ⟨rfl, h2, .inr ⟨r, rfl⟩⟩
        · rintro ⟨rfl, h2, rfl | ⟨r, rfl⟩⟩
          · exact ⟨⟨fun h => hx h.symm, h2⟩, .inl ⟨rfl, rfl⟩⟩
          · exact ⟨⟨fun h => hx h.symm, h2⟩, .inr ⟨r, rfl, rfl⟩⟩

theorem cont_iff (b : UInt8) : cont b = true ↔ 128 ≤ b.toNat ∧ b.toNat < 192 := by
  unfold cont
  simp only [Bool.and_eq_true, decide_eq_true_eq, UInt8.le_iff_toNat_le]
  have h1 : (0x80 : UInt8).toNat = 128 := rfl
  have h2 : (0xbf : UInt8).toNat = 191 := rfl
  omega

theorem byte_is {a : UInt8} {n : Nat} (h : a.toNat = n) : UInt8.ofNat n = a := by
  rw [← h]; exact UInt8.ofNat_toNat

theorem utf8_one {a : UInt8} (h : a.toNat < 128) : ∃ c, c ≤ 0x10ffff ∧ utf8 c = [a] :=
  ⟨a.toNat, by omega, by rw [utf8, if_pos (by omega), byte_is rfl]⟩

theorem utf8_two {a b : UInt8} (h : 0xc2 ≤ a.toNat ∧ a.toNat ≤ 0xdf) (hb : 128 ≤ b.toNat ∧ b.toNat < 192) :
    ∃ c, c ≤ 0x10ffff ∧ utf8 c = [a, b] := by
  refine ⟨(a.toNat - 0xc0) * 64 + (b.toNat - 0x80), by omega, ?_⟩
  rw [utf8, if_neg (by omega), if_pos (by omega), byte_is (a := a) (by omega), byte_is (a := b) (by omega)]

theorem utf8_three {a b c : UInt8} (h : 0xe0 ≤ a.toNat ∧ a.toNat ≤ 0xef) (hb : 128 ≤ b.toNat ∧ b.toNat < 192)
    (hc : 128 ≤ c.toNat ∧ c.toNat < 192) (ho : a.toNat = 0xe0 → 0xa0 ≤ b.toNat) :
    ∃ n, n ≤ 0x10ffff ∧ utf8 n = [a, b, c] := by
  refine ⟨(a.toNat - 0xe0) * 4096 + (b.toNat - 0x80) * 64 + (c.toNat - 0x80), by omega, ?_⟩
  rw [utf8, if_neg (by omega), if_neg (by omega), if_pos (by omega), byte_is (a := a) (by omega), byte_is (a := b) (by omega),
    byte_is (a := c) (by omega)]

theorem utf8_four {a b c d : UInt8} (h : 0xf0 ≤ a.toNat ∧ a.toNat ≤ 0xf4) (hb : 128 ≤ b.toNat ∧ b.toNat < 192)
    (hc : 128 ≤ c.toNat ∧ c.toNat < 192) (hd : 128 ≤ d.toNat ∧ d.toNat < 192) (ho : a.toNat = 0xf0 → 0x90 ≤ b.toNat)
    (ht : a.toNat = 0xf4 → b.toNat ≤ 0x8f) : ∃ n, n ≤ 0x10ffff ∧ utf8 n = [a, b, c, d] := by
  refine ⟨(a.toNat - 0xf0) * 262144 + (b.toNat - 0x80) * 4096 + (c.toNat - 0x80) * 64 + (d.toNat - 0x80), by omega, ?_⟩
  rw [utf8, if_neg (by omega), if_neg (by omega), if_neg (by omega), byte_is (a := a) (by omega), byte_is (a := b) (by omega),
    byte_is (a := c) (by omega), byte_is (a := d) (by omega)]

theorem utf8_cons {s : Bytes} {n : Nat} {r : Bytes} (hn : n ≤ 0x10ffff) (h : utf8 n = s) (hr : Utf8 r) : Utf8 (s ++ r) := by
  obtain ⟨cs, h1, rfl⟩ := hr
  refine ⟨n :: cs, ?_, by rw [List.flatMap_cons, h]⟩
  intro c hc
  rcases List.mem_cons.1 hc with rfl | hc
  · exact hn
  · exact h1 c hc

theorem le_nat (a b : UInt8) : (a ≤ b) = (a.toNat ≤ b.toNat) := propext UInt8.le_iff_toNat_le
theorem lt_nat (a b : UInt8) : (a < b) = (a.toNat < b.toNat) := propext UInt8.lt_iff_toNat_lt
theorem ne_nat (a b : UInt8) : (a != b) = true ↔ a.toNat ≠ b.toNat := by
  rw [bne_iff_ne, ne_eq, ne_eq, UInt8.toNat_inj]

theorem utf8Ok_utf8 (b : Bytes) (h : utf8Ok b = true) : Utf8 b := by
  induction hk : b.length using Nat.strongRecOn generalizing b with
  | ind k ih =>
    rw [utf8Ok.eq_def] at h
    cases b with
    | nil => exact ⟨[], by simp, rfl⟩
    | cons a rest =>
      simp only [Bool.and_eq_true, decide_eq_true_eq, le_nat, lt_nat] at h
      split at h
      · rename_i h1
        obtain ⟨n, hn, he⟩ := utf8_one (a := a) h1
        exact utf8_cons hn he (ih _ (by simp at hk; omega) rest h rfl)
      · split at h
        · rename_i h1
          split at h
          · rename_i b rest
            simp only [cont_iff, Bool.and_eq_true] at h
            obtain ⟨n, hn, he⟩ := utf8_two (a := a) (b := b) h1 h.1
            exact utf8_cons hn he (ih _ (by simp at hk; omega) rest h.2 rfl)
          · cases h
        · split at h
          · rename_i h1
            split at h
            · rename_i b c rest
              simp only [cont_iff, Bool.and_eq_true, Bool.or_eq_true, ne_nat, decide_eq_true_eq, le_nat] at h
              obtain ⟨⟨⟨hb, ho⟩, hc⟩, hr⟩ := h
              obtain ⟨n, hn, he⟩ := utf8_three (a := a) (b := b) (c := c) h1 hb hc (fun e => ho.resolve_left (fun h => h e))
              exact utf8_cons hn he (ih _ (by simp at hk; omega) rest hr rfl)
            · cases h
          · split at h
            · rename_i h1
              split at h
              · rename_i b c d rest
                simp only [cont_iff, Bool.and_eq_true, Bool.or_eq_true, ne_nat, decide_eq_true_eq, le_nat] at h
                obtain ⟨⟨⟨⟨⟨hb, ho⟩, ht⟩, hc⟩, hd⟩, hr⟩ := h
                obtain ⟨n, hn, he⟩ := utf8_four (a := a) (b := b) (c := c) (d := d) h1 hb hc hd (fun e => ho.resolve_left (fun h => h e))
                  (fun e => ht.resolve_left (fun h => h e))
                exact utf8_cons hn he (ih _ (by simp at hk; omega) rest hr rfl)
              · cases h
            · cases h

theorem toNat_ofNat_lt {n : Nat} (h : n < 256) : (UInt8.ofNat n).toNat = n := by
  simp only [UInt8.toNat_ofNat']; omega

theorem utf8Ok_append (n : Nat) (hn : n ≤ 0x10ffff) (r : Bytes) (hr : utf8Ok r = true) : utf8Ok (utf8 n ++ r) = true := by
  unfold utf8
  split
  · rename_i h
    rw [List.singleton_append, utf8Ok.eq_def]
    have e := toNat_ofNat_lt (n := n) (by omega)
    simp only [lt_nat, e, UInt8.reduceToNat, h, ↓reduceIte, hr]
  · split
    · rename_i h0 h
      have e := toNat_ofNat_lt (n := 0xc0 + n / 64) (by omega)
      have e2 := toNat_ofNat_lt (n := 0x80 + n % 64) (by omega)
      have c2 : cont (UInt8.ofNat (0x80 + n % 64)) = true := (cont_iff _).2 (by omega)
      rw [List.cons_append, List.singleton_append, utf8Ok]
      simp only [lt_nat, le_nat, e, UInt8.reduceToNat, Bool.and_eq_true, decide_eq_true_eq, hr, c2]
      rw [if_neg (by omega), if_pos (by omega)]; rfl
    · split
      · rename_i h0 h1 h
        have e := toNat_ofNat_lt (n := 0xe0 + n / 4096) (by omega)
        have e2 := toNat_ofNat_lt (n := 0x80 + n / 64 % 64) (by omega)
        have e3 := toNat_ofNat_lt (n := 0x80 + n % 64) (by omega)
        have c2 : cont (UInt8.ofNat (0x80 + n / 64 % 64)) = true := (cont_iff _).2 (by omega)
        have c3 : cont (UInt8.ofNat (0x80 + n % 64)) = true := (cont_iff _).2 (by omega)
        rw [List.cons_append, List.cons_append, List.singleton_append, utf8Ok]
        simp only [lt_nat, le_nat, e, e2, UInt8.reduceToNat, Bool.and_eq_true, decide_eq_true_eq, hr, c2, c3]
        rw [if_neg (by omega), if_neg (by omega), if_pos (by omega)]
        simp only [Bool.and_eq_true, Bool.or_eq_true, ne_nat, decide_eq_true_eq, e, UInt8.reduceToNat, and_true, true_and]
        omega
      · rename_i h0 h1 h2
        have e := toNat_ofNat_lt (n := 0xf0 + n / 262144) (by omega)
        have e2 := toNat_ofNat_lt (n := 0x80 + n / 4096 % 64) (by omega)
        have e3 := toNat_ofNat_lt (n := 0x80 + n / 64 % 64) (by omega)
        have e4 := toNat_ofNat_lt (n := 0x80 + n % 64) (by omega)
        have c2 : cont (UInt8.ofNat (0x80 + n / 4096 % 64)) = true := (cont_iff _).2 (by omega)
        have c3 : cont (UInt8.ofNat (0x80 + n / 64 % 64)) = true := (cont_iff _).2 (by omega)
        have c4 : cont (UInt8.ofNat (0x80 + n % 64)) = true := (cont_iff _).2 (by omega)
        rw [List.cons_append, List.cons_append, List.cons_append, List.singleton_append, utf8Ok]
        simp only [lt_nat, le_nat, e, e2, UInt8.reduceToNat, Bool.and_eq_true, decide_eq_true_eq, hr, c2, c3, c4]
        rw [if_neg (by omega), if_neg (by omega), if_neg (by omega), if_pos (by omega)]
        simp only [Bool.and_eq_true, Bool.or_eq_true, ne_nat, decide_eq_true_eq, e, UInt8.reduceToNat, and_true, true_and]
        omega

/-- What Python 2's decoder accepts is what encodes a text. -/
theorem utf8Ok_iff (b : Bytes) : utf8Ok b = true ↔ Utf8 b := by
  refine ⟨utf8Ok_utf8 b, ?_⟩
  rintro ⟨cs, h, rfl⟩
  induction cs with
  | nil => rfl
  | cons c cs ih =>
    rw [List.flatMap_cons]
    exact utf8Ok_append c (h c List.mem_cons_self) _ (ih fun x hx => h x (List.mem_cons_of_mem _ hx))

end Twink.Reads
