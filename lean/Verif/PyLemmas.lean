import Verif.Py

/-! Helper lemmas about the Python primitives. -/

namespace Twink

theorem decBE_foldl (b : Bytes) (a : Nat) :
    b.foldl (fun a x => a * 256 + x.toNat) a = a * 256 ^ b.length + decBE b := by
  induction b generalizing a with
  | nil => simp [decBE]
  | cons x b ih =>
    simp only [decBE, List.foldl_cons, List.length_cons]
    rw [ih, ih]
    simp only [Nat.zero_mul, Nat.zero_add]
    rw [Nat.add_mul, Nat.pow_succ, Nat.mul_assoc, Nat.mul_comm 256, Nat.add_assoc]

@[simp] theorem decBE_nil : decBE [] = 0 := rfl

theorem decBE_cons (x : UInt8) (b : Bytes) : decBE (x :: b) = x.toNat * 256 ^ b.length + decBE b := by
  simp only [decBE, List.foldl_cons]
  rw [decBE_foldl]; simp [decBE]

@[simp] theorem encBE_length (w n : Nat) : (encBE w n).length = w := by
  induction w generalizing n with
  | zero => rfl
  | succ w ih => simp [encBE, ih]

theorem decBE_encBE (w n : Nat) (h : n < 256 ^ w) : decBE (encBE w n) = n := by
  induction w generalizing n with
  | zero => simp at h; subst h; rfl
  | succ w ih =>
    have hp : 0 < 256 ^ w := Nat.pow_pos (by decide)
    have hq : n / 256 ^ w < 256 := by
      rw [Nat.div_lt_iff_lt_mul hp, Nat.mul_comm, ← Nat.pow_succ]; exact h
    rw [encBE, decBE_cons, ih _ (Nat.mod_lt _ hp), encBE_length]
    have : (UInt8.ofNat (n / 256 ^ w)).toNat = n / 256 ^ w := by
      simp [UInt8.toNat_ofNat']; omega
    rw [this, Nat.mul_comm]; exact Nat.div_add_mod _ _

theorem decBE_lt (b : Bytes) : decBE b < 256 ^ b.length := by
  induction b with
  | nil => simp
  | cons x b ih =>
    rw [decBE_cons, List.length_cons, Nat.pow_succ]
    have hx : x.toNat < 256 := x.toNat_lt
    calc x.toNat * 256 ^ b.length + decBE b
        < x.toNat * 256 ^ b.length + 256 ^ b.length := by omega
      _ = (x.toNat + 1) * 256 ^ b.length := by rw [Nat.add_mul, Nat.one_mul]
      _ ≤ 256 * 256 ^ b.length := Nat.mul_le_mul_right _ (by omega)
      _ = 256 ^ b.length * 256 := Nat.mul_comm _ _

theorem encBE_decBE (b : Bytes) : encBE b.length (decBE b) = b := by
  induction b with
  | nil => rfl
  | cons x b ih =>
    have hp : 0 < 256 ^ b.length := Nat.pow_pos (by decide)
    have hl := decBE_lt b
    have h1 : (x.toNat * 256 ^ b.length + decBE b) / 256 ^ b.length = x.toNat := by
      rw [Nat.add_comm, Nat.add_mul_div_right _ _ hp, Nat.div_eq_of_lt hl, Nat.zero_add]
    have h2 : (x.toNat * 256 ^ b.length + decBE b) % 256 ^ b.length = decBE b := by
      rw [Nat.add_comm, Nat.add_mul_mod_self_right, Nat.mod_eq_of_lt hl]
    rw [List.length_cons, encBE, decBE_cons, h1, h2, ih]
    simp

@[simp] theorem padTo_length (n : Nat) (b : Bytes) : (padTo n b).length = n := by
  simp [padTo]; omega

theorem padTo_eq (n : Nat) (b : Bytes) (h : b.length = n) : padTo n b = b := by
  subst h; simp [padTo]

theorem enc_length (f : Fmt) (vs : List Val) (h : fits f vs = true) : (enc f vs).length = calcsize f := by
  induction f generalizing vs with
  | nil => cases vs <;> simp_all [fits, enc, calcsize]
  | cons i f ih =>
    cases i with
    | x n => simp only [fits] at h; simp [enc, calcsize, Item.width, ih vs h]
    | u w =>
      cases vs with
      | nil => simp [fits] at h
      | cons v vs =>
        cases v with
        | str b => simp [fits] at h
        | int n => simp [fits] at h; simp [enc, calcsize, Item.width, ih vs h.2]
    | s n =>
      cases vs with
      | nil => simp [fits] at h
      | cons v vs =>
        cases v with
        | int n => simp [fits] at h
        | str b => simp [fits] at h; simp [enc, calcsize, Item.width, ih vs h]

theorem dec_enc (f : Fmt) (vs : List Val) (post : Bytes) (h : fits f vs = true) :
    dec f (enc f vs ++ post) = padVals f vs := by
  induction f generalizing vs with
  | nil => cases vs <;> simp_all [fits, dec, padVals]
  | cons i f ih =>
    cases i with
    | x n => simp only [fits] at h; simp [enc, dec, padVals, ih vs h]
    | u w =>
      cases vs with
      | nil => simp [fits] at h
      | cons v vs =>
        cases v with
        | str b => simp [fits] at h
        | int n =>
          simp [fits] at h
          simp only [enc, dec, padVals, List.append_assoc]
          rw [List.take_left' (by simp), List.drop_left' (by simp), decBE_encBE _ _ h.1, ih vs h.2]
    | s n =>
      cases vs with
      | nil => simp [fits] at h
      | cons v vs =>
        cases v with
        | int n => simp [fits] at h
        | str b =>
          simp [fits] at h
          simp only [enc, dec, padVals, List.append_assoc]
          rw [List.take_left' (by simp), List.drop_left' (by simp), ih vs h]

theorem padVals_exact (f : Fmt) (vs : List Val) (h : fits f vs = true) (he : exact f vs) :
    padVals f vs = vs := by
  induction f generalizing vs with
  | nil => cases vs <;> simp_all [fits, padVals]
  | cons i f ih =>
    cases i with
    | x n => simp only [fits] at h; simp only [exact] at he; simp [padVals, ih vs h he]
    | u w =>
      cases vs with
      | nil => simp [fits] at h
      | cons v vs =>
        cases v with
        | str b => simp [fits] at h
        | int n => simp [fits] at h; simp only [exact] at he; simp [padVals, ih vs h.2 he]
    | s n =>
      cases vs with
      | nil => simp [fits] at h
      | cons v vs =>
        cases v with
        | int n => simp [fits] at h
        | str b =>
          simp [fits] at h; simp only [exact] at he
          simp [padVals, ih vs h he.2, padTo_eq _ _ he.1]

theorem pack_eq_ok {f vs bs} : pack f vs = .ok bs ↔ fits f vs = true ∧ bs = enc f vs := by
  unfold pack; split
  · rename_i h; constructor
    · intro e; injection e with e; exact ⟨h, e.symm⟩
    · rintro ⟨_, rfl⟩; rfl
  · rename_i h; constructor
    · intro e; injection e
    · rintro ⟨h', _⟩; exact absurd h' h

theorem pack_length {f vs bs} (h : pack f vs = .ok bs) : bs.length = calcsize f := by
  obtain ⟨h1, rfl⟩ := pack_eq_ok.1 h; exact enc_length f vs h1

theorem unpackFrom_enc (f : Fmt) (vs : List Val) (pre post : Bytes) (h : fits f vs = true) :
    unpackFrom f (pre ++ (enc f vs ++ post)) pre.length = .ok (padVals f vs) := by
  unfold unpackFrom
  rw [if_pos (by simp [enc_length f vs h]), List.drop_left, dec_enc f vs post h]

theorem unpackFrom_enc' (f : Fmt) (vs : List Val) (pre post : Bytes) (n : Nat) (hn : n = pre.length)
    (h : fits f vs = true) (he : exact f vs) :
    unpackFrom f (pre ++ (enc f vs ++ post)) n = .ok vs := by
  rw [hn, unpackFrom_enc f vs pre post h, padVals_exact f vs h he]

theorem dec_length_eq (f : Fmt) (b b' : Bytes) (h : b.take (calcsize f) = b'.take (calcsize f))
    (_ : calcsize f ≤ b.length) (_ : calcsize f ≤ b'.length) : dec f b = dec f b' := by
  induction f generalizing b b' with
  | nil => rfl
  | cons i f ih =>
    have hw : i.width ≤ calcsize (i :: f) := by simp [calcsize]
    have e1 : b.take i.width = b'.take i.width := by
      have := congrArg (List.take i.width) h
      simpa [List.take_take, Nat.min_eq_left hw] using this
    have e2 : (b.drop i.width).take (calcsize f) = (b'.drop i.width).take (calcsize f) := by
      have := congrArg (List.drop i.width) h
      simpa [List.drop_take, calcsize] using this
    have := ih (b.drop i.width) (b'.drop i.width) e2
      (by simp [calcsize] at *; omega) (by simp [calcsize] at *; omega)
    cases i <;> simp_all [dec, Item.width]

theorem slice_append (pre mid post : Bytes) (i j : Nat) (hi : i = pre.length) (hj : j = i + mid.length) :
    slice (pre ++ (mid ++ post)) i j = mid := by
  subst hi hj; simp [slice]

theorem slice_length (b : Bytes) (i j : Nat) : (slice b i j).length = min (j - i) (b.length - i) := by
  simp [slice]

end Twink
