import Verif.PyLemmas

/-!
# C37: packing and unpacking of records

The specification speaks about the argument-taking items of a layout (those other than padding) one by one.
-/

namespace Twink

/-- Items that take an argument. -/
def takesArg : Item → Bool
  | .x _ => false
  | _ => true

/-- The value can be stored in the item. -/
def Storable : Item → Val → Prop
  | .u w, .int n => n < 2 ^ (8 * w)
  | .s _, .str _ => True
  | _, _ => False

/-- The value as it is read back: strings are cut or filled up with NULs to the width of their field. -/
def readBack : Item → Val → Val
  | .s n, .str b => .str (b.take n ++ List.replicate (n - b.length) 0)
  | _, v => v

theorem fits_iff (f : Fmt) (vs : List Val) :
    fits f vs = true ↔ (f.filter takesArg).length = vs.length ∧
      ∀ i : Nat, ∀ it ∈ (f.filter takesArg)[i]?, ∀ v ∈ vs[i]?, Storable it v := by
  induction f generalizing vs with
  | nil =>
    cases vs with
    | nil => simp [fits]
    | cons v vs => simp [fits]
  | cons it f ih =>
    cases it with
    | x n => simpa [fits, takesArg] using ih vs
    | u w =>
      cases vs with
      | nil => simp [fits, takesArg]
      | cons v vs =>
        have hw : (256 : Nat) ^ w = 2 ^ (8 * w) := by rw [show (256 : Nat) = 2 ^ 8 by rfl, ← Nat.pow_mul]
        cases v with
        | str b =>
          simp only [fits, Bool.false_eq_true, List.filter_cons, takesArg, ↓reduceIte, false_iff, not_and]
          intro _ h
          exact (h 0 (.u w) (by simp) (.str b) (by simp)).elim
        | int n =>
          simp only [fits, Bool.and_eq_true, decide_eq_true_eq, ih, List.filter_cons, takesArg, ↓reduceIte,
            List.length_cons, Nat.add_right_cancel_iff]
          constructor
          · rintro ⟨h1, h2, h3⟩
            refine ⟨h2, fun i => ?_⟩
            cases i with
            | zero => simp [Storable, ← hw, h1]
            | succ i => simpa using h3 i
          · rintro ⟨h2, h3⟩
            refine ⟨?_, h2, fun i => by simpa using h3 (i + 1)⟩
            have := h3 0 (.u w) (by simp) (.int n) (by simp)
            rw [hw]; exact this
    | s n =>
      cases vs with
      | nil => simp [fits, takesArg]
      | cons v vs =>
        cases v with
        | int k =>
          simp only [fits, Bool.false_eq_true, List.filter_cons, takesArg, ↓reduceIte, false_iff, not_and]
          intro _ h
          exact (h 0 (.s n) (by simp) (.int k) (by simp)).elim
        | str b =>
          simp only [fits, ih, List.filter_cons, takesArg, ↓reduceIte,
            List.length_cons, Nat.add_right_cancel_iff]
          constructor
          · rintro ⟨h2, h3⟩
            refine ⟨h2, fun i => ?_⟩
            cases i with
            | zero => simp [Storable]
            | succ i => simpa using h3 i
          · rintro ⟨h2, h3⟩
            exact ⟨h2, fun i => by simpa using h3 (i + 1)⟩

theorem padVals_eq (f : Fmt) (vs : List Val) (h : fits f vs = true) :
    padVals f vs = List.zipWith readBack (f.filter takesArg) vs := by
  induction f generalizing vs with
  | nil => simp [padVals]
  | cons it f ih =>
    cases it with
    | x n => simpa [padVals, takesArg] using ih vs (by simpa [fits] using h)
    | u w =>
      cases vs with
      | nil => simp [fits] at h
      | cons v vs =>
        cases v with
        | str b => simp [fits] at h
        | int n =>
          simp only [fits, Bool.and_eq_true] at h
          simp [padVals, takesArg, readBack, ih vs h.2, List.filter_cons]
    | s n =>
      cases vs with
      | nil => simp [fits] at h
      | cons v vs =>
        cases v with
        | int k => simp [fits] at h
        | str b =>
          simp only [fits] at h
          simp [padVals, takesArg, readBack, padTo, ih vs h, List.filter_cons]

/-- C37. Packing succeeds exactly if there is one value for every item that takes one and every number fits its
field; otherwise it raises struct.error. -/
theorem C37_pack_accepts (f : Fmt) (vs : List Val) :
    (pack f vs ≠ .error .structError ↔ ∃ bs, pack f vs = .ok bs) ∧
    ((∃ bs, pack f vs = .ok bs) ↔ (f.filter takesArg).length = vs.length ∧
      ∀ i : Nat, ∀ it ∈ (f.filter takesArg)[i]?, ∀ v ∈ vs[i]?, Storable it v) := by
  rw [← fits_iff]
  unfold pack
  split <;> simp_all

/-- C37. The packed record has the size of its layout: the sum of the widths of its items. -/
theorem C37_pack_size (f : Fmt) (vs : List Val) (bs : Bytes) (h : pack f vs = .ok bs) :
    bs.length = (f.map Item.width).sum := by
  rw [pack_length h]
  clear h
  induction f with
  | nil => rfl
  | cons i f ih => simp [calcsize, ih]

/-- C37. Unpacking at the place where a record was packed gives back the values, wherever the record stands. -/
theorem C37_unpack_pack (f : Fmt) (vs : List Val) (bs pre post : Bytes) (h : pack f vs = .ok bs) :
    unpackFrom f (pre ++ bs ++ post) pre.length = .ok (List.zipWith readBack (f.filter takesArg) vs) := by
  obtain ⟨h1, rfl⟩ := pack_eq_ok.1 h
  rw [List.append_assoc, unpackFrom_enc f vs pre post h1, padVals_eq f vs h1]

/-- C37. Unpacking fails exactly if the buffer is too short, and then with struct.error. -/
theorem C37_unpack_fails (f : Fmt) (b : Bytes) (off : Nat) :
    (unpackFrom f b off = .error .structError ↔ b.length < off + (f.map Item.width).sum) ∧
    ∀ e, unpackFrom f b off = .error e → e = .structError := by
  have hc : calcsize f = (f.map Item.width).sum := by
    induction f with
    | nil => rfl
    | cons i f ih => simp [calcsize, ih]
  rw [← hc]
  unfold unpackFrom
  split
  · rename_i h; simp; omega
  · rename_i h; simp only [true_iff]; exact ⟨by omega, by rintro e ⟨⟩; rfl⟩

/-- C37. Numbers are stored most significant byte first. -/
theorem C37_big_endian (w n : Nat) (h : n < 2 ^ (8 * w)) :
    ∃ bs, pack [.u w] [.int n] = .ok bs ∧ bs.length = w ∧
      ∀ i, i < w → bs[i]? = some (UInt8.ofNat (n / 2 ^ (8 * (w - 1 - i)) % 256)) := by
  have hw : ∀ w, (256 : Nat) ^ w = 2 ^ (8 * w) := fun w => by rw [show (256 : Nat) = 2 ^ 8 by rfl, ← Nat.pow_mul]
  rw [← hw] at h
  refine ⟨encBE w n, by have he : enc [] [] = [] := rfl; simp [pack, fits, h, enc], by simp, ?_⟩
  clear h
  induction w generalizing n with
  | zero => intro i hi; omega
  | succ w ih =>
    intro i hi
    cases i with
    | zero =>
      simp only [encBE, List.getElem?_cons_zero, Nat.add_sub_cancel, Nat.sub_zero, ← hw]
      congr 1
      exact UInt8.toNat_inj.1 (by simp)
    | succ i =>
      simp only [encBE, List.getElem?_cons_succ]
      rw [ih (n % 256 ^ w) i (by omega)]
      congr 2
      have e1 : w + 1 - 1 - (i + 1) = w - 1 - i := by omega
      rw [e1, ← hw]
      have e2 : (256 : Nat) ^ w = 256 ^ (w - 1 - i) * 256 ^ (i + 1) := by rw [← Nat.pow_add]; congr 1; omega
      rw [e2, Nat.mod_mul_right_div_self, Nat.pow_succ, Nat.mod_mul_left_mod]

/-- The layout of a port in OpenFlow 1.3: packing a port and reading it back pads the short name. -/
example : ∃ bs, pack [.u 4, .x 4, .s 6, .x 2, .s 4] [.int 7, .str [1, 2, 3, 4, 5, 6], .str [65]] = .ok bs ∧
    unpackFrom [.u 4, .x 4, .s 6, .x 2, .s 4] ([9] ++ bs ++ [9, 9]) 1 =
      .ok [.int 7, .str [1, 2, 3, 4, 5, 6], .str [65, 0, 0, 0]] := ⟨_, rfl, by decide⟩

/-- A number that does not fit. -/
example : pack [.u 2] [.int 65536] = .error .structError := by decide

end Twink
