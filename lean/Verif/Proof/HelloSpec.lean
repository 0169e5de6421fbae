import Verif.Proof.Hello
import Verif.Spec.Hello

/-! Connecting the hello model with its specification vocabulary. -/

namespace Twink
open Spec Fmt

theorem parseHeader_fields (m : Bytes) (h : 8 ≤ m.length) :
    parseHeader m = .ok (u8 m 0, u8 m 1, u16 m 2, u32 m 4) := by
  match m, h with
  | b0 :: b1 :: b2 :: b3 :: b4 :: b5 :: b6 :: b7 :: tl, _ =>
    simp [parseHeader, unpackFrom, hdrFmt, calcsize, Item.width, dec, decBE, bind, Except.bind, u8, u16, u32]
    omega

theorem parseHeader_short (m : Bytes) (h : m.length < 8) : parseHeader m = .error .structError := by
  have : ¬ calcsize hdrFmt ≤ m.length := by simp [hdrFmt, calcsize, Item.width]; omega
  simp [parseHeader, unpackFrom, this, bind, Except.bind]

theorem announced_eq_u16 (m : Bytes) (h : 4 ≤ m.length) : announced m = u16 m 2 := by
  match m, h with
  | b0 :: b1 :: b2 :: b3 :: tl, _ => simp [announced, u16, u8]

theorem u8_append (a b : Bytes) (i : Nat) (h : i < a.length) : u8 (a ++ b) i = u8 a i := by
  simp [u8, List.getElem?_append_left h]

theorem u8_append_right (a b : Bytes) (i : Nat) : u8 (a ++ b) (a.length + i) = u8 b i := by
  simp [u8, List.getElem?_append_right]

theorem u16_eq_decBE (a b : Bytes) (i : Nat) (hi : i = a.length) (n : Nat) (hn : n < 65536) :
    u16 (a ++ (encBE 2 n ++ b)) i = n := by
  subst hi
  have h1 : u8 (a ++ (encBE 2 n ++ b)) a.length = n / 256 := by
    have := u8_append_right a (encBE 2 n ++ b) 0
    simp at this; rw [this]; simp [u8, encBE]; omega
  have h2 : u8 (a ++ (encBE 2 n ++ b)) (a.length + 1) = n % 256 := by
    rw [u8_append_right]; simp [u8, encBE]
  rw [u16, h1, h2]; omega

theorem enc_hdr_length (a b c d : Nat) : (enc hdrFmt [.int a, .int b, .int c, .int d]).length = 8 := by
  simp [enc, hdrFmt, Item.width]

theorem normLoop_spec (l : List PyVer) (s : List Nat) (hv : ∀ x ∈ l, verOf x ≠ none) :
    ∃ r, normLoop l s = .ok r ∧ ∀ v, v ∈ r ↔ v ∈ s ∨ ∃ x ∈ l, verOf x = some v := by
  induction l generalizing s with
  | nil => exact ⟨s, rfl, by simp⟩
  | cons a l ih =>
    obtain ⟨n, hn, hn2⟩ : ∃ n, normOne a = .ok n ∧ verOf a = some n := by
      have := hv a (by simp)
      cases a with
      | int n => exact ⟨n, rfl, rfl⟩
      | other => simp [verOf] at this
      | float k => cases k with
        | none => simp [verOf] at this
        | some k => exact ⟨_, rfl, rfl⟩
    obtain ⟨r, h1, h2⟩ := ih (setAdd s n) (fun x hx => hv x (by simp [hx]))
    refine ⟨r, by simpa [normLoop, hn, bind, Except.bind] using h1, fun v => ?_⟩
    rw [h2]
    have hset : v ∈ setAdd s n ↔ v ∈ s ∨ v = n := by
      unfold setAdd; split
      · rename_i h; constructor
        · exact .inl
        · rintro (h' | rfl)
          · exact h'
          · exact h
      · simp
    rw [hset]
    simp only [List.mem_cons]
    constructor
    · rintro ((h | rfl) | ⟨x, hx, h⟩)
      · exact .inl h
      · exact .inr ⟨a, .inl rfl, hn2⟩
      · exact .inr ⟨x, .inr hx, h⟩
    · rintro (h | ⟨x, rfl | hx, h⟩)
      · exact .inl (.inl h)
      · rw [hn2] at h; injection h with h; exact .inl (.inr h.symm)
      · exact .inr ⟨x, hx, h⟩

theorem helloSet_spec (vs : PyVers) (hv : Valid vs) :
    ∃ r, helloSet vs = .ok r ∧ r ≠ [] ∧ ∀ v, v ∈ r ↔ Accepts vs v := by
  match vs, hv with
  | .none, _ => exact ⟨[1], rfl, by simp, by simp [Accepts]⟩
  | .seq [], _ => exact ⟨[1], rfl, by simp, by simp [Accepts]⟩
  | .seq (a :: l), hv =>
    obtain ⟨r, h1, h2⟩ := normLoop_spec (a :: l) [] hv
    refine ⟨r, h1, ?_, by simpa [Accepts] using h2⟩
    intro e; subst e
    have ha := hv a (by simp)
    cases hva : verOf a with
    | none => exact ha hva
    | some n => exact absurd ((h2 n).2 (.inr ⟨a, by simp, hva⟩)) (by simp)

/-- The accepted set used by `negotiate`. -/
theorem normalize_spec (vs : PyVers) (hv : Valid vs) :
    ∃ r, normalize vs = .ok r ∧ (if r = [] then [1] else r) ≠ [] ∧ r.Nodup ∧
      ∀ v, v ∈ (if r = [] then [1] else r) ↔ Accepts vs v := by
  match vs, hv with
  | .none, _ => exact ⟨[], rfl, by simp, by simp, by simp [Accepts]⟩
  | .seq [], _ => exact ⟨[], rfl, by simp, by simp, by simp [Accepts]⟩
  | .seq (a :: l), hv =>
    obtain ⟨r, h1, h2, h3⟩ := helloSet_spec (.seq (a :: l)) hv
    refine ⟨r, h1, by simp [h2], normalize_nodup (.seq (a :: l)) r (by simpa [helloSet] using h1), ?_⟩
    simpa [if_neg h2] using h3

theorem highest_maxL {vs : PyVers} {r : List Nat} (hne : r ≠ []) (h : ∀ v, v ∈ r ↔ Accepts vs v) : Highest vs (maxL r) :=
  ⟨(h _).1 (maxL_mem hne), fun v hv => le_maxL ((h v).2 hv)⟩

theorem highest_unique {vs : PyVers} {a b : Nat} (ha : Highest vs a) (hb : Highest vs b) : a = b :=
  Nat.le_antisymm (hb.2 a ha.1) (ha.2 b hb.1)

end Twink
