import Verif.Model.Of13Parse
import Verif.Spec.Of13
import Verif.PyLemmas

/-! Helper lemmas for the OpenFlow 1.3 codec: monad, reading back packed records, lists of records. -/

namespace Twink.Of13
open Fmt

theorem bind_ok {x : Py α} {f : α → Py β} {b : β} : (x >>= f) = .ok b ↔ ∃ a, x = .ok a ∧ f a = .ok b := by
  cases x <;> simp [bind, Except.bind]

theorem ok_bind (a : α) (f : α → Py β) : ((.ok a : Py α) >>= f) = f a := rfl

theorem pyAssert_ok {p : Prop} [Decidable p] {u : Unit} : pyAssert p = .ok u ↔ p := by
  unfold pyAssert; split <;> simp_all

theorem pyAssert_true {p : Prop} [Decidable p] (h : p) : pyAssert p = .ok () := by simp [pyAssert, h]

theorem ok_inj {a b : α} : ((.ok a : Py α) = .ok b) ↔ a = b := ⟨fun h => by injection h, fun h => by rw [h]⟩

theorem packOpt_ok {f t k bs} : packOpt f t k = .ok bs ↔ ∃ n, t = some n ∧ pack f (k n) = .ok bs := by
  cases t <;> simp [packOpt]

theorem align_eq (n : Nat) : align n = up8 n := by
  unfold align up8; split <;> omega

theorem up8_ge (n : Nat) : n ≤ up8 n := by unfold up8; split <;> omega
theorem up8_mod (n : Nat) : up8 n % 8 = 0 := by unfold up8; split <;> omega
theorem up8_lt (n : Nat) : up8 n < n + 8 := by unfold up8; split <;> omega
theorem up8_of_mod {n : Nat} (h : n % 8 = 0) : up8 n = n := by simp [up8, h]

@[simp] theorem nul_length (n : Nat) : (nul n).length = n := by simp [nul]

/-- Reading a packed record back. -/
theorem rd_enc (f : Fmt) (vs : List Val) (pre post : Bytes) (n : Nat) (hn : n = pre.length) (h : fits f vs = true)
    (he : exact f vs) (k : List Val → Option α) (a : α) (hk : k vs = some a) :
    rd f (pre ++ (enc f vs ++ post)) n k = .ok (a, n + calcsize f) := by
  simp [rd, unpackFrom_enc' f vs pre post n hn h he, hk]

/-- Looking at two 16-bit numbers (with `x` bytes of padding) at the front of something longer. -/
theorem rd_peek (x : Nat) (t l : Nat) (pre rest : Bytes) (n : Nat) (hn : n = pre.length) (ht : t < 65536) (hl : l < 65536)
    (hr : x ≤ rest.length) (k : Nat → Nat → α) :
    rd [H, H, X x] (pre ++ (encBE 2 t ++ (encBE 2 l ++ rest))) n (two k) = .ok (k t l, n + (4 + x)) := by
  have h1 : rest = rest.take x ++ rest.drop x := (List.take_append_drop x rest).symm
  have : unpackFrom [H, H, X x] (pre ++ (encBE 2 t ++ (encBE 2 l ++ rest))) n = .ok [.int t, .int l] := by
    unfold unpackFrom
    rw [if_pos (by simp [calcsize, Item.width, hn]; omega), hn, List.drop_left]
    simp [dec, decBE_encBE, ht, hl]
  simp [rd, this, two, calcsize, Item.width]
  omega

theorem rd_peek0 (t l : Nat) (pre rest : Bytes) (n : Nat) (hn : n = pre.length) (ht : t < 65536) (hl : l < 65536)
    (k : Nat → Nat → α) :
    rd [H, H] (pre ++ (encBE 2 t ++ (encBE 2 l ++ rest))) n (two k) = .ok (k t l, n + 4) := by
  have h := rd_enc [H, H] [.int t, .int l] pre rest n hn (by simp [fits, ht, hl]) (by simp [exact]) (two k) (k t l) rfl
  simpa [enc, calcsize, Item.width] using h

/-- `bs` is parsed as `a` wherever it stands in a message. -/
def RT (p : Bytes → Nat → Py (α × Nat)) (bs : Bytes) (a : α) : Prop :=
  ∀ pre post n, n = pre.length → p (pre ++ (bs ++ post)) n = .ok (a, n + bs.length)

/-- `bs` is a concatenation of non-empty pieces that are parsed as the elements of the list. -/
inductive Parts (p : Bytes → Nat → Py (α × Nat)) : Bytes → List α → Prop
  | nil : Parts p [] []
  | cons {b bs a as} : RT p b a → 0 < b.length → Parts p bs as → Parts p (b ++ bs) (a :: as)

theorem whileFetch_parts {p : Bytes → Nat → Py (α × Nat)} {bs : Bytes} {as : List α} (h : Parts p bs as)
    (pre post : Bytes) (n lim : Nat) (hn : n = pre.length) (hl : lim = n + bs.length) :
    whileFetch (p (pre ++ (bs ++ post))) lim n = .ok (as, lim) := by
  induction h generalizing pre n with
  | nil => rw [whileFetch]; simp at hl; simp [hl]
  | @cons b bs a as hb hpos hp ih =>
    rw [whileFetch]
    have h1 : n < lim := by rw [hl, List.length_append]; omega
    rw [if_pos h1]
    have h2 := hb pre (bs ++ post) n hn
    rw [← List.append_assoc b, ] at h2
    rw [h2]
    simp only
    rw [if_pos (by omega)]
    have h3 := ih (pre ++ b) (n + b.length) (by simp [hn]) (by rw [hl, List.length_append]; omega)
    rw [List.append_assoc, ← List.append_assoc b] at h3
    rw [h3]

theorem listFetch_parts {p : Bytes → Nat → Py (α × Nat)} {bs : Bytes} {as : List α} (h : Parts p bs as)
    (pre post : Bytes) (n lim : Nat) (hn : n = pre.length) (hl : lim = n + bs.length) :
    listFetch (p (pre ++ (bs ++ post))) lim n = .ok (as, lim) := by
  rw [listFetch, whileFetch_parts h pre post n lim hn hl, ok_bind]
  simp [pyAssert, bind, Except.bind]

theorem join_ok_nil {build : α → Py Bytes} {bs} : join build [] = .ok bs ↔ bs = [] := by
  simp [join, eq_comm]

theorem join_ok_cons {build : α → Py Bytes} {e es bs} : join build (e :: es) = .ok bs ↔
    ∃ b bs', obj build e = .ok b ∧ join build es = .ok bs' ∧ bs = b ++ bs' := by
  simp only [join, bind_ok, ok_inj]
  constructor
  · rintro ⟨b, h1, bs', h2, h3⟩; exact ⟨b, bs', h1, h2, h3.symm⟩
  · rintro ⟨b, bs', h1, h2, h3⟩; exact ⟨b, h1, bs', h2, h3.symm⟩

/-- A built sequence of tuples is a concatenation of parseable pieces. -/
theorem seq_parts {build : α → Py Bytes} {p : Bytes → Nat → Py (α × Nat)} {P : α → Prop} {w : α → α} {size : α → Nat}
    (hrt : ∀ a b, P a → build a = .ok b → RT p b (w a) ∧ 0 < b.length ∧ b.length = size a)
    {s : Seq α} (hs : s.All P) {bs : Bytes} (h : seqBytes build s = .ok bs) :
    Parts p bs (s.values.map w) ∧ bs.length = (s.values.map size).sum := by
  cases s with
  | raw b => exact hs.elim
  | bad => exact hs.elim
  | none => simp [seqBytes] at h; subst h; exact ⟨.nil, rfl⟩
  | items l =>
    simp only [seqBytes] at h
    induction l generalizing bs with
    | nil => rw [join_ok_nil] at h; subst h; exact ⟨.nil, rfl⟩
    | cons e es ih =>
      obtain ⟨b, bs', h1, h2, rfl⟩ := join_ok_cons.1 h
      obtain ⟨a, rfl, ha⟩ := hs e (by simp)
      obtain ⟨r1, r2, r3⟩ := hrt a b ha h1
      obtain ⟨i1, i2⟩ := ih (fun e he => hs e (by simp [he])) h2
      refine ⟨?_, ?_⟩
      · simp only [Seq.values, List.filterMap_cons, List.map_cons]
        exact .cons r1 r2 i1
      · simp only [Seq.values, List.filterMap_cons, List.map_cons, List.sum_cons, List.length_append] at i2 ⊢
        omega

theorem all_tups {P : α → Prop} {l : List α} (h : ∀ a ∈ l, P a) : (tups l).All P := by
  intro e he
  simp only [List.mem_map] at he
  obtain ⟨a, ha, rfl⟩ := he
  exact ⟨a, rfl, h a ha⟩

@[simp] theorem values_tups (l : List α) : (tups l).values = l := by
  simp only [tups, Seq.values]
  induction l with
  | nil => rfl
  | cons a l ih => simpa using ih

end Twink.Of13
