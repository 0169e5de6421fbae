import Verif.Model.Enum

/-! What an enumeration declares. -/

namespace Twink.Enum

/-- White space. -/
def Blank (c : Char) : Prop := c ∈ [' ', '\t', '\n', '\r', Char.ofNat 11, Char.ofNat 12]

/-- The words of a text: longest runs of characters that are not blank. -/
inductive Words : List Char → List Name → Prop
  | nil (s : List Char) : (∀ c ∈ s, Blank c) → Words s []
  | cons (b w r : List Char) (ws : List Name) : (∀ c ∈ b, Blank c) → w ≠ [] → (∀ c ∈ w, ¬ Blank c) →
      (∀ c, r.head? = some c → Blank c) → Words r ws → Words (b ++ (w ++ r)) (w :: ws)

/-- `k` is declared as the number `n`: by its place among the words, or by the number of the first word of its group. -/
def NumberOf (k : Name) (n : Nat) : Src Nat → Prop
  | .none => False
  | .str s => ∃ ws, Words s ws ∧ ws[n]? = some k
  | .dict l => ∃ t v ws i, (t, v) ∈ l ∧ Words t ws ∧ ws[i]? = some k ∧ n = v + i

/-- `n` is the number with only bit `v` set, or 0 for a negative `v`. -/
def OneBit (v : Int) (n : Nat) : Prop := (v < 0 ∧ n = 0) ∨ ∃ j : Nat, v = j ∧ n = 2 ^ j

/-- `k` is declared as the flag `n`. -/
def FlagOf (k : Name) (n : Nat) : Src Int → Prop
  | .none => False
  | .str s => ∃ ws, ∃ i : Nat, Words s ws ∧ ws[i]? = some k ∧ OneBit i n
  | .dict l => ∃ t v ws, ∃ i : Nat, (t, v) ∈ l ∧ Words t ws ∧ ws[i]? = some k ∧ OneBit (v + i) n

/-- `k` is declared with the value `n`. -/
def Declares (e : Enum) (k : Name) (n : Nat) : Prop := NumberOf k n e.numbers ∨ FlagOf k n e.bitshifts

/-- No name is declared with two values. -/
def Consistent (e : Enum) : Prop := ∀ k n m, Declares e k n → Declares e k m → n = m

/-- The name of the constant: prefix, underscore, name. -/
def fullName (e : Enum) (k : Name) : Name := e.pre ++ ['_'] ++ k

end Twink.Enum
