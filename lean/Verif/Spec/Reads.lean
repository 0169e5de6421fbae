import Verif.Spec.Hello

/-!
# What stands in a buffer

Small vocabulary for stating, without reference to any parser, which structures stand at which offset of a buffer.
-/

namespace Twink.Reads
open Spec

/-- The bytes from `i` up to, but not including, `j`; none if `j ≤ i`, and only as many as there are. -/
def part (m : Bytes) (i j : Nat) : Bytes := (m.take j).drop i

/-- The least multiple of eight that is not less than `n`. -/
def up8 (n : Nat) : Nat := n + (8 - n % 8) % 8

/-- Items one after the other from `o`; every item ends behind its beginning, the next one begins there, and no item begins at
or behind `limit`.  `e` is the end of the last one. -/
def Row (At : Nat → α → Nat → Prop) (limit : Nat) : Nat → List α → Nat → Prop
  | o, [], e => limit ≤ o ∧ e = o
  | o, a :: l, e => o < limit ∧ ∃ o', At o a o' ∧ o < o' ∧ Row At limit o' l e

/-- Items one after the other from `o`, until, before `limit`, one comes that has no end (`Never`), or whose end is not behind its beginning. -/
inductive Endless (At : Nat → α → Nat → Prop) (Never : Nat → Prop) (limit : Nat) : Nat → Prop
  | stuck {o e : Nat} {a : α} : o < limit → At o a e → e ≤ o → Endless At Never limit o
  | inside {o : Nat} : o < limit → Never o → Endless At Never limit o
  | later {o e : Nat} {a : α} : o < limit → At o a e → o < e → Endless At Never limit e → Endless At Never limit o

/-- The UTF-8 encoding of a code point (RFC 3629 section 3). -/
def utf8 (c : Nat) : Bytes :=
  if c < 0x80 then [UInt8.ofNat c]
  else if c < 0x800 then [UInt8.ofNat (0xc0 + c / 64), UInt8.ofNat (0x80 + c % 64)]
  else if c < 0x10000 then [UInt8.ofNat (0xe0 + c / 4096), UInt8.ofNat (0x80 + c / 64 % 64), UInt8.ofNat (0x80 + c % 64)]
  else [UInt8.ofNat (0xf0 + c / 262144), UInt8.ofNat (0x80 + c / 4096 % 64), UInt8.ofNat (0x80 + c / 64 % 64), UInt8.ofNat (0x80 + c % 64)]

/-- The bytes are the encoding of a text.  (Surrogates are allowed, as in Python 2; RFC 3629 forbids them.) -/
def Utf8 (b : Bytes) : Prop := ∃ cs : List Nat, (∀ c ∈ cs, c ≤ 0x10ffff) ∧ b = cs.flatMap utf8

/-- `s` is what stands before the first NUL of `b`, or all of it if there is none. -/
def UpToNul (b s : Bytes) : Prop := 0 ∉ s ∧ (b = s ∨ ∃ r, b = s ++ 0 :: r)

end Twink.Reads
