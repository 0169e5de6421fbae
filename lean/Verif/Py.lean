/-!
# Python primitives used by the model

Bytes, exceptions as values, slices and the `struct` module (big-endian `!` formats).
The model follows Python 2.7 semantics.
-/

namespace Twink

/-- A Python byte string (`str` in Python 2, `bytes` in Python 3). -/
abbrev Bytes := List UInt8

/-- The exception classes that the modelled code can raise. -/
inductive Err where
  | structError      -- struct.error
  | assertion        -- AssertionError
  | valueError       -- ValueError
  | typeError        -- TypeError
  | keyError         -- KeyError
  | indexError       -- IndexError
  | nameError        -- NameError (including UnboundLocalError)
  | attributeError   -- AttributeError
  | channelClose     -- twink.base.ChannelClose
  | other            -- any other exception raised by user code
  | diverges         -- not an exception: the call never returns (a loop makes no progress)
  deriving DecidableEq, Repr

/-- Result of a Python call. -/
abbrev Py := Except Err

instance [DecidableEq α] : DecidableEq (Py α) := fun a b =>
  match a, b with
  | .ok x, .ok y => if h : x = y then isTrue (by rw [h]) else isFalse (fun e => h (by injection e))
  | .error x, .error y => if h : x = y then isTrue (by rw [h]) else isFalse (fun e => h (by injection e))
  | .ok _, .error _ => isFalse (fun e => by injection e)
  | .error _, .ok _ => isFalse (fun e => by injection e)

/-- `b[i:j]` for `0 ≤ i`, `0 ≤ j` (Python clamps both ends, and gives `b""` if `j ≤ i`). -/
def slice (b : Bytes) (i j : Nat) : Bytes := (b.drop i).take (j - i)

/-- Big-endian encoding of `n` in `w` bytes (most significant byte first), for `n < 256 ^ w`. -/
def encBE : Nat → Nat → Bytes
  | 0, _ => []
  | w + 1, n => UInt8.ofNat (n / 256 ^ w) :: encBE w (n % 256 ^ w)

/-- Big-endian decoding. -/
def decBE (b : Bytes) : Nat := b.foldl (fun a x => a * 256 + x.toNat) 0

/-- An item of a `struct` format: unsigned integer of `w` bytes (`B`=1, `H`=2, `I`=4, `Q`=8),
byte string of width `n` (`<n>s`), `n` pad bytes (`<n>x`). -/
inductive Item where
  | u (w : Nat)
  | s (n : Nat)
  | x (n : Nat)
  deriving DecidableEq, Repr

/-- A `struct` format with the `!` prefix (big endian, no alignment). -/
abbrev Fmt := List Item

namespace Fmt
/-- `B` -/ abbrev B : Item := .u 1
/-- `H` -/ abbrev H : Item := .u 2
/-- `I` -/ abbrev I : Item := .u 4
/-- `Q` -/ abbrev Q : Item := .u 8
/-- `<n>s` -/ abbrev S (n : Nat) : Item := .s n
/-- `<n>x` -/ abbrev X (n : Nat) : Item := .x n
end Fmt

/-- A value accepted by / returned from the `struct` module. -/
inductive Val where
  | int (n : Nat)
  | str (b : Bytes)
  deriving DecidableEq, Repr

/-- Width of one item. -/
def Item.width : Item → Nat
  | .u w => w
  | .s n => n
  | .x n => n

/-- `struct.calcsize`. -/
def calcsize : Fmt → Nat
  | [] => 0
  | i :: f => i.width + calcsize f

/-- Does `struct.pack(fmt, *vals)` accept its arguments? (argument count, kinds and integer ranges) -/
def fits : Fmt → List Val → Bool
  | [], [] => true
  | [], _ :: _ => false
  | .x _ :: f, vs => fits f vs
  | .u w :: f, .int n :: vs => decide (n < 256 ^ w) && fits f vs
  | .s _ :: f, .str _ :: vs => fits f vs
  | _ :: _, _ => false

/-- `'<n>s'` packs a string: cut to `n` bytes or filled up with NULs. -/
def padTo (n : Nat) (b : Bytes) : Bytes := b.take n ++ List.replicate (n - b.length) 0

/-- The bytes produced by `struct.pack` for accepted arguments. -/
def enc : Fmt → List Val → Bytes
  | .x n :: f, vs => List.replicate n 0 ++ enc f vs
  | .u w :: f, .int n :: vs => encBE w n ++ enc f vs
  | .s n :: f, .str b :: vs => padTo n b ++ enc f vs
  | _, _ => []

/-- `struct.pack("!...", *vals)`. -/
def pack (f : Fmt) (vs : List Val) : Py Bytes :=
  if fits f vs then .ok (enc f vs) else .error .structError

/-- Values read from the front of a buffer that is long enough. -/
def dec : Fmt → Bytes → List Val
  | [], _ => []
  | .x n :: f, b => dec f (b.drop n)
  | .u w :: f, b => .int (decBE (b.take w)) :: dec f (b.drop w)
  | .s n :: f, b => .str (b.take n) :: dec f (b.drop n)

/-- `struct.unpack_from("!...", buf, offset)` for `offset ≥ 0`. -/
def unpackFrom (f : Fmt) (buf : Bytes) (off : Nat) : Py (List Val) :=
  if off + calcsize f ≤ buf.length then .ok (dec f (buf.drop off)) else .error .structError

/-- The values that come back when packed values are unpacked: strings have exactly their field width. -/
def padVals : Fmt → List Val → List Val
  | .x _ :: f, vs => padVals f vs
  | .u _ :: f, .int n :: vs => .int n :: padVals f vs
  | .s n :: f, .str b :: vs => .str (padTo n b) :: padVals f vs
  | _, _ => []

/-- All string values have exactly the width of their field. -/
def exact : Fmt → List Val → Prop
  | .x _ :: f, vs => exact f vs
  | .s n :: f, .str b :: vs => b.length = n ∧ exact f vs
  | .u _ :: f, _ :: vs => exact f vs
  | _, _ => True

end Twink
