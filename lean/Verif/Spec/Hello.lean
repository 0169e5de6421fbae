import Verif.Spec.Framing
import Verif.Model.Hello

/-! Specification vocabulary for hello messages and version negotiation. -/

namespace Twink.Spec

/-- Byte `i` of a message as a number (0 beyond the end). -/
def u8 (m : Bytes) (i : Nat) : Nat := (m.getD i 0).toNat
/-- Big-endian 16-bit number at `i`. -/
def u16 (m : Bytes) (i : Nat) : Nat := 256 * u8 m i + u8 m (i + 1)
/-- Big-endian 32-bit number at `i`. -/
def u32 (m : Bytes) (i : Nat) : Nat := 65536 * u16 m i + u16 m (i + 2)
/-- Big-endian 64-bit number at `i`. -/
def u64 (m : Bytes) (i : Nat) : Nat := 4294967296 * u32 m i + u32 m (i + 4)

/-- The OpenFlow version number that an element of a version list stands for (`1.k` is version `k + 1`). -/
def verOf : PyVer → Option Nat
  | .int n => some n
  | .float (some k) => some (k.val + 1)
  | _ => none

/-- All elements denote versions. -/
def Valid : PyVers → Prop
  | .none => True
  | .seq l => ∀ x ∈ l, verOf x ≠ none
  | .other => False

/-- Version `v` is among the given versions; giving none means OpenFlow 1.0. -/
def Accepts : PyVers → Nat → Prop
  | .none, v => v = 1
  | .seq [], v => v = 1
  | .seq l, v => ∃ x ∈ l, verOf x = some v
  | .other, _ => False

/-- `mx` is the highest version accepted. -/
def Highest (vs : PyVers) (mx : Nat) : Prop := Accepts vs mx ∧ ∀ v, Accepts vs v → v ≤ mx

end Twink.Spec
