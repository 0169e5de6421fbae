import Verif.PyLemmas

/-! Network byte order, spelled out byte by byte. -/

namespace Twink.Spec

/-- One byte. -/
def b8 (n : Nat) : Bytes := [UInt8.ofNat n]
/-- Big-endian 16-bit number. -/
def be16 (n : Nat) : Bytes := [UInt8.ofNat (n / 256), UInt8.ofNat (n % 256)]
/-- Big-endian 32-bit number. -/
def be32 (n : Nat) : Bytes := be16 (n / 65536) ++ be16 (n % 65536)
/-- Big-endian 64-bit number. -/
def be64 (n : Nat) : Bytes := be32 (n / 4294967296) ++ be32 (n % 4294967296)
/-- Padding. -/
def zeros (n : Nat) : Bytes := List.replicate n 0

/-- An OpenFlow header. -/
def ofHeader (version oftype length xid : Nat) : Bytes := b8 version ++ b8 oftype ++ be16 length ++ be32 xid

theorem encBE_1 (n : Nat) : encBE 1 n = b8 n := by simp [encBE, b8]
theorem encBE_2 (n : Nat) : encBE 2 n = be16 n := by simp [encBE, be16]
theorem encBE_4 (n : Nat) : encBE 4 n = be32 n := by
  simp only [encBE, be32, be16, List.cons_append, List.nil_append]
  refine List.cons_eq_cons.2 ⟨by congr 1; omega, List.cons_eq_cons.2 ⟨by congr 1; omega,
    List.cons_eq_cons.2 ⟨by congr 1; omega, List.cons_eq_cons.2 ⟨by congr 1; omega, rfl⟩⟩⟩⟩
theorem encBE_8 (n : Nat) : encBE 8 n = be64 n := by
  simp only [encBE, be64, be32, be16, List.cons_append, List.nil_append]
  refine List.cons_eq_cons.2 ⟨by congr 1; omega, List.cons_eq_cons.2 ⟨by congr 1; omega,
    List.cons_eq_cons.2 ⟨by congr 1; omega, List.cons_eq_cons.2 ⟨by congr 1; omega,
    List.cons_eq_cons.2 ⟨by congr 1; omega, List.cons_eq_cons.2 ⟨by congr 1; omega,
    List.cons_eq_cons.2 ⟨by congr 1; omega, List.cons_eq_cons.2 ⟨by congr 1; omega, rfl⟩⟩⟩⟩⟩⟩⟩⟩

@[simp] theorem b8_length (n : Nat) : (b8 n).length = 1 := rfl
@[simp] theorem be16_length (n : Nat) : (be16 n).length = 2 := rfl
@[simp] theorem be32_length (n : Nat) : (be32 n).length = 4 := rfl
@[simp] theorem be64_length (n : Nat) : (be64 n).length = 8 := rfl
@[simp] theorem zeros_length (n : Nat) : (zeros n).length = n := by simp [zeros]
@[simp] theorem ofHeader_length (v t l x : Nat) : (ofHeader v t l x).length = 8 := rfl

theorem ofHeader_enc (v t l x : Nat) :
    ofHeader v t l x = enc [.u 1, .u 1, .u 2, .u 4] [.int v, .int t, .int l, .int x] := by
  simp [enc, encBE_1, encBE_2, encBE_4, ofHeader]

end Twink.Spec
