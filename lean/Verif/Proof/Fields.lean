import Verif.PyLemmas
import Verif.Spec.Hello

/-! `struct` fields read at an offset, in terms of the independent field readers `u8`…`u64`. -/

namespace Twink
open Spec

theorem decBE_take_succ (m : Bytes) (i w : Nat) (h : i + w < m.length) :
    decBE ((m.drop i).take (w + 1)) = decBE ((m.drop i).take w) * 256 + u8 m (i + w) := by
  rw [List.take_add_one, List.getElem?_drop, List.getElem?_eq_getElem h]
  simp only [decBE, Option.toList, List.foldl_append, List.foldl_cons, List.foldl_nil, u8,
    List.getD_eq_getElem?_getD, List.getElem?_eq_getElem h, Option.getD_some]

theorem decBE_u8 (m : Bytes) (i : Nat) (h : i + 1 ≤ m.length) : decBE ((m.drop i).take 1) = u8 m i := by
  rw [decBE_take_succ _ _ _ (by omega)]; simp

theorem decBE_u16 (m : Bytes) (i : Nat) (h : i + 2 ≤ m.length) : decBE ((m.drop i).take 2) = u16 m i := by
  rw [decBE_take_succ _ _ _ (by omega), decBE_u8 _ _ (by omega), u16]; omega

theorem decBE_u32 (m : Bytes) (i : Nat) (h : i + 4 ≤ m.length) : decBE ((m.drop i).take 4) = u32 m i := by
  rw [decBE_take_succ _ _ _ (by omega), decBE_take_succ _ _ _ (by omega), decBE_u16 _ _ (by omega), u32]
  simp only [u16, Nat.add_assoc, Nat.reduceAdd]; omega

theorem decBE_u64 (m : Bytes) (i : Nat) (h : i + 8 ≤ m.length) : decBE ((m.drop i).take 8) = u64 m i := by
  rw [decBE_take_succ _ _ _ (by omega), decBE_take_succ _ _ _ (by omega), decBE_take_succ _ _ _ (by omega),
    decBE_take_succ _ _ _ (by omega), decBE_u32 _ _ (by omega), u64]
  simp only [u32, u16, Nat.add_assoc, Nat.reduceAdd]
  omega

end Twink
