import Verif.Model.Framing

/-! Specification vocabulary for framing: stated on bytes and transport events only. -/

namespace Twink.Spec

/-- The length that the third and fourth byte of a message announce (OpenFlow header). -/
def announced : Bytes → Nat
  | _ :: _ :: h :: l :: _ => 256 * h.toNat + l.toNat
  | _ => 0

/-- A correctly framed OpenFlow message. -/
def WellFormed (m : Bytes) : Prop := 8 ≤ m.length ∧ announced m = m.length

/-- `b` starts with a complete message. -/
def Complete (b : Bytes) : Prop := 8 ≤ b.length ∧ announced b ≤ b.length

/-- Bytes that a transport event hands over. -/
def payload : Ev → Bytes
  | .raw (.data b) => b
  | _ => []

/-- Bytes that a list of transport events hands over. -/
def carried (evs : List Ev) : Bytes := (evs.map payload).flatten

/-- A non-empty read. -/
def IsChunk (e : Ev) : Prop := ∃ x b, e = .raw (.data (x :: b))

/-- A read that brought nothing yet: timeout or interrupted system call. -/
def IsWait (e : Ev) : Prop := e = .raw .timeout ∨ e = .raw (.sockErr .eintr)

/-- End of stream or an equivalent condition: no data, connection reset, closed channel, ... -/
def IsEmptyRead (e : Ev) : Prop :=
  e = .closed ∨ e = .stopping ∨ e = .raw (.data []) ∨ e = .raw (.sockErr .eagain) ∨
  e = .raw (.sockErr .econnreset) ∨ e = .raw (.sockErr .ebadf) ∨ e = .raw .keyboard

end Twink.Spec
