import Verif.Model.Logging

/-! What a log has to say. -/

namespace Twink.Logging

/-- The value of a hexadecimal digit. -/
def value (c : Char) : Nat := if c.toNat ≤ 57 then c.toNat - 48 else c.toNat - 87

/-- The bytes that pairs of digits stand for. -/
def unhex : Text → Bytes
  | a :: b :: cs => UInt8.ofNat (16 * value a + value b) :: unhex cs
  | _ => []

/-- What follows the last space. -/
def lastWord (t : Text) : Text := (t.reverse.takeWhile (· ≠ ' ')).reverse

/-- The message that a line is about. -/
def told (t : Text) : Bytes := unhex (lastWord t)

/-- The messages given to `send`. -/
def given : List Op → List Bytes
  | [] => []
  | .send m _ :: ops => m :: given ops
  | _ :: ops => given ops

/-- How often the channel goes from open to closed. -/
def closings : Bool → List Op → Nat
  | _, [] => 0
  | c, .close :: ops => (if c then 0 else 1) + closings true ops
  | _, .attach _ :: ops => closings false ops
  | c, _ :: ops => closings c ops

end Twink.Logging
