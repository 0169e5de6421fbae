import Verif.Spec.Oxm

/-! OXM fields of the class OPENFLOW_BASIC, OpenFlow 1.4.0, section 7.2.3: those of 1.3, and PBB_UCA. -/

namespace Twink.Oxm14
open Spec

/-- Bytes of a value, by field number; 40 is reserved. -/
def stdWidth (field : Nat) : Option Nat := if field = 41 then some 1 else Oxm.stdWidths[field]?

/-- A field to match: number, value, mask. -/
structure Field where
  field : Nat
  value : Val
  mask : Option Val
  deriving DecidableEq, Repr

/-- A field of the standard with values in range. -/
def Field.Good (f : Field) : Prop :=
  ∃ w, stdWidth f.field = some w ∧ Oxm.InRange f.field w f.value ∧ ∀ m, f.mask = some m → Oxm.InRange f.field w m

/-- Value and mask on the wire. -/
def Field.payload (f : Field) : Bytes :=
  Oxm.valBytes ((stdWidth f.field).getD 0) f.value ++
    (match f.mask with | some m => Oxm.valBytes ((stdWidth f.field).getD 0) m | none => [])

/-- A field on the wire: class, field number and mask flag, length of the payload, payload. -/
def Field.bytes (f : Field) : Bytes :=
  be16 0x8000 ++ b8 (2 * f.field + (if f.mask.isSome then 1 else 0)) ++ b8 f.payload.length ++ f.payload

end Twink.Oxm14
