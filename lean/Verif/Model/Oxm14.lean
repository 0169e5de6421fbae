import Verif.Py

/-!
# OXM match fields, twink/ofp5/oxm.py

Function by function.  Field and class numbers are written as numbers, see L6-28 and `Consts.lean`.
-/

namespace Twink.Oxm14
open Fmt

/-- `_bits(oxm_field)`. twink/ofp5/oxm.py L40-62 -/
def bits (field : Nat) : Item :=
  if field ∈ [0, 1] then I                                          -- IN_PORT, IN_PHY_PORT
  else if field ∈ [2, 38] then Q                                    -- METADATA, TUNNEL_ID
  else if field ∈ [3, 4, 24, 25, 32, 33] then S 6                   -- ETH_DST, ETH_SRC, ARP_SHA, ARP_THA, IPV6_ND_SLL, _TLL
  else if field ∈ [5, 6, 13, 14, 15, 16, 17, 18, 21, 39] then H     -- ETH_TYPE, VLAN_VID, TCP, UDP, SCTP, ARP_OP, IPV6_EXTHDR
  else if field ∈ [11, 12, 22, 23] then S 4                         -- IPV4_SRC, IPV4_DST, ARP_SPA, ARP_TPA
  else if field ∈ [26, 27, 31] then S 16                            -- IPV6_SRC, IPV6_DST, IPV6_ND_TARGET
  else if field = 37 then S 3                                       -- PBB_ISID
  else B

/-- The named tuple `oxm`; without a mask it has no attribute `oxm_mask`, which `none` stands for. twink/ofp5/oxm.py L75-81 -/
structure Tlv where
  cls : Nat
  field : Nat
  hasmask : Nat
  length : Nat
  value : Val
  mask : Option Val
  deriving DecidableEq, Repr

/-- The second half of `parse`. twink/ofp5/oxm.py L71-81 (`struct.calcsize(bits)` without `!` uses native sizes, equal to the
standard ones for these codes) -/
def values (cls field hasmask length : Nat) (m : Bytes) (off : Nat) : Py Tlv :=
  if hasmask = 1 then
    if length = calcsize [bits field, bits field] then
      match unpackFrom [bits field, bits field] m off with
      | .ok [v, w] => .ok ⟨cls, field, hasmask, length, v, some w⟩
      | .ok _ => .error .typeError
      | .error e => .error e
    else .error .assertion
  else
    if length = calcsize [bits field] then
      match unpackFrom [bits field] m off with
      | .ok [v] => .ok ⟨cls, field, hasmask, length, v, none⟩
      | .ok _ => .error .typeError
      | .error e => .error e
    else .error .assertion

/-- `parse(message, offset)`. twink/ofp5/oxm.py L64-81 -/
def parse (m : Bytes) (off : Nat) : Py Tlv :=
  match unpackFrom [H, B, B] m off with
  | .ok [.int cls, .int p, .int length] =>
    if cls ≠ 0x8000 then .error .valueError
    else values cls (p / 2) (p % 2) length m (off + 4)
  | .ok _ => .error .typeError
  | .error e => .error e

/-- The loop of `parse_list`; `fuel` bounds the number of iterations. twink/ofp5/oxm.py L85-88 -/
def parseLoop (m : Bytes) : Nat → Nat → Py (List Tlv)
  | 0, _ => .error .diverges
  | fuel + 1, off =>
    if off < m.length then do
      let t ← parse m off
      let ts ← parseLoop m fuel (off + 4 + t.length)
      .ok (t :: ts)
    else .ok []

/-- `parse_list(message, offset)`. twink/ofp5/oxm.py L83-89 -/
def parseList (m : Bytes) (off : Nat) : Py (List Tlv) := parseLoop m (m.length + 1) off

/-- The mask that is packed. twink/ofp5/oxm.py L98-107 -/
def maskArg (hasmask : Bool) : Option Val → Option Val
  | none => if hasmask then some (.int 0) else none
  | some w => some w

/-- `build(oxm_class, oxm_field, oxm_hasmask, oxm_length, oxm_value, oxm_mask)`; `oxm_length` is not used.
twink/ofp5/oxm.py L91-114 -/
def build (cls : Option Nat) (field : Nat) (hasmask : Bool) (value : Val) (mask : Option Val) : Py Bytes :=
  if cls.getD 0x8000 ≠ 0x8000 then .error .assertion
  else
    match maskArg hasmask mask with
    | some w => pack [H, B, B, bits field, bits field]
        [.int 0x8000, .int (2 * field + 1), .int (calcsize [bits field, bits field]), value, w]
    | none => pack [H, B, B, bits field] [.int 0x8000, .int (2 * field), .int (calcsize [bits field]), value]

end Twink.Oxm14
