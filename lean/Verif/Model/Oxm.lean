import Verif.Py

/-!
# OXM match fields, twink/ofp4/oxm.py

Function by function.  Field and class numbers are written as numbers, see L6-91: `numbers` given as one string are
numbered from 0 in the order of the names.
-/

namespace Twink.Oxm
open Fmt

/-- `_bits(oxm_field)`. twink/ofp4/oxm.py L93-114 -/
def bits (field : Nat) : Item :=
  if field ∈ [0, 1] then I                                          -- IN_PORT, IN_PHY_PORT
  else if field ∈ [2, 38] then Q                                    -- METADATA, TUNNEL_ID
  else if field ∈ [3, 4, 24, 25, 32, 33] then S 6                   -- ETH_DST, ETH_SRC, ARP_SHA, ARP_THA, IPV6_ND_SLL, _TLL
  else if field ∈ [5, 6, 13, 14, 15, 16, 17, 18, 21, 39] then H     -- ETH_TYPE, VLAN_VID, TCP, UDP, SCTP, ARP_OP, IPV6_EXTHDR
  else if field ∈ [11, 12, 22, 23] then S 4                         -- IPV4_SRC, IPV4_DST, ARP_SPA, ARP_TPA
  else if field ∈ [26, 27, 31] then S 16                            -- IPV6_SRC, IPV6_DST, IPV6_ND_TARGET
  else if field = 37 then S 3                                       -- PBB_ISID
  else B

/-- `_nxm_basic_bits(nxm_field)`, falling off the end gives `None`. twink/ofp4/oxm.py L116-118 -/
def nxmBits (field : Nat) : Option Item := if field = 32 then some (S 4) else none

/-- The codes of the formats used for Stratos fields; `s n` is `"%ds" % n`. -/
inductive SBits where
  | ub | sb | uh | uq
  | s (n : Nat)
  deriving DecidableEq, Repr

/-- `_stratos_basic_bits(etype)`. twink/ofp4/oxm.py L120-122 -/
def stratosBasic (etype : Nat) : Option SBits := if etype ∈ [1, 9, 10] then some .ub else none

/-- `_stratos_radiotap_bits(etype)`. twink/ofp4/oxm.py L124-135 -/
def stratosRadiotap (etype : Nat) : Option SBits :=
  if etype ∈ [1, 2, 11, 12, 13, 16, 17] then some .ub
  else if etype ∈ [5, 6, 10] then some .sb
  else if etype ∈ [7, 14, 15, 8, 9] then some .uh
  else if etype = 0 then some .uq
  else none

/-- A value of a Stratos field. -/
inductive SVal where
  | int (n : Int)
  | str (b : Bytes)
  deriving DecidableEq, Repr

/-- The three named tuples. twink/ofp4/oxm.py L137-139 -/
inductive Tlv where
  | oxm (cls field hasmask length : Nat) (value : Val) (mask : Option Val)
  | nxm (cls field hasmask length : Nat) (value : Val) (mask : Option Val)
  | stratos (cls field hasmask length exp expType : Nat) (value : SVal) (mask : Option SVal)
  deriving DecidableEq, Repr

/-- The number of bytes of a format code. -/
def SBits.width : SBits → Nat
  | .ub => 1
  | .sb => 1
  | .uh => 2
  | .uq => 8
  | .s n => n

/-- One value unpacked, little-endian (`<`) or big-endian (`!`). -/
def SBits.dec (little : Bool) (b : SBits) (m : Bytes) : SVal :=
  match b with
  | .s _ => .str m
  | .sb => .int (if decBE m < 128 then decBE m else (decBE m : Int) - 256)
  | _ => .int (decBE (if little then m.reverse else m))

/-- `struct.unpack_from(packs, message, offset)` with `packs` one code, or twice the same. -/
def sUnpack (little : Bool) (b : SBits) (twice : Bool) (m : Bytes) (off : Nat) : Py (List SVal) :=
  let w := b.width
  if off + (if twice then 2 * w else w) ≤ m.length then
    if twice then .ok [b.dec little (slice m off (off + w)), b.dec little (slice m (off + w) (off + 2 * w))]
    else .ok [b.dec little (slice m off (off + w))]
  else .error .structError

/-- Whether `struct.pack` accepts a value for a code, and the bytes. -/
def SBits.enc (little : Bool) (b : SBits) (v : SVal) : Py Bytes :=
  match b, v with
  | .s n, .str c => .ok (padTo n c)
  | .sb, .int n =>
    if -128 ≤ n ∧ n < 128 then .ok (encBE 1 (if 0 ≤ n then n.toNat else (n + 256).toNat)) else .error .structError
  | .ub, .int n => if 0 ≤ n ∧ n < 256 then .ok (encBE 1 n.toNat) else .error .structError
  | .uh, .int n =>
    if 0 ≤ n ∧ n < 65536 then .ok (if little then (encBE 2 n.toNat).reverse else encBE 2 n.toNat) else .error .structError
  | .uq, .int n =>
    if 0 ≤ n ∧ n < 2 ^ 64 then .ok (if little then (encBE 8 n.toNat).reverse else encBE 8 n.toNat) else .error .structError
  | _, _ => .error .structError

/-- `struct.pack(packs, *vs)` with `packs` one code, or twice the same: the number of values has to be right. -/
def sPack (little : Bool) (b : SBits) (twice : Bool) (vs : List SVal) : Py Bytes :=
  match twice, vs with
  | false, [v] => b.enc little v
  | true, [v, w] => do
    let x ← b.enc little v
    let y ← b.enc little w
    .ok (x ++ y)
  | _, _ => .error .structError

/-- The branches of `parse` for a format known from the field: length check and values. twink/ofp4/oxm.py L150-155, L159-166
(`struct.calcsize(bits)` without `!` uses native sizes, equal to the standard ones for these codes) -/
def fixed (mk : Val → Option Val → Tlv) (b : Item) (hasmask length : Nat) (m : Bytes) (off : Nat) : Py Tlv :=
  if hasmask = 1 then
    if length = calcsize [b, b] then
      match unpackFrom [b, b] m off with
      | .ok [v, w] => .ok (mk v (some w))
      | .ok _ => .error .typeError
      | .error e => .error e
    else .error .assertion
  else
    if length = calcsize [b] then
      match unpackFrom [b] m off with
      | .ok [v] => .ok (mk v none)
      | .ok _ => .error .typeError
      | .error e => .error e
    else .error .assertion

/-- The format of a Stratos value. twink/ofp4/oxm.py L174-196.  L192 divides a string by a number: TypeError; a negative
width, L195, is no format: struct.error. -/
def stratosFmt (field expType hasmask length : Nat) : Py (Bool × SBits) :=
  match (if field = 0 then (stratosBasic expType).map (false, ·)
    else if field = 1 then (stratosRadiotap expType).map (true, ·) else none : Option (Bool × SBits)) with
  | some p => .ok p
  | none =>
    if hasmask = 1 then .error .typeError
    else if length < 6 then .error .structError
    else .ok (false, .s (length - 6))

/-- The branch of `parse` for experimenter fields. twink/ofp4/oxm.py L167-204 -/
def parseExp (cls field hasmask length : Nat) (m : Bytes) (off : Nat) : Py Tlv :=
  match unpackFrom [I] m off with
  | .ok [.int exp] =>
    if exp = 0xFF00E04D then
      match unpackFrom [H] m (off + 4) with
      | .ok [.int expType] =>
        match stratosFmt field expType hasmask length with
        | .ok (little, b) =>
          match sUnpack little b (hasmask = 1) m (off + 6) with
          | .ok [v] => .ok (.stratos cls field hasmask length exp expType v none)
          | .ok [v, w] => .ok (.stratos cls field hasmask length exp expType v (some w))
          | .ok _ => .error .typeError
          | .error e => .error e
        | .error e => .error e
      | .ok _ => .error .typeError
      | .error e => .error e
    else .error .valueError
  | .ok _ => .error .typeError
  | .error e => .error e

/-- `parse(message, offset)`. twink/ofp4/oxm.py L141-206 -/
def parse (m : Bytes) (off : Nat) : Py Tlv :=
  match unpackFrom [H, B, B] m off with
  | .ok [.int cls, .int p, .int length] =>
    if cls = 0x8000 then fixed (.oxm cls (p / 2) (p % 2) length) (bits (p / 2)) (p % 2) length m (off + 4)
    else if cls = 1 then
      match nxmBits (p / 2) with
      | some b => fixed (.nxm cls (p / 2) (p % 2) length) b (p % 2) length m (off + 4)
      | none => .error .typeError                                   -- `None * 2`, `calcsize(None)`
    else if cls = 0xffff then parseExp cls (p / 2) (p % 2) length m (off + 4)
    else .error .valueError
  | .ok _ => .error .typeError
  | .error e => .error e

/-- `m.oxm_length`: named tuples of class `nxm` have no such attribute. twink/ofp4/oxm.py L138, L213 -/
def Tlv.oxmLength : Tlv → Py Nat
  | .oxm _ _ _ l _ _ => .ok l
  | .stratos _ _ _ l _ _ _ _ => .ok l
  | .nxm .. => .error .attributeError

/-- The loop of `parse_list`; `fuel` bounds the number of iterations. twink/ofp4/oxm.py L210-214 -/
def parseLoop (m : Bytes) : Nat → Nat → Py (List Tlv)
  | 0, _ => .error .diverges
  | fuel + 1, off =>
    if off < m.length then do
      let t ← parse m off
      let l ← t.oxmLength
      let ts ← parseLoop m fuel (off + 4 + l)
      .ok (t :: ts)
    else .ok []

/-- `parse_list(message, offset)`. twink/ofp4/oxm.py L208-214 -/
def parseList (m : Bytes) (off : Nat) : Py (List Tlv) := parseLoop m (m.length + 1) off

/-- `build(oxm_class, oxm_field, oxm_hasmask, oxm_length, oxm_value, oxm_mask)`; `oxm_length` is not used.
twink/ofp4/oxm.py L216-238 -/
def build (cls : Option Nat) (field : Nat) (hasmask : Bool) (value : Val) (mask : Option Val) : Py Bytes :=
  let c := cls.getD 0x8000
  let b := bits field
  match (if mask.isNone then (if hasmask then some (.int 0) else none) else mask : Option Val) with
  | some w => pack [H, B, B, b, b] [.int c, .int (2 * field + 1), .int (calcsize [b, b]), value, w]
  | none => pack [H, B, B, b] [.int c, .int (2 * field), .int (calcsize [b]), value]

/-- `build_stratos(...)`; `oxm_length` is not used. twink/ofp4/oxm.py L240-280.  `"!"+None` and `None*2` are TypeErrors;
`packs` is never empty, so that L267-270 are dead. -/
def buildStratos (cls : Option Nat) (field : Nat) (hasmask : Bool) (exp expType : Nat) (value : SVal) (mask : Option SVal) :
    Py Bytes := do
  if exp = 0xFF00E04D then
    let (little, b) ← (if field = 0 then (match stratosBasic expType with | some b => .ok (false, b) | none => .error .typeError)
      else if field = 1 then (match stratosRadiotap expType with | some b => .ok (true, b) | none => .error .typeError)
      else .error .valueError : Py (Bool × SBits))
    -- L248-251, L254-257: one code with a mask, two without
    let vm ← (if hasmask then
        match mask with
        | some w => sPack little b false [value, w]                 -- L263
        | none => .error .structError                               -- L263 with `None`
      else sPack little b true [value] : Py Bytes)                  -- L265
    let h ← pack [H, B, B, I, H] [.int (cls.getD 0xffff), .int (2 * field + (if hasmask then 1 else 0)), .int (6 + vm.length),
      .int exp, .int expType]
    .ok (h ++ vm)
  else .error .valueError

end Twink.Oxm
