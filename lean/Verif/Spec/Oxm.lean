import Verif.Py
import Verif.Spec.Wire

/-! OXM fields of the class OPENFLOW_BASIC, OpenFlow 1.3.2, section 7.2.3. -/

namespace Twink.Oxm
open Spec

/-- Bytes of a value, by field number: tables 11 and 12 of the standard. -/
def stdWidths : List Nat :=
  [4, 4, 8,                          -- IN_PORT IN_PHY_PORT METADATA
   6, 6, 2, 2, 1,                    -- ETH_DST ETH_SRC ETH_TYPE VLAN_VID VLAN_PCP
   1, 1, 1, 4, 4,                    -- IP_DSCP IP_ECN IP_PROTO IPV4_SRC IPV4_DST
   2, 2, 2, 2, 2, 2,                 -- TCP_SRC TCP_DST UDP_SRC UDP_DST SCTP_SRC SCTP_DST
   1, 1,                             -- ICMPV4_TYPE ICMPV4_CODE
   2, 4, 4, 6, 6,                    -- ARP_OP ARP_SPA ARP_TPA ARP_SHA ARP_THA
   16, 16, 4,                        -- IPV6_SRC IPV6_DST IPV6_FLABEL
   1, 1,                             -- ICMPV6_TYPE ICMPV6_CODE
   16, 6, 6,                         -- IPV6_ND_TARGET IPV6_ND_SLL IPV6_ND_TLL
   4, 1, 1,                          -- MPLS_LABEL MPLS_TC MPLS_BOS
   3, 8, 2]                          -- PBB_ISID TUNNEL_ID IPV6_EXTHDR

/-- The fields whose values are byte strings: addresses and the service id. -/
def isBytes (field : Nat) : Bool := field ∈ [3, 4, 11, 12, 22, 23, 24, 25, 26, 27, 31, 32, 33, 37]

/-- A field to match: number, value, mask. -/
structure Field where
  field : Nat
  value : Val
  mask : Option Val
  deriving DecidableEq, Repr

/-- A value that a field of `w` bytes can have. -/
def InRange (field w : Nat) : Val → Prop
  | .int n => isBytes field = false ∧ n < 256 ^ w
  | .str b => isBytes field = true ∧ b.length = w

/-- A field of the standard with values in range. -/
def Field.Good (f : Field) : Prop :=
  ∃ w, stdWidths[f.field]? = some w ∧ InRange f.field w f.value ∧ ∀ m, f.mask = some m → InRange f.field w m

/-- A value on the wire. -/
def valBytes (w : Nat) : Val → Bytes
  | .int n => encBE w n
  | .str b => b

/-- Number of bytes of the standard. -/
def width (field : Nat) : Nat := (stdWidths[field]?).getD 0

/-- Value and mask on the wire. -/
def Field.payload (f : Field) : Bytes :=
  valBytes (width f.field) f.value ++ (match f.mask with | some m => valBytes (width f.field) m | none => [])

/-- A field on the wire: class, field number and mask flag, length of the payload, payload. -/
def Field.bytes (f : Field) : Bytes :=
  be16 0x8000 ++ b8 (2 * f.field + (if f.mask.isSome then 1 else 0)) ++ b8 f.payload.length ++ f.payload

/-- How a vendor field is written: number of bytes, signed or not, least significant byte first or not. -/
structure Kind where
  width : Nat
  signed : Bool
  little : Bool
  deriving DecidableEq, Repr

/-- The radiotap fields with one number, www.radiotap.org: bytes and sign, by field number. -/
def radiotapKinds : List (Option (Nat × Bool)) :=
  [some (8, false), some (1, false), some (1, false), none, none,         -- TSFT FLAGS RATE CHANNEL FHSS
   some (1, true), some (1, true), some (2, false),                       -- DBM_ANTSIGNAL DBM_ANTNOISE LOCK_QUALITY
   some (2, false), some (2, false), some (1, true),                      -- TX_ATTENUATION DB_TX_ATTENUATION DBM_TX_POWER
   some (1, false), some (1, false), some (1, false),                     -- ANTENNA DB_ANTSIGNAL DB_ANTNOISE
   some (2, false), some (2, false), some (1, false), some (1, false)]    -- RX_FLAGS TX_FLAGS RTS_RETRIES DATA_RETRIES

/-- The vendor fields with one number: `DOT11`, `DOT11_PUBLIC_ACTION` and `DOT11_TAG` of the class BASIC are bytes, those of the class
RADIOTAP are as in radiotap headers, which are little-endian. -/
def kindOf (field expType : Nat) : Option Kind :=
  if field = 0 then (if expType = 1 ∨ expType = 9 ∨ expType = 10 then some ⟨1, false, false⟩ else none)
  else if field = 1 then
    match radiotapKinds[expType]? with
    | some (some (w, s)) => some ⟨w, s, true⟩
    | _ => none
  else none

/-- A number that fits. -/
def Kind.InRange (k : Kind) (n : Int) : Prop :=
  if k.signed then -(256 ^ k.width : Int) / 2 ≤ n ∧ n < 256 ^ k.width / 2 else 0 ≤ n ∧ n < 256 ^ k.width

/-- A number on the wire, in two's complement. -/
def Kind.bytes (k : Kind) (n : Int) : Bytes :=
  let b := encBE k.width (n % 256 ^ k.width).toNat
  if k.little then b.reverse else b

end Twink.Oxm
