import Verif.Spec.Wire
import Verif.Model.OfpTuple

/-!
Ethernet frames, and the fields that OpenFlow 1.0.0, section 3.4, takes from them (`Key` is only the record of the twelve fields).
-/

namespace Twink.OfpTuple
open Spec

/-- An 802.1Q tag. -/
structure Tag where
  pcp : Nat
  dei : Nat
  vid : Nat
  deriving DecidableEq, Repr

/-- What an IPv4 header is followed by. -/
inductive L4 where
  | tcp (src dst : Nat) (more : Bytes)
  | udp (src dst : Nat) (more : Bytes)
  | icmp (type code : Nat) (more : Bytes)
  | other (proto : Nat) (body : Bytes)
  deriving DecidableEq, Repr

/-- Payload of a frame, by type. -/
inductive Body where
  | ipv4 (tos len ident frag ttl sum : Nat) (src dst options : Bytes) (l4 : L4)
  | arp (op : Nat) (sha spa tha tpa more : Bytes)
  | other (type : Nat) (body : Bytes)
  deriving DecidableEq, Repr

/-- An Ethernet II frame, without its checksum. -/
structure Frame where
  dst : Bytes
  src : Bytes
  tag : Option Tag
  body : Body
  deriving DecidableEq, Repr

/-- Protocol number. -/
def L4.proto : L4 → Nat
  | .tcp .. => 6
  | .udp .. => 17
  | .icmp .. => 1
  | .other p _ => p

def L4.bytes : L4 → Bytes
  | .tcp s d r => be16 s ++ (be16 d ++ r)
  | .udp s d r => be16 s ++ (be16 d ++ r)
  | .icmp t c r => b8 t ++ (b8 c ++ r)
  | .other _ r => r

/-- Ports, or type and code. -/
def L4.src : L4 → Option Nat
  | .tcp s _ _ => some s
  | .udp s _ _ => some s
  | .icmp t _ _ => some t
  | .other .. => none

def L4.dst : L4 → Option Nat
  | .tcp _ d _ => some d
  | .udp _ d _ => some d
  | .icmp _ c _ => some c
  | .other .. => none

/-- Numbers in range; protocols with a name of their own go by it; at least four bytes. -/
def L4.Good : L4 → Prop
  | .tcp s d _ => s < 65536 ∧ d < 65536
  | .udp s d _ => s < 65536 ∧ d < 65536
  | .icmp t c r => t < 256 ∧ c < 256 ∧ 2 ≤ r.length
  | .other p r => p < 256 ∧ p ≠ 6 ∧ p ≠ 17 ∧ p ≠ 1 ∧ 4 ≤ r.length

def Body.type : Body → Nat
  | .ipv4 .. => 0x0800
  | .arp .. => 0x0806
  | .other t _ => t

def Body.bytes : Body → Bytes
  | .ipv4 tos len ident frag ttl sum src dst options l4 =>
    b8 (0x40 + 5 + options.length / 4) ++ (b8 tos ++ (be16 len ++ (be16 ident ++ (be16 frag ++ (b8 ttl ++ (b8 l4.proto ++ (be16 sum ++
      (src ++ (dst ++ (options ++ l4.bytes))))))))))
  | .arp op sha spa tha tpa more =>
    be16 1 ++ (be16 0x0800 ++ (b8 6 ++ (b8 4 ++ (be16 op ++ (sha ++ (spa ++ (tha ++ (tpa ++ more))))))))
  | .other _ b => b

/-- On the wire. -/
def Frame.bytes (f : Frame) : Bytes :=
  f.dst ++ (f.src ++ ((match f.tag with
    | some t => be16 0x8100 ++ be16 (t.pcp * 8192 + t.dei * 4096 + t.vid)
    | none => []) ++ (be16 f.body.type ++ f.body.bytes)))

/-- Addresses of six and four bytes, numbers in range; types are types, not lengths, and those with a name of their own go by it;
at least 18 bytes. -/
def Frame.Good (f : Frame) : Prop :=
  f.dst.length = 6 ∧ f.src.length = 6 ∧ (∀ t, f.tag = some t → t.pcp < 8 ∧ t.dei < 2 ∧ t.vid < 4096) ∧
  match f.body with
  | .ipv4 tos len ident frag ttl sum src dst options l4 =>
    tos < 256 ∧ len < 65536 ∧ ident < 65536 ∧ frag < 65536 ∧ ttl < 256 ∧ sum < 65536 ∧ src.length = 4 ∧ dst.length = 4 ∧
      options.length % 4 = 0 ∧ options.length ≤ 40 ∧ l4.Good
  | .arp op sha spa tha tpa _ => op < 65536 ∧ sha.length = 6 ∧ spa.length = 4 ∧ tha.length = 6 ∧ tpa.length = 4
  | .other t b => 0x0600 ≤ t ∧ t < 65536 ∧ t ≠ 0x0800 ∧ t ≠ 0x0806 ∧ (f.tag = none → t ≠ 0x8100 ∧ 4 ≤ b.length)

/-- More fragments follow, or this is not the first one. -/
def Fragment (frag : Nat) : Prop := frag % 16384 ≠ 0

instance (frag : Nat) : Decidable (Fragment frag) := by unfold Fragment; infer_instance

/-- The fields to match; those that the frame does not have are `none`. Of the type of service the upper six bits count, of
the operation of ARP the lower eight; the ports of fragments are 0. -/
def Frame.key (inPort : Option Nat) (f : Frame) : Key :=
  let k : Key := ⟨inPort, f.src, f.dst, f.body.type, f.tag.map (·.vid), f.tag.map (·.pcp), none, none, none, none, none, none⟩
  match f.body with
  | .ipv4 tos _ _ frag _ _ src dst _ l4 =>
    { k with nwSrc := some src, nwDst := some dst, nwProto := some l4.proto, ipTos := some (tos / 4 * 4),
             tpSrc := if Fragment frag then l4.src.map fun _ => 0 else l4.src,
             tpDst := if Fragment frag then l4.dst.map fun _ => 0 else l4.dst }
  | .arp op _ spa _ tpa _ => { k with nwSrc := some spa, nwDst := some tpa, nwProto := some (op % 256) }
  | .other .. => k

/-- Frames that hold what the code can handle: no options in an IPv4 header, no fragment, no congestion bits, an operation of ARP
of eight bits. -/
def Frame.Plain (f : Frame) : Prop :=
  match f.body with
  | .ipv4 tos _ _ frag _ _ _ _ options _ => options = [] ∧ ¬ Fragment frag ∧ tos % 4 = 0
  | .arp op .. => op < 256
  | .other .. => True

/-- The type of an 802.3 frame, from what follows its length: that of the SNAP header, if there is one with a zero OUI, else 0x05ff. -/
def type8023 : Bytes → Nat
  | 0xAA :: 0xAA :: 0x03 :: 0 :: 0 :: 0 :: h :: l :: _ => h.toNat * 256 + l.toNat
  | _ => 0x05ff

end Twink.OfpTuple
