import Verif.Model.Cord
import Verif.Spec.Cord

/-! What the graphs of `Verif.Model.Cord` do to a packet, and when that is what the entries of `Verif.Spec.Cord` say. -/

namespace Twink.Cord
open OfpTuple Spec

/-- The graphs, if BESS cuts byte strings to the size of their fields. -/
def bessNet : Net := (exec false bessScript).getD ⟨[], []⟩
def pyNet : Net := (exec false pyScript).getD ⟨[], []⟩

/-- Where a packet has ended, without the names of sinks that only drop. -/
def End.view : End → Verdict × Packet
  | .sink (.OUT n) p => (.out n, p)
  | .sink .LCL p => (.local, p)
  | .sink .CTL p => (.controller, p)
  | .sink _ p => (.drop, p)
  | .lost _ p => (.drop, p)

def Net.sees (n : Net) (e : Env) (k : Nat) (x : Name) (p : Packet) : Option (Verdict × Packet) := (n.walk e k x p).map End.view

/-- The packet of BESS that carries a packet of the switch. -/
structure Carries (p : Packet) (q : Pkt) : Prop where
  data : p.data = q.frame.bytes
  small : q.inPort < 256
  port : p.md .inPort = [UInt8.ofNat q.inPort]
  smallId : q.tunId < 2 ^ 32
  tunId : p.md .tunId = (encBE 4 q.tunId).reverse
  tunDst : p.md .tunDst = q.tunDst

/-- The result `x` is one that the actions `l` allow: the same way out, the same tunnel, and the same frame where none is rewritten. -/
def Right (x : Verdict × Packet) (l : List Act) (q : Pkt) : Prop :=
  ∃ q', Does l q x.1 q' ∧ x.2.md .tunId = (encBE 4 q'.tunId).reverse ∧ x.2.md .tunDst = q'.tunDst ∧
    (x.1 = .out 2 ∨ x.1 = .local ∨ x.1 = .controller ∨ x.1 = .drop ∨ q.inPort = 1 → x.2.data = q'.frame.bytes)

/-- No address of the entries stands by chance where an IPv4 header would have one. -/
def NoChance (b : Bytes) : Prop :=
  20 ≤ b.length ∧ (b.drop 12).take 4 ∉ [[10, 10, 10, 3], [10, 10, 12, 3]] ∧
    (b.drop 16).take 4 ∉ [[10, 10, 12, 3], [10, 10, 12, 2], [10, 10, 10, 2], [10, 10, 10, 3]]

/-- Frames of which the graph judges well: tagged ones with the DEI bit set, IPv4 that is no fragment, ARP, and other types but IPv6 and
802.1ad, unless they happen to look like IPv4. -/
def Ordinary (f : Frame) : Prop :=
  match f.tag, f.body with
  | some t, _ => t.dei = 1
  | none, .ipv4 _ _ _ frag _ _ _ _ _ _ => ¬ Fragment frag
  | none, .arp .. => True
  | none, .other t b => t ≠ 0x86dd ∧ t ≠ 0x88a8 ∧ (NoChance b ∨ t = 0x88cc ∨ t = 0x8942)

/-- An untagged frame with an IPv4 packet. -/
structure IsIp (f : Frame) (src dst : Bytes) (frag : Nat) (l4 : L4) : Prop where
  untagged : f.tag = none
  body : ∃ tos len ident ttl sum options, f.body = .ipv4 tos len ident frag ttl sum src dst options l4

/-- UDP to a port; UDP from port 68 to 67. -/
def udpTo (n : Nat) : L4 → Bool
  | .udp _ d _ => d == n
  | _ => false
def dhcp : L4 → Bool
  | .udp s d _ => s == 68 && d == 67
  | _ => false

end Twink.Cord
