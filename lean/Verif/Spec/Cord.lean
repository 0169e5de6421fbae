import Verif.Spec.OfpTuple

/-!
The flow entries that the comments of cord_softswitch_pipeline.bess (and of cord_softswitch_pipeline) list, with the meaning of OpenFlow: in a
table the matching entry of highest priority counts, without one the packet is dropped.  The fields of a frame are those of `Frame.key` (C80).
LOCAL is port 101 ("magic number for LOCAL", .bess L17).
-/

namespace Twink.Cord
open OfpTuple

/-- A packet of the switch. -/
structure Pkt where
  inPort : Nat
  tunId : Nat
  tunDst : Bytes
  frame : Frame

/-- What an entry asks for; `none` is a wildcard.  Addresses are given by their first bytes. -/
structure Match where
  inPort : Option Nat := none
  tagged : Bool := false
  vlan : Option Nat := none
  dlType : Option Nat := none
  dlDst : Option Bytes := none
  nwProto : Option Nat := none
  nwSrc : Option Bytes := none
  nwDst : Option Bytes := none
  tpSrc : Option Nat := none
  tpDst : Option Nat := none
  tunId : Option Nat := none

/-- The packet has the fields. -/
def Match.Holds (m : Match) (p : Pkt) : Prop :=
  let k := p.frame.key (some p.inPort)
  (∀ x, m.inPort = some x → p.inPort = x) ∧
  (m.tagged = true → p.frame.tag ≠ none) ∧
  (∀ x, m.vlan = some x → k.dlVlan = some x) ∧
  (∀ x, m.dlType = some x → k.dlType = x) ∧
  (∀ x, m.dlDst = some x → k.dlDst = x) ∧
  (∀ x, m.nwProto = some x → k.nwProto = some x) ∧
  (∀ x, m.nwSrc = some x → ∃ a, k.nwSrc = some a ∧ x <+: a) ∧
  (∀ x, m.nwDst = some x → ∃ a, k.nwDst = some a ∧ x <+: a) ∧
  (∀ x, m.tpSrc = some x → k.tpSrc = some x) ∧
  (∀ x, m.tpDst = some x → k.tpDst = some x) ∧
  (∀ x, m.tunId = some x → p.tunId = x)

inductive Act where
  | goto (table : Nat)
  | output (port : Nat)
  | local
  | controller
  | group
  | setEthDst (m : Bytes)
  | setTunId (n : Nat)
  | setTunDst (a : Bytes)
  | popVlan

structure Flow where
  prio : Nat
  on : Match
  acts : List Act

def ipType : Nat := 0x0800
def arpType : Nat := 0x0806

/-- The tables, in the order of the comments. -/
def table : Nat → List Flow
  | 0 => [
    ⟨55000, { tagged := true }, [.goto 6]⟩,
    ⟨50000, { inPort := some 101 }, [.output 2]⟩,
    ⟨50000, { dlType := some ipType, inPort := some 2, nwDst := some [1, 1, 1, 1] }, [.local]⟩,
    ⟨50000, { dlType := some arpType, inPort := some 2, nwDst := some [1, 1, 1, 1] }, [.local]⟩,
    ⟨50000, { dlType := some ipType, nwProto := some 17, inPort := some 2, tpDst := some 4789 }, [.local]⟩,
    ⟨40000, { dlType := some ipType, nwProto := some 17, tpSrc := some 68, tpDst := some 67 }, [.controller]⟩,
    ⟨40000, { dlType := some 0x88cc }, [.controller]⟩,
    ⟨40000, { dlType := some 0x8942 }, [.controller]⟩,
    ⟨40000, { dlType := some arpType }, [.controller]⟩,
    ⟨0, {}, [.goto 1]⟩]
  | 1 => [
    ⟨5000, { inPort := some 1 }, [.goto 5]⟩,
    ⟨5000, { inPort := some 2 }, [.goto 4]⟩,
    ⟨5000, { dlType := some ipType, inPort := some 3, nwSrc := some [10, 10, 10, 3] }, [.goto 2]⟩,
    ⟨5000, { dlType := some ipType, inPort := some 4, nwSrc := some [10, 10, 12, 3] }, [.goto 2]⟩,
    ⟨4000, { inPort := some 3 }, [.goto 3]⟩,
    ⟨4000, { inPort := some 4 }, [.goto 3]⟩]
  | 2 => [
    ⟨50000, { dlType := some ipType, nwSrc := some [10, 10, 10], nwDst := some [10, 10, 12, 1] }, [.group]⟩,
    ⟨5000, { dlType := some ipType, nwSrc := some [10, 10, 12], nwDst := some [10, 10, 12] }, [.goto 4]⟩,
    ⟨5000, { dlType := some ipType, nwSrc := some [10, 10, 12], nwDst := some [10, 10, 10] }, [.goto 4]⟩,
    ⟨5000, { dlType := some ipType, nwSrc := some [10, 10, 10], nwDst := some [10, 10, 12] }, [.goto 4]⟩,
    ⟨5000, { dlType := some ipType, nwSrc := some [10, 10, 10], nwDst := some [10, 10, 10] }, [.goto 4]⟩,
    ⟨4000, { dlType := some ipType, nwDst := some [10, 10, 10] }, []⟩,
    ⟨4000, { dlType := some ipType, nwDst := some [10, 10, 12] }, []⟩,
    ⟨0, {}, [.output 2]⟩]
  | 3 => [⟨5000, { inPort := some 3 }, [.group]⟩]
  | 4 => [
    ⟨5000, { dlType := some ipType, nwDst := some [10, 10, 12, 3] }, [.setEthDst [0xfa, 0x16, 0x3e, 0xcf, 0xf2, 0x56], .output 4]⟩,
    ⟨5000, { dlType := some ipType, nwDst := some [10, 10, 12, 2] },
      [.setEthDst [0xfa, 0x16, 0x3e, 0xf3, 0x5e, 0x82], .setTunId 0x40c, .setTunDst [1, 1, 1, 2], .output 1]⟩,
    ⟨5000, { dlType := some ipType, nwDst := some [10, 10, 10, 2] },
      [.setEthDst [0xfa, 0x16, 0x3e, 0xda, 0x05, 0xed], .setTunId 0x406, .setTunDst [1, 1, 1, 2], .output 1]⟩,
    ⟨5000, { dlType := some ipType, nwDst := some [10, 10, 10, 3] }, [.setEthDst [0xfa, 0x16, 0x3e, 0x3e, 0x82, 0xe8], .output 3]⟩]
  | 5 => [
    ⟨5000, { tunId := some 0x406, dlDst := some [0xfa, 0x16, 0x3e, 0x3e, 0x82, 0xe8] }, [.output 3]⟩,
    ⟨5000, { tunId := some 0x40c, dlDst := some [0xfa, 0x16, 0x3e, 0xcf, 0xf2, 0x56] }, [.output 4]⟩]
  | 6 => [
    ⟨50000, { dlType := some arpType, vlan := some 500 }, [.controller]⟩,
    ⟨5000, { vlan := some 500 }, [.popVlan, .output 2]⟩]
  | _ => []

/-- group_id=2953848289, type=select: one of the buckets. -/
def buckets : List (List Act) :=
  [[.setEthDst [0xfa, 0x16, 0x3e, 0xf3, 0x5e, 0x82], .setTunDst [1, 1, 1, 2], .setTunId 0x40c, .output 1],
   [.setEthDst [0xfa, 0x16, 0x3e, 0xcf, 0xf2, 0x56], .output 4]]

/-- Where a packet goes. -/
inductive Verdict where
  | out (port : Nat)
  | local
  | controller
  | drop
  deriving DecidableEq, Repr

/-- An entry that the packet may take. -/
def Selects (t : Nat) (p : Pkt) (f : Flow) : Prop :=
  f ∈ table t ∧ f.on.Holds p ∧ ∀ g ∈ table t, g.on.Holds p → g.prio ≤ f.prio

/-- What becomes of a packet under a list of actions. -/
inductive Does : List Act → Pkt → Verdict → Pkt → Prop where
  | nothing (p) : Does [] p .drop p
  | output (n l p) : Does (.output n :: l) p (.out n) p
  | local (l p) : Does (.local :: l) p .local p
  | controller (l p) : Does (.controller :: l) p .controller p
  | entry {t p f v q} (l) : Selects t p f → Does f.acts p v q → Does (.goto t :: l) p v q
  | miss {t p} (l) : (∀ f ∈ table t, ¬ f.on.Holds p) → Does (.goto t :: l) p .drop p
  | group {p b v q} (l) : b ∈ buckets → Does b p v q → Does (.group :: l) p v q
  | setEthDst {l p v q} (m) : Does l { p with frame := { p.frame with dst := m } } v q → Does (.setEthDst m :: l) p v q
  | setTunId {l p v q} (n) : Does l { p with tunId := n } v q → Does (.setTunId n :: l) p v q
  | setTunDst {l p v q} (a) : Does l { p with tunDst := a } v q → Does (.setTunDst a :: l) p v q
  | popVlan {l p v q} : Does l { p with frame := { p.frame with tag := none } } v q → Does (.popVlan :: l) p v q

end Twink.Cord
