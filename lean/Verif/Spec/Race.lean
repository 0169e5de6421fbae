import Verif.Model.Race

/-!
# What a controller knows of the ports
-/

namespace Twink.Race
open Of13 (PortT)

/-- A controller keeps the ports by their numbers.  A description replaces what it knew; ADD and DELETE change one port. -/
def learn (known : List PortT) : Msg → List PortT
  | .add p => known.filter (fun q => q.portNo ≠ p.portNo) ++ [p]
  | .del p => known.filter (fun q => q.portNo ≠ p.portNo)
  | .desc l => l

/-- What it knows after some messages. -/
def knows (ms : List Msg) : List PortT := ms.foldl learn []

/-- Nobody is busy. -/
def Rest (s : St) : Prop := s.mgr = .idle ∧ s.loop = .idle

/-- The controller knows exactly the ports there are. -/
def Right (s : St) : Prop := ∀ p, p ∈ knows s.out ↔ p ∈ ports s

/-- A dictionary as the program may start with: no number twice, none above the last one given except that of the local port. -/
structure Fresh (s : St) : Prop where
  nodup : (ports s).Nodup
  unique : ∀ p ∈ ports s, ∀ q ∈ ports s, p.portNo = q.portNo → p = q
  below : ∀ p ∈ ports s, p.portNo ≤ s.lastNo ∨ p.portNo = 0xfffffffe
  last : s.lastNo < 0xfffffffe
  idle : Rest s
  quiet : s.out = []

/-- After `ops` the thread of the connection is in the loop over the dictionary. -/
def Looping (s : St) (ops : List Op) : Prop := ∃ n i seen, (runs s ops).loop = .iter n i seen

/-- The dictionary has another size at some round of a loop than at the beginning of this loop. -/
def Torn (s : St) (ops : List Op) : Prop := ∃ a b c, ops = a ++ .request :: (b ++ .next :: c) ∧ (runs s a).loop = .idle ∧
  (∀ b' b'', b = b' ++ b'' → Looping s (a ++ .request :: b')) ∧ (ports (runs s (a ++ .request :: b))).length ≠ (ports (runs s a)).length

end Twink.Race
