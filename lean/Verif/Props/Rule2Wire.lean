import Verif.Props.Rule2

/-!
# C120: the messages and the command line, byte by byte
-/

namespace Twink.Rule2
open Spec

/-- C120, the messages of `ovs-ofctl`: a hello of a header only, a barrier request and its reply as the standard defines them. -/
theorem C120_wire (v x : Nat) : helloMsg v = ofHeader v 0 8 1 ∧ barrierReq v x = ofHeader v (if v = 1 then 18 else 20) 8 x ∧
    barrierRep v x = ofHeader v (if v = 1 then 19 else 21) 8 x := by
  refine ⟨?_, ?_, ?_⟩
  · simp [helloMsg, ofHeader, b8, be16, be32]
  · unfold barrierReq
    rw [encBE_4]
    split <;> simp [ofHeader, b8, be16, be32]
  · unfold barrierRep
    rw [encBE_4]
    split <;> simp [ofHeader, b8, be16, be32]

/-- C120, the command line: the names of the protocols are those of `ovs-ofctl` for the wire versions 1 to 5. -/
theorem C120_names : [1, 2, 3, 4, 5].map (fun v => String.ofList (proto v)) = ["OpenFlow10", "OpenFlow11", "OpenFlow12", "OpenFlow13", "OpenFlow14"] ∧
    ∀ v addr text, command v addr text = ["ovs-ofctl", "-O", String.ofList (proto v), "add-flow", String.ofList addr, String.ofList text].map String.toList := by
  refine ⟨by decide, fun v addr text => ?_⟩
  simp [command]

end Twink.Rule2
