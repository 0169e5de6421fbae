import Verif.Model.Of14Parse
import Verif.Model.Of14Build
import Verif.Model.Oxm14
import Verif.Model.Session
import Verif.Model.Controller

/-!
# The project's own checks

The assertions of `/repo/twink/ofp5/__main__.py` and tests of `/repo/test/test_twink.py`, run in the model.  These are tests of the
model, not proofs: they show that it agrees with the code where the authors of the code have said what they expect.
-/

namespace Twink.SelfTests
open Twink Of13 Of14

/-- `p.parse(b...)`. -/
def again (b : Py Bytes) : Py Of14.Msg := do Of14.parse (← b) 0

/-! ## ofp5/__main__.py -/

/-- L7-8. -/
example : again (Of14.buildHello 7 .none (.items [])) = .ok (.hello ⟨5, 0, 8, 7⟩ []) := by decide +kernel

/-- L9-10: `msg.elements[0].bitmaps == (1,2,3,4,5)`. -/
example : again (Of14.buildHello 7 .none (.items [.tup (.versionBitmap none none (.list [1, 2, 3, 4, 5]))])) =
    .ok (.hello ⟨5, 0, 32, 7⟩ [.versionBitmap (some 1) (some 24) (.list [1, 2, 3, 4, 5])]) := by decide +kernel

/-- L12-14. -/
example : again (Of14.buildError 7 .none 1 0 none) = .ok (.error ⟨5, 1, 12, 7⟩ 1 0 []) := by decide +kernel

/-- L16-21. -/
example : again (Of14.buildFeatures 7 .none 0x4649 300 23 0 0) = .ok (.features ⟨5, 6, 32, 7⟩ 0x4649 300 23 0 0) := by decide +kernel

/-- L23-25. -/
example : again (Of14.buildConfig 7 (.tup none (some 9) none none) 2 none) = .ok (.config ⟨5, 9, 12, 7⟩ 2 0xffff) := by decide +kernel

/-- L27-35. -/
example : again (Of14.buildPacketOut 7 .none (some 45) 12 (.items [.tup (.output none none 0xfffffff9 0xffe5)]) none) =
    .ok (.packetOut ⟨5, 13, 40, 7⟩ 45 12 16 [.output (some 0) (some 16) 0xfffffff9 0xffe5] []) := by decide +kernel

/-- L37-66: the match of the flow modification. -/
def fields : Py Bytes := do .ok ((← Oxm14.build none 0 false (.int 12) none) ++ (← Oxm14.build none 4 false (.str (List.replicate 6 255)) none))

/-- L37-66: the flow modification. -/
def flowMod : Py Bytes := do
  let v ← Oxm14.build none 6 false (.int 612) none
  Of14.buildFlowMod 7 .none 3 0xff 0 0 0 300 20 (some 45) (some 0xffffffff) (some 0xffffffff) 0 7 (.tup ⟨none, none, .raw (← fields)⟩)
    (.items [.tup (.actions (some 4) none (.items [.tup (.push (some 17) none 0x8100), .tup (.setField none none v),
      .tup (.output none none 5 0xffe5)]))])

/-- L46-54, L61-64. -/
example : ∃ oxm acts, again flowMod = .ok (.flowMod ⟨5, 14, 120, 7⟩ 3 0xff 0 0 0 300 20 45 0xffffffff 0xffffffff 0 7 ⟨some 1, some 22, .raw oxm⟩
    [.actions (some 4) (some 48) (.items acts)]) ∧ fields = .ok oxm ∧ acts.length = 3 := by
  refine ⟨[128, 0, 0, 4, 0, 0, 0, 12, 128, 0, 8, 6, 255, 255, 255, 255, 255, 255],
    [.tup (.push (some 17) (some 8) 0x8100), .tup (.setField (some 25) (some 16) [128, 0, 12, 2, 2, 100, 0, 0, 0, 0, 0, 0]),
      .tup (.output (some 0) (some 16) 5 0xffe5)], ?_, ?_, rfl⟩ <;> decide +kernel

/-- L55-60. -/
example : (do Oxm14.parseList (← fields) 0) = .ok [⟨0x8000, 0, 0, 4, .int 12, none⟩, ⟨0x8000, 4, 0, 6, .str (List.replicate 6 255), none⟩] := by
  decide +kernel

/-- L66-71. -/
example : again (Of14.buildMpRequest 7 .none 1 0 (.one (.flowStatsReq (some 0) none none (some 1) (some 255) none))) =
    .ok (.mpRequest ⟨5, 18, 56, 7⟩ 1 0 (.one (.flowStatsReq (some 0) (some 0xffffffff) (some 0xffffffff) (some 1) (some 255)
      (some (.tup ⟨some 1, some 4, .raw []⟩))))) := by decide +kernel

/-! ## test_twink.py -/

/-- `struct.pack("!BBHI", 4, 0, 8, 0)`. -/
def eight : Bytes := [4, 0, 0, 8, 0, 0, 0, 0]

/-- `OpenflowBaseChannelTestCase.test_pair1` (L59-73): the message, then the end of the stream. -/
example : recv [] [.raw (.data eight), .raw (.data [])] = .ret eight [] [.raw (.data [])] ∧ recv [] [.raw (.data [])] = .ret [] [] [] := by decide +kernel

/-- `OpenflowChannelTestCase.test_pair1` (L106-124): both ends accept 1.3 only, which is the default (base.py:139). -/
example : (do
    let h ← hello (PyVers.seq [.int 4]) 1
    .ok (ofRecv (PyVers.seq [.int 4]) 2 ⟨none, []⟩ h).1.version) = Except.ok (ε := Err) (some 4) := by decide +kernel

/-- `ControllerChannelTestCase2` (L201-240), `BarrieredReply`: what the switch answers to the messages of the controller. -/
def barriered (v : UInt8) : List Bytes → List Bytes → List Bytes
  | _, [] => []
  | kept, m :: ms =>
    match m with
    | [_, 20, _, _, a, b, c, d] =>
      kept.filterMap (fun q => match q with | [_, 2, _, _, a, b, c, d] => some [v, 3, 0, 8, a, b, c, d] | _ => none) ++
        [v, 21, 0, 8, a, b, c, d] :: barriered v [] ms
    | _ => barriered v (kept ++ [m]) ms

/-- Two echo requests with different callbacks and a barrier: both callbacks are called once. -/
example :
    let go := fun (s : Ctl) (x : UInt8 × UInt8 × Option Nat) => (ctlSend (fun _ => true) ⟨0, 0, 0, 0⟩ true true s [4, x.1, 0, 8, 0, 0, 0, x.2.1] x.2.2).1
    let s := [((2 : UInt8), (1 : UInt8), some 1), (2, 2, some 2), (20, 3, none)].foldl go ⟨some 4, [], [], some 9⟩
    let wire := s.wire.map (fun | .inserted b => b | .user b _ => b)
    let r := (barriered 4 [] wire).foldl (fun (acc : Ctl × List Handled) m => ((ctlHandle false (fun _ => true) acc.1 m).1,
      acc.2 ++ [(ctlHandle false (fun _ => true) acc.1 m).2])) (s, [])
    r.2 = [.callback 1, .swallowed, .callback 2, .swallowed] ∧ r.1.seq = [] := by decide +kernel

end Twink.SelfTests
