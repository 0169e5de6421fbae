import Verif.Proof.Shift
import Verif.Model.Oxm
import Verif.Model.Oxm14

/-!
# Parsing at an offset: OpenFlow 1.4

Helper lemmas for C101.
-/

namespace Twink.Shift14
open Fmt Of13 Shift

variable (p m : Bytes) (o : Nat)

theorem hdr_shift : Of14.parseHdr (p ++ m) (p.length + o) = sh p.length (Of14.parseHdr m o) := by
  unfold Of14.parseHdr
  shift []

theorem other_shift : Of14.parseOther (p ++ m) (p.length + o) = sh p.length (Of14.parseOther m o) := by
  unfold Of14.parseOther
  shift [hdr_shift]

theorem exp_shift (k : Option Nat → Option Nat → Nat → Nat → Option Bytes → Of14.Pr) (fill : Nat → Nat) : Of14.parseExp k fill (p ++ m) (p.length + o) = sh p.length (Of14.parseExp k fill m o) := by
  unfold Of14.parseExp
  shift []

theorem portPropOf_shift (t : Nat) : Of14.parsePortPropOf t (p ++ m) (p.length + o) = sh p.length (Of14.parsePortPropOf t m o) := by
  unfold Of14.parsePortPropOf
  shift [exp_shift]

theorem port_shift : Of14.parsePort (p ++ m) (p.length + o) = sh p.length (Of14.parsePort m o) := by
  unfold Of14.parsePort
  shift [portPropOf_shift, Nat.add_lt_add_iff_left]

theorem actionOf_shift (t : Nat) : Of14.parseActionOf t (p ++ m) (p.length + o) = sh p.length (Of14.parseActionOf t m o) := by
  unfold Of14.parseActionOf
  shift []

theorem action_shift : Of14.parseAction (p ++ m) (p.length + o) = sh p.length (Of14.parseAction m o) := by
  unfold Of14.parseAction
  shift [actionOf_shift]

theorem instrOf_shift (t : Nat) : Of14.parseInstrOf t (p ++ m) (p.length + o) = sh p.length (Of14.parseInstrOf t m o) := by
  unfold Of14.parseInstrOf
  shift [while_shift (action_shift p m)]

theorem instr_shift : Of14.parseInstr (p ++ m) (p.length + o) = sh p.length (Of14.parseInstr m o) := by
  unfold Of14.parseInstr
  shift [instrOf_shift]

theorem features_shift : Of14.parseFeatures (p ++ m) (p.length + o) = sh p.length (Of14.parseFeatures m o) := by
  unfold Of14.parseFeatures
  shift [hdr_shift]

theorem config_shift : Of14.parseConfig (p ++ m) (p.length + o) = sh p.length (Of14.parseConfig m o) := by
  unfold Of14.parseConfig
  shift [hdr_shift]

theorem tmPropOf_shift (t : Nat) : Of14.parseTmPropOf t (p ++ m) (p.length + o) = sh p.length (Of14.parseTmPropOf t m o) := by
  unfold Of14.parseTmPropOf
  shift [exp_shift]

theorem tmProp_shift : Of14.parseTmProp (p ++ m) (p.length + o) = sh p.length (Of14.parseTmProp m o) := by
  unfold Of14.parseTmProp
  shift [tmPropOf_shift]

theorem tableMod_shift : Of14.parseTableMod (p ++ m) (p.length + o) = sh p.length (Of14.parseTableMod m o) := by
  unfold Of14.parseTableMod
  shift [hdr_shift, while_shift (tmProp_shift p m)]

theorem flowMod_shift : Of14.parseFlowMod (p ++ m) (p.length + o) = sh p.length (Of14.parseFlowMod m o) := by
  unfold Of14.parseFlowMod
  shift [hdr_shift, Shift.match_shift, list_shift (instr_shift p m)]

theorem bucket_shift : Of14.parseBucket (p ++ m) (p.length + o) = sh p.length (Of14.parseBucket m o) := by
  unfold Of14.parseBucket
  shift [while_shift (action_shift p m)]

theorem groupMod_shift : Of14.parseGroupMod (p ++ m) (p.length + o) = sh p.length (Of14.parseGroupMod m o) := by
  unfold Of14.parseGroupMod
  shift [hdr_shift, while_shift (bucket_shift p m)]

theorem pmPropOf_shift (t : Nat) : Of14.parsePmPropOf t (p ++ m) (p.length + o) = sh p.length (Of14.parsePmPropOf t m o) := by
  unfold Of14.parsePmPropOf
  shift []

theorem pmProp_shift : Of14.parsePmProp (p ++ m) (p.length + o) = sh p.length (Of14.parsePmProp m o) := by
  unfold Of14.parsePmProp
  shift [pmPropOf_shift]

theorem portMod_shift : Of14.parsePortMod (p ++ m) (p.length + o) = sh p.length (Of14.parsePortMod m o) := by
  unfold Of14.parsePortMod
  shift [hdr_shift, while_shift (pmProp_shift p m)]

theorem meterMod_shift : Of14.parseMeterMod (p ++ m) (p.length + o) = sh p.length (Of14.parseMeterMod m o) := by
  unfold Of14.parseMeterMod
  shift [hdr_shift, while_shift (Shift.band_shift p m)]

theorem desc_shift : Of14.parseDesc (p ++ m) (p.length + o) = sh p.length (Of14.parseDesc m o) := by
  unfold Of14.parseDesc
  shift []

theorem flowStatsReq_shift : Of14.parseFlowStatsReq (p ++ m) (p.length + o) = sh p.length (Of14.parseFlowStatsReq m o) := by
  unfold Of14.parseFlowStatsReq
  shift [Shift.match_shift]

theorem flowStats_shift : Of14.parseFlowStats (p ++ m) (p.length + o) = sh p.length (Of14.parseFlowStats m o) := by
  unfold Of14.parseFlowStats
  shift [Shift.match_shift, list_shift (instr_shift p m)]

theorem aggregateReq_shift : Of14.parseAggregateReq (p ++ m) (p.length + o) = sh p.length (Of14.parseAggregateReq m o) := by
  unfold Of14.parseAggregateReq
  shift [Shift.match_shift]

theorem aggregate_shift : Of14.parseAggregate (p ++ m) (p.length + o) = sh p.length (Of14.parseAggregate m o) := by
  unfold Of14.parseAggregate
  shift []

theorem tableStats_shift : Of14.parseTableStats (p ++ m) (p.length + o) = sh p.length (Of14.parseTableStats m o) := by
  unfold Of14.parseTableStats
  shift []

theorem tableDesc_shift : Of14.parseTableDesc (p ++ m) (p.length + o) = sh p.length (Of14.parseTableDesc m o) := by
  unfold Of14.parseTableDesc
  shift []

theorem id_shift : Of14.parseId (p ++ m) (p.length + o) = sh p.length (Of14.parseId m o) := by
  unfold Of14.parseId
  shift []

theorem tfPropOf_shift (t : Nat) : Of14.parseTfPropOf t (p ++ m) (p.length + o) = sh p.length (Of14.parseTfPropOf t m o) := by
  unfold Of14.parseTfPropOf
  shift [list_shift (id_shift p m)]

theorem tfProp_shift : Of14.parseTfProp (p ++ m) (p.length + o) = sh p.length (Of14.parseTfProp m o) := by
  unfold Of14.parseTfProp
  shift [tfPropOf_shift]

theorem tableFeatures_shift : Of14.parseTableFeatures (p ++ m) (p.length + o) = sh p.length (Of14.parseTableFeatures m o) := by
  unfold Of14.parseTableFeatures
  shift [while_shift (tfProp_shift p m)]

theorem portStatsReq_shift : Of14.parsePortStatsReq (p ++ m) (p.length + o) = sh p.length (Of14.parsePortStatsReq m o) := by
  unfold Of14.parsePortStatsReq
  shift []

theorem psPropOf_shift (t : Nat) : Of14.parsePsPropOf t (p ++ m) (p.length + o) = sh p.length (Of14.parsePsPropOf t m o) := by
  unfold Of14.parsePsPropOf
  shift [exp_shift]

theorem psProp_shift : Of14.parsePsProp (p ++ m) (p.length + o) = sh p.length (Of14.parsePsProp m o) := by
  unfold Of14.parsePsProp
  shift [psPropOf_shift]

theorem portStats_shift : Of14.parsePortStats (p ++ m) (p.length + o) = sh p.length (Of14.parsePortStats m o) := by
  unfold Of14.parsePortStats
  shift [while_shift (psProp_shift p m)]

theorem queueStatsReq_shift : Of14.parseQueueStatsReq (p ++ m) (p.length + o) = sh p.length (Of14.parseQueueStatsReq m o) := by
  unfold Of14.parseQueueStatsReq
  shift []

theorem qsProp_shift : Of14.parseQsProp (p ++ m) (p.length + o) = sh p.length (Of14.parseQsProp m o) := by
  unfold Of14.parseQsProp
  shift [exp_shift]

theorem queueStats_shift : Of14.parseQueueStats (p ++ m) (p.length + o) = sh p.length (Of14.parseQueueStats m o) := by
  unfold Of14.parseQueueStats
  shift [while_shift (qsProp_shift p m)]

theorem queueDescReq_shift : Of14.parseQueueDescReq (p ++ m) (p.length + o) = sh p.length (Of14.parseQueueDescReq m o) := by
  unfold Of14.parseQueueDescReq
  shift []

theorem qdPropOf_shift (t : Nat) : Of14.parseQdPropOf t (p ++ m) (p.length + o) = sh p.length (Of14.parseQdPropOf t m o) := by
  unfold Of14.parseQdPropOf
  shift [exp_shift]

theorem qdProp_shift : Of14.parseQdProp (p ++ m) (p.length + o) = sh p.length (Of14.parseQdProp m o) := by
  unfold Of14.parseQdProp
  shift [qdPropOf_shift]

theorem queueDesc_shift : Of14.parseQueueDesc (p ++ m) (p.length + o) = sh p.length (Of14.parseQueueDesc m o) := by
  unfold Of14.parseQueueDesc
  shift [while_shift (qdProp_shift p m)]

theorem groupStatsReq_shift : Of14.parseGroupStatsReq (p ++ m) (p.length + o) = sh p.length (Of14.parseGroupStatsReq m o) := by
  unfold Of14.parseGroupStatsReq
  shift []

theorem groupStats_shift : Of14.parseGroupStats (p ++ m) (p.length + o) = sh p.length (Of14.parseGroupStats m o) := by
  unfold Of14.parseGroupStats
  shift [list_shift (Shift.pair_shift p m)]

theorem groupDesc_shift : Of14.parseGroupDesc (p ++ m) (p.length + o) = sh p.length (Of14.parseGroupDesc m o) := by
  unfold Of14.parseGroupDesc
  shift [list_shift (bucket_shift p m)]

theorem groupFeatures_shift : Of14.parseGroupFeatures (p ++ m) (p.length + o) = sh p.length (Of14.parseGroupFeatures m o) := by
  unfold Of14.parseGroupFeatures
  shift []

theorem meterStats_shift : Of14.parseMeterStats (p ++ m) (p.length + o) = sh p.length (Of14.parseMeterStats m o) := by
  unfold Of14.parseMeterStats
  shift [list_shift (Shift.pair_shift p m)]

theorem meterConfig_shift : Of14.parseMeterConfig (p ++ m) (p.length + o) = sh p.length (Of14.parseMeterConfig m o) := by
  unfold Of14.parseMeterConfig
  shift [list_shift (Shift.band_shift p m)]

theorem meterFeatures_shift : Of14.parseMeterFeatures (p ++ m) (p.length + o) = sh p.length (Of14.parseMeterFeatures m o) := by
  unfold Of14.parseMeterFeatures
  shift []

theorem flowMonitorReq_shift : Of14.parseFlowMonitorReq (p ++ m) (p.length + o) = sh p.length (Of14.parseFlowMonitorReq m o) := by
  unfold Of14.parseFlowMonitorReq
  shift [Shift.match_shift]

theorem updateHeader_shift : Of14.parseUpdateHeader (p ++ m) (p.length + o) = sh p.length (Of14.parseUpdateHeader m o) := by
  unfold Of14.parseUpdateHeader
  shift []

theorem portRec_shift : Of14.parsePortRec (p ++ m) (p.length + o) = sh p.length (Of14.parsePortRec m o) := by
  unfold Of14.parsePortRec
  shift [port_shift]

theorem expMp_shift (l : Nat) : Of14.parseExperimenterMp (p.length + l) (p ++ m) (p.length + o) =
    sh p.length (Of14.parseExperimenterMp l m o) := by
  unfold Of14.parseExperimenterMp
  shift []

theorem single_sh (k : Nat) (r : Py (Of14.Rec × Nat)) : Of14.single (sh k r) = sh k (Of14.single r) := by cases r <;> rfl
theorem several_sh (k : Nat) (r : Py (List Of14.Rec × Nat)) : Of14.several (sh k r) = sh k (Of14.several r) := by
  cases r <;> rfl

theorem reqBody_shift (t l : Nat) :
    Of14.parseReqBody t (p ++ m) (p.length + l) (p.length + o) = sh p.length (Of14.parseReqBody t m l o) := by
  unfold Of14.parseReqBody
  shift [flowStatsReq_shift, aggregateReq_shift, portStatsReq_shift, queueStatsReq_shift, groupStatsReq_shift,
    queueDescReq_shift, flowMonitorReq_shift, while_shift (tableFeatures_shift p m), single_sh, several_sh]

theorem repBody_shift (t l : Nat) :
    Of14.parseRepBody t (p ++ m) (p.length + l) (p.length + o) = sh p.length (Of14.parseRepBody t m l o) := by
  unfold Of14.parseRepBody
  shift [desc_shift, list_shift (flowStats_shift p m), list_shift (aggregate_shift p m), list_shift (tableStats_shift p m),
    list_shift (portStats_shift p m), list_shift (queueStats_shift p m), list_shift (groupStats_shift p m),
    list_shift (groupDesc_shift p m), groupFeatures_shift, list_shift (meterStats_shift p m),
    list_shift (meterConfig_shift p m), meterFeatures_shift, list_shift (tableFeatures_shift p m),
    list_shift (portRec_shift p m), list_shift (tableDesc_shift p m), list_shift (queueDesc_shift p m),
    list_shift (updateHeader_shift p m), expMp_shift, single_sh, several_sh]

theorem mpRequest_shift : Of14.parseMpRequest (p ++ m) (p.length + o) = sh p.length (Of14.parseMpRequest m o) := by
  unfold Of14.parseMpRequest
  shift [hdr_shift, reqBody_shift]

theorem mpReply_shift : Of14.parseMpReply (p ++ m) (p.length + o) = sh p.length (Of14.parseMpReply m o) := by
  unfold Of14.parseMpReply
  shift [hdr_shift, repBody_shift]

theorem packetOut_shift : Of14.parsePacketOut (p ++ m) (p.length + o) = sh p.length (Of14.parsePacketOut m o) := by
  unfold Of14.parsePacketOut
  shift [hdr_shift, while_shift (action_shift p m)]

theorem bundleCtrl_shift : Of14.parseBundleCtrl (p ++ m) (p.length + o) = sh p.length (Of14.parseBundleCtrl m o) := by
  have hp := while_shift (k := p.length)
    (f := fun o => rd [H, H] (p ++ m) o (two fun a b => (a, b)) >>= fun _ => (.error .nameError : Py (Of14.Pr × Nat)))
    (g := fun o => rd [H, H] m o (two fun a b => (a, b)) >>= fun _ => (.error .nameError : Py (Of14.Pr × Nat)))
    (by intro o; shift [])
  unfold Of14.parseBundleCtrl
  shift [hdr_shift, hp]

theorem bundleAdd_shift (n : Py (Of14.Msg × Nat)) :
    Of14.parseBundleAdd (p ++ m) (p.length + o) (sh p.length n) = sh p.length (Of14.parseBundleAdd m o n) := by
  unfold Of14.parseBundleAdd
  shift [hdr_shift, Nat.add_lt_add_iff_left]

theorem requestForward_shift (n : Py (Of14.Msg × Nat)) :
    Of14.parseRequestForward (p ++ m) (p.length + o) (sh p.length n) = sh p.length (Of14.parseRequestForward m o n) := by
  unfold Of14.parseRequestForward
  shift [hdr_shift]

theorem asyncProp_shift : Of14.parseAsyncProp (p ++ m) (p.length + o) = sh p.length (Of14.parseAsyncProp m o) := by
  unfold Of14.parseAsyncProp
  shift []

theorem async_shift : Of14.parseAsync (p ++ m) (p.length + o) = sh p.length (Of14.parseAsync m o) := by
  unfold Of14.parseAsync
  shift [hdr_shift, while_shift (asyncProp_shift p m)]

theorem packetIn_shift : Of14.parsePacketIn (p ++ m) (p.length + o) = sh p.length (Of14.parsePacketIn m o) := by
  unfold Of14.parsePacketIn
  shift [hdr_shift, Shift.match_shift]

theorem flowRemoved_shift : Of14.parseFlowRemoved (p ++ m) (p.length + o) = sh p.length (Of14.parseFlowRemoved m o) := by
  unfold Of14.parseFlowRemoved
  shift [hdr_shift, Shift.match_shift]

theorem portStatus_shift : Of14.parsePortStatus (p ++ m) (p.length + o) = sh p.length (Of14.parsePortStatus m o) := by
  unfold Of14.parsePortStatus
  shift [hdr_shift, port_shift]

theorem roleProp_shift (s o : Nat) :
    Of14.parseRoleProp (p.length + s) (p ++ m) (p.length + o) = sh p.length (Of14.parseRoleProp s m o) := by
  unfold Of14.parseRoleProp
  shift []

theorem roleStatus_shift : Of14.parseRoleStatus (p ++ m) (p.length + o) = sh p.length (Of14.parseRoleStatus m o) := by
  unfold Of14.parseRoleStatus
  shift [hdr_shift, while_shift (roleProp_shift p m o)]

theorem tableStatus_shift : Of14.parseTableStatus (p ++ m) (p.length + o) = sh p.length (Of14.parseTableStatus m o) := by
  unfold Of14.parseTableStatus
  shift [hdr_shift, tableDesc_shift]

theorem hello_shift : Of14.parseHello (p ++ m) (p.length + o) = sh p.length (Of14.parseHello m o) := by
  unfold Of14.parseHello
  shift [hdr_shift, while_shift (Shift.helloElem_shift p m)]

theorem error_shift : Of14.parseError (p ++ m) (p.length + o) = sh p.length (Of14.parseError m o) := by
  unfold Of14.parseError
  shift [hdr_shift]

theorem experimenter_shift : Of14.parseExperimenter (p ++ m) (p.length + o) = sh p.length (Of14.parseExperimenter m o) := by
  unfold Of14.parseExperimenter
  shift [hdr_shift]

theorem parseOf_shift (t : Nat) : Of14.parseOf t (p ++ m) (p.length + o) = sh p.length (Of14.parseOf t m o) := by
  unfold Of14.parseOf
  shift [hello_shift, error_shift, features_shift, config_shift, packetIn_shift, flowRemoved_shift, portStatus_shift, packetOut_shift, flowMod_shift, groupMod_shift, portMod_shift, tableMod_shift, mpRequest_shift, mpReply_shift, experimenter_shift, async_shift, meterMod_shift, roleStatus_shift, tableStatus_shift, bundleCtrl_shift, other_shift]

theorem parseAt_shift : Of14.parseAt (p ++ m) (p.length + o) = sh p.length (Of14.parseAt m o) := by
  fun_induction Of14.parseAt m o with
  | case1 o e he =>
    rw [Of14.parseAt]
    have := hdr_shift p m o
    rw [he] at this
    split
    · rename_i hh; rw [this] at hh; cases hh; rfl
    · rename_i hh; rw [this] at hh; cases hh
  | case2 o h o' he ht ih =>
    rw [Of14.parseAt]
    have := hdr_shift p m o
    rw [he] at this
    split
    · rename_i hh; rw [this] at hh; cases hh
    · rename_i hh; rw [this] at hh; cases hh
      simp only
      rw [if_pos ht, Nat.add_assoc, ih, requestForward_shift]
  | case3 o h o' he ht ht' ih =>
    rw [Of14.parseAt]
    have := hdr_shift p m o
    rw [he] at this
    split
    · rename_i hh; rw [this] at hh; cases hh
    · rename_i hh; rw [this] at hh; cases hh
      simp only
      rw [if_neg ht, if_pos ht', Nat.add_assoc, ih, bundleAdd_shift]
  | case4 o h o' he ht ht' =>
    rw [Of14.parseAt]
    have := hdr_shift p m o
    rw [he] at this
    split
    · rename_i hh; rw [this] at hh; cases hh
    · rename_i hh; rw [this] at hh; cases hh
      simp only
      rw [if_neg ht, if_neg ht', parseOf_shift]

end Twink.Shift14
