import Verif.Proof.Of13Loop
import Verif.Model.Of14Parse

/-!
# Parsing at an offset

Helper lemmas for C101.  A parse function that is given a longer buffer and an offset that is greater by as much does
the same, with all offsets moved.
-/

namespace Twink.Shift
open Fmt Of13

/-- a result whose cursor stands `k` bytes further on -/
def sh (k : Nat) : Py (α × Nat) → Py (α × Nat)
  | .ok r => .ok (r.1, k + r.2)
  | .error e => .error e

theorem sh_ok (k : Nat) (a : α) (o : Nat) : sh k (.ok (a, o)) = .ok (a, k + o) := rfl
theorem sh_error (k : Nat) (e : Err) : sh k (.error e : Py (α × Nat)) = .error e := rfl

theorem sh_bind (k : Nat) (x : Py (α × Nat)) (f : α × Nat → Py β) :
    (sh k x >>= f) = x >>= fun r => f (r.1, k + r.2) := by cases x <;> rfl

theorem bind_sh (k : Nat) (x : Py α) (f : α → Py (β × Nat)) : sh k (x >>= f) = x >>= fun r => sh k (f r) := by
  cases x <;> rfl

theorem sh_ite (k : Nat) (c : Prop) [Decidable c] (a b : Py (α × Nat)) :
    sh k (if c then a else b) = if c then sh k a else sh k b := by split <;> rfl

theorem unpackFrom_shift (f : Fmt) (p m : Bytes) (o : Nat) : unpackFrom f (p ++ m) (p.length + o) = unpackFrom f m o := by
  unfold unpackFrom
  rw [List.length_append, Nat.add_assoc, List.drop_length_add_append]
  simp only [Nat.add_le_add_iff_left]

theorem rd_shift (f : Fmt) (p m : Bytes) (o : Nat) (k : List Val → Option α) :
    rd f (p ++ m) (p.length + o) k = sh p.length (rd f m o k) := by
  unfold rd
  rw [unpackFrom_shift]
  cases unpackFrom f m o with
  | error e => rfl
  | ok vs =>
    simp only
    cases k vs with
    | none => rfl
    | some a => simp only [sh, Nat.add_assoc]

theorem slice_shift (p m : Bytes) (i j : Nat) : slice (p ++ m) (p.length + i) (p.length + j) = slice m i j := by
  unfold slice
  rw [List.drop_length_add_append, Nat.add_sub_add_left]

theorem assert_shift (k a b : Nat) : pyAssert (k + a = k + b) = pyAssert (a = b) := by
  unfold pyAssert
  simp only [Nat.add_left_cancel_iff]

theorem while_shift {f g : Nat → Py (α × Nat)} {k : Nat} (h : ∀ o, f (k + o) = sh k (g o)) (l o : Nat) :
    whileFetch f (k + l) (k + o) = sh k (whileFetch g l o) := by
  fun_induction whileFetch g l o with
  | case1 o hlt e he =>
    rw [whileFetch, if_pos (by omega), h, he]; rfl
  | case2 o hlt a o' he hlt' e hw ih =>
    rw [whileFetch, if_pos (by omega), h, he]
    simp only [sh_ok]
    rw [if_pos (by omega), ih, hw]; rfl
  | case3 o hlt a o' he hlt' as o'' hw ih =>
    rw [whileFetch, if_pos (by omega), h, he]
    simp only [sh_ok]
    rw [if_pos (by omega), ih, hw]; rfl
  | case4 o hlt a o' he hlt' =>
    rw [whileFetch, if_pos (by omega), h, he]
    simp only [sh_ok]
    rw [if_neg (by omega)]; rfl
  | case5 o hlt =>
    rw [whileFetch, if_neg (by omega)]; rfl

theorem list_shift {f g : Nat → Py (α × Nat)} {k : Nat} (h : ∀ o, f (k + o) = sh k (g o)) (l o : Nat) :
    listFetch f (k + l) (k + o) = sh k (listFetch g l o) := by
  unfold listFetch
  rw [while_shift h, sh_bind, bind_sh]
  congr 1; funext r
  simp only [assert_shift, bind_sh]
  rfl

theorem congr_bind (x : Py α) {f g : α → Py β} (h : ∀ a, f a = g a) : (x >>= f) = x >>= g := by
  cases x with
  | error e => rfl
  | ok a => exact h a

/-- goes through a parse function step by step -/
macro "shift" "[" ls:Lean.Parser.Tactic.simpLemma,* "]" : tactic => `(tactic|
  (simp only [rd_shift, sh_bind, bind_sh, sh_ite, sh_ok, sh_error, slice_shift, assert_shift, Nat.add_assoc, $ls,*]
   repeat' (first
     | rfl
     | (apply congr_bind; rintro ⟨a, o⟩)
     | (simp only [rd_shift, sh_bind, bind_sh, sh_ite, sh_ok, sh_error, slice_shift, assert_shift, Nat.add_assoc, $ls,*]))))

variable (p m : Bytes) (o : Nat)

theorem hdr_shift : Of13.parseHdr (p ++ m) (p.length + o) = sh p.length (Of13.parseHdr m o) := by
  unfold Of13.parseHdr
  shift []

theorem other_shift : Of13.parseOther (p ++ m) (p.length + o) = Of13.parseOther m o := by
  unfold Of13.parseOther
  shift [hdr_shift]

theorem port_shift : Of13.parsePort (p ++ m) (p.length + o) = sh p.length (Of13.parsePort m o) := by
  unfold Of13.parsePort
  shift []

theorem match_shift : Of13.parseMatch (p ++ m) (p.length + o) = sh p.length (Of13.parseMatch m o) := by
  unfold Of13.parseMatch
  shift []

theorem actionOf_shift (t : Nat) : Of13.parseActionOf t (p ++ m) (p.length + o) = sh p.length (Of13.parseActionOf t m o) := by
  unfold Of13.parseActionOf
  shift []

theorem action_shift : Of13.parseAction (p ++ m) (p.length + o) = sh p.length (Of13.parseAction m o) := by
  unfold Of13.parseAction
  shift [actionOf_shift]

theorem instrOf_shift (t : Nat) : Of13.parseInstrOf t (p ++ m) (p.length + o) = sh p.length (Of13.parseInstrOf t m o) := by
  unfold Of13.parseInstrOf
  shift [while_shift (action_shift p m)]

theorem instr_shift : Of13.parseInstr (p ++ m) (p.length + o) = sh p.length (Of13.parseInstr m o) := by
  unfold Of13.parseInstr
  shift [instrOf_shift]

theorem features_shift : Of13.parseFeatures (p ++ m) (p.length + o) = Of13.parseFeatures m o := by
  unfold Of13.parseFeatures
  shift [hdr_shift]

theorem config_shift : Of13.parseConfig (p ++ m) (p.length + o) = Of13.parseConfig m o := by
  unfold Of13.parseConfig
  shift [hdr_shift]

theorem tableMod_shift : Of13.parseTableMod (p ++ m) (p.length + o) = Of13.parseTableMod m o := by
  unfold Of13.parseTableMod
  shift [hdr_shift]

theorem flowMod_shift : Of13.parseFlowMod (p ++ m) (p.length + o) = Of13.parseFlowMod m o := by
  unfold Of13.parseFlowMod
  shift [hdr_shift, match_shift, list_shift (instr_shift p m)]

theorem bucket_shift : Of13.parseBucket (p ++ m) (p.length + o) = sh p.length (Of13.parseBucket m o) := by
  unfold Of13.parseBucket
  shift [while_shift (action_shift p m)]

theorem groupMod_shift : Of13.parseGroupMod (p ++ m) (p.length + o) = Of13.parseGroupMod m o := by
  unfold Of13.parseGroupMod
  shift [hdr_shift, while_shift (bucket_shift p m)]

theorem portMod_shift : Of13.parsePortMod (p ++ m) (p.length + o) = Of13.parsePortMod m o := by
  unfold Of13.parsePortMod
  shift [hdr_shift]

theorem bandOf_shift (t : Nat) : Of13.parseBandOf t (p ++ m) (p.length + o) = sh p.length (Of13.parseBandOf t m o) := by
  unfold Of13.parseBandOf
  shift []

theorem band_shift : Of13.parseBand (p ++ m) (p.length + o) = sh p.length (Of13.parseBand m o) := by
  unfold Of13.parseBand
  shift [bandOf_shift]

theorem meterMod_shift : Of13.parseMeterMod (p ++ m) (p.length + o) = Of13.parseMeterMod m o := by
  unfold Of13.parseMeterMod
  shift [hdr_shift, while_shift (band_shift p m)]

theorem desc_shift : Of13.parseDesc (p ++ m) (p.length + o) = sh p.length (Of13.parseDesc m o) := by
  unfold Of13.parseDesc
  shift []

theorem flowStatsReq_shift : Of13.parseFlowStatsReq (p ++ m) (p.length + o) = sh p.length (Of13.parseFlowStatsReq m o) := by
  unfold Of13.parseFlowStatsReq
  shift [match_shift]

theorem flowStats_shift : Of13.parseFlowStats (p ++ m) (p.length + o) = sh p.length (Of13.parseFlowStats m o) := by
  unfold Of13.parseFlowStats
  shift [match_shift, list_shift (instr_shift p m)]

theorem aggregateReq_shift : Of13.parseAggregateReq (p ++ m) (p.length + o) = sh p.length (Of13.parseAggregateReq m o) := by
  unfold Of13.parseAggregateReq
  shift [match_shift]

theorem aggregate_shift : Of13.parseAggregate (p ++ m) (p.length + o) = sh p.length (Of13.parseAggregate m o) := by
  unfold Of13.parseAggregate
  shift []

theorem tableStats_shift : Of13.parseTableStats (p ++ m) (p.length + o) = sh p.length (Of13.parseTableStats m o) := by
  unfold Of13.parseTableStats
  shift []

theorem tableFeatures_shift : Of13.parseTableFeatures (p ++ m) (p.length + o) = sh p.length (Of13.parseTableFeatures m o) := by
  unfold Of13.parseTableFeatures
  shift []

theorem portStatsReq_shift : Of13.parsePortStatsReq (p ++ m) (p.length + o) = sh p.length (Of13.parsePortStatsReq m o) := by
  unfold Of13.parsePortStatsReq
  shift []

theorem portStats_shift : Of13.parsePortStats (p ++ m) (p.length + o) = sh p.length (Of13.parsePortStats m o) := by
  unfold Of13.parsePortStats
  shift []

theorem queueStatsReq_shift : Of13.parseQueueStatsReq (p ++ m) (p.length + o) = sh p.length (Of13.parseQueueStatsReq m o) := by
  unfold Of13.parseQueueStatsReq
  shift []

theorem queueStats_shift : Of13.parseQueueStats (p ++ m) (p.length + o) = sh p.length (Of13.parseQueueStats m o) := by
  unfold Of13.parseQueueStats
  shift []

theorem groupStatsReq_shift : Of13.parseGroupStatsReq (p ++ m) (p.length + o) = sh p.length (Of13.parseGroupStatsReq m o) := by
  unfold Of13.parseGroupStatsReq
  shift []

theorem pair_shift : Of13.parsePair (p ++ m) (p.length + o) = sh p.length (Of13.parsePair m o) := by
  unfold Of13.parsePair
  shift []

theorem groupStats_shift : Of13.parseGroupStats (p ++ m) (p.length + o) = sh p.length (Of13.parseGroupStats m o) := by
  unfold Of13.parseGroupStats
  shift [list_shift (pair_shift p m)]

theorem groupDesc_shift : Of13.parseGroupDesc (p ++ m) (p.length + o) = sh p.length (Of13.parseGroupDesc m o) := by
  unfold Of13.parseGroupDesc
  shift [list_shift (bucket_shift p m)]

theorem groupFeatures_shift : Of13.parseGroupFeatures (p ++ m) (p.length + o) = sh p.length (Of13.parseGroupFeatures m o) := by
  unfold Of13.parseGroupFeatures
  shift []

theorem meterReq_shift : Of13.parseMeterReq (p ++ m) (p.length + o) = sh p.length (Of13.parseMeterReq m o) := by
  unfold Of13.parseMeterReq
  shift []

theorem meterStats_shift : Of13.parseMeterStats (p ++ m) (p.length + o) = sh p.length (Of13.parseMeterStats m o) := by
  unfold Of13.parseMeterStats
  shift [list_shift (pair_shift p m)]

theorem meterConfig_shift : Of13.parseMeterConfig (p ++ m) (p.length + o) = sh p.length (Of13.parseMeterConfig m o) := by
  unfold Of13.parseMeterConfig
  shift [list_shift (band_shift p m)]

theorem meterFeatures_shift : Of13.parseMeterFeatures (p ++ m) (p.length + o) = sh p.length (Of13.parseMeterFeatures m o) := by
  unfold Of13.parseMeterFeatures
  shift []

theorem portRec_shift : Of13.parsePortRec (p ++ m) (p.length + o) = sh p.length (Of13.parsePortRec m o) := by
  unfold Of13.parsePortRec
  shift [port_shift]

theorem expMp_shift (l : Nat) : Of13.parseExperimenterMp (p.length + l) (p ++ m) (p.length + o) =
    sh p.length (Of13.parseExperimenterMp l m o) := by
  unfold Of13.parseExperimenterMp
  shift []

theorem single_sh (k : Nat) (r : Py (Rec × Nat)) : Of13.single (sh k r) = Of13.single r := by cases r <;> rfl
theorem several_sh (k : Nat) (r : Py (List Rec × Nat)) : Of13.several (sh k r) = Of13.several r := by cases r <;> rfl

theorem reqBody_shift (t l : Nat) : Of13.parseReqBody t (p ++ m) (p.length + l) (p.length + o) = Of13.parseReqBody t m l o := by
  unfold Of13.parseReqBody
  shift [flowStatsReq_shift, aggregateReq_shift, portStatsReq_shift, queueStatsReq_shift, groupStatsReq_shift,
    meterReq_shift, while_shift (tableFeatures_shift p m), single_sh, several_sh]

theorem repBody_shift (t l : Nat) : Of13.parseRepBody t (p ++ m) (p.length + l) (p.length + o) = Of13.parseRepBody t m l o := by
  unfold Of13.parseRepBody
  shift [desc_shift, list_shift (flowStats_shift p m), list_shift (aggregate_shift p m), list_shift (tableStats_shift p m),
    list_shift (portStats_shift p m), list_shift (queueStats_shift p m), list_shift (groupStats_shift p m),
    list_shift (groupDesc_shift p m), groupFeatures_shift, list_shift (meterStats_shift p m),
    list_shift (meterConfig_shift p m), meterFeatures_shift, list_shift (tableFeatures_shift p m),
    list_shift (portRec_shift p m), expMp_shift, single_sh, several_sh]

theorem queue_shift : Of13.parseQueue (p ++ m) (p.length + o) = sh p.length (Of13.parseQueue m o) := by
  have hp := while_shift (k := p.length)
    (f := fun o => rd [H, H, X 4] (p ++ m) o (two fun a b => (a, b)) >>= fun _ => (.error .nameError : Py (QProp × Nat)))
    (g := fun o => rd [H, H, X 4] m o (two fun a b => (a, b)) >>= fun _ => (.error .nameError : Py (QProp × Nat)))
    (by intro o; shift [])
  unfold Of13.parseQueue
  shift [hp]

theorem mpRequest_shift : Of13.parseMpRequest (p ++ m) (p.length + o) = Of13.parseMpRequest m o := by
  unfold Of13.parseMpRequest
  shift [hdr_shift, reqBody_shift]

theorem mpReply_shift : Of13.parseMpReply (p ++ m) (p.length + o) = Of13.parseMpReply m o := by
  unfold Of13.parseMpReply
  shift [hdr_shift, repBody_shift]

theorem queueReq_shift : Of13.parseQueueReq (p ++ m) (p.length + o) = Of13.parseQueueReq m o := by
  unfold Of13.parseQueueReq
  shift [hdr_shift]

theorem queueRep_shift : Of13.parseQueueRep (p ++ m) (p.length + o) = Of13.parseQueueRep m o := by
  unfold Of13.parseQueueRep
  shift [hdr_shift, list_shift (queue_shift p m)]

theorem packetOut_shift : Of13.parsePacketOut (p ++ m) (p.length + o) = Of13.parsePacketOut m o := by
  unfold Of13.parsePacketOut
  shift [hdr_shift, while_shift (action_shift p m)]

theorem role_shift : Of13.parseRole (p ++ m) (p.length + o) = Of13.parseRole m o := by
  unfold Of13.parseRole
  shift [hdr_shift]

theorem async_shift : Of13.parseAsync (p ++ m) (p.length + o) = Of13.parseAsync m o := by
  unfold Of13.parseAsync
  shift [hdr_shift]

theorem packetIn_shift : Of13.parsePacketIn (p ++ m) (p.length + o) = Of13.parsePacketIn m o := by
  unfold Of13.parsePacketIn
  shift [hdr_shift, match_shift]

theorem flowRemoved_shift : Of13.parseFlowRemoved (p ++ m) (p.length + o) = Of13.parseFlowRemoved m o := by
  unfold Of13.parseFlowRemoved
  shift [hdr_shift, match_shift]

theorem portStatus_shift : Of13.parsePortStatus (p ++ m) (p.length + o) = Of13.parsePortStatus m o := by
  unfold Of13.parsePortStatus
  shift [hdr_shift, port_shift]

theorem error_shift : Of13.parseError (p ++ m) (p.length + o) = Of13.parseError m o := by
  unfold Of13.parseError
  shift [hdr_shift]

theorem versionBitmap_shift : Of13.parseVersionBitmap (p ++ m) (p.length + o) = sh p.length (Of13.parseVersionBitmap m o) := by
  unfold Of13.parseVersionBitmap
  shift []

theorem helloElem_shift : Of13.parseHelloElem (p ++ m) (p.length + o) = sh p.length (Of13.parseHelloElem m o) := by
  unfold Of13.parseHelloElem
  shift [versionBitmap_shift]

theorem hello_shift : Of13.parseHello (p ++ m) (p.length + o) = Of13.parseHello m o := by
  unfold Of13.parseHello
  shift [hdr_shift, while_shift (helloElem_shift p m)]

theorem experimenter_shift : Of13.parseExperimenter (p ++ m) (p.length + o) = Of13.parseExperimenter m o := by
  unfold Of13.parseExperimenter
  shift [hdr_shift]

theorem parseOf_shift (t : Nat) : Of13.parseOf t (p ++ m) (p.length + o) = Of13.parseOf t m o := by
  unfold Of13.parseOf
  shift [hello_shift, error_shift, features_shift, config_shift, packetIn_shift, flowRemoved_shift, portStatus_shift, packetOut_shift, flowMod_shift, groupMod_shift, portMod_shift, tableMod_shift, mpRequest_shift, mpReply_shift, experimenter_shift, queueReq_shift, queueRep_shift, role_shift, async_shift, meterMod_shift, other_shift]

theorem parse_shift : Of13.parse (p ++ m) (p.length + o) = Of13.parse m o := by
  unfold Of13.parse
  shift [hdr_shift, parseOf_shift]

end Twink.Shift
