import Verif.Proof.Of13Again
import Verif.Spec.Of13Calls

/-!
# C60: building a parsed OpenFlow 1.3 message again
-/

namespace Twink.Of13
open Fmt Spec

theorem again_reqBody {t : Nat} {body : Body} {b : Bytes} (h : reqBody t body = .ok b) (r : Rec) (hb : body = .one r)
    (ht : t ∈ r.requestTypes) (hp : r.Parseable) : reqBody t (.one r.wire) = .ok b := by
  subst hb
  have hn : ∀ p, r ≠ .port p := by rintro p rfl; simp [Rec.requestTypes] at ht
  have : t ∈ [1, 2, 4, 5, 6, 9, 10] := by
    cases r <;> simp [Rec.requestTypes] at ht ⊢ <;> omega
  have h1 : t ∉ [0, 3, 7, 8, 11, 13] := by
    intro h2
    simp only [List.mem_cons, List.not_mem_nil, or_false] at this h2
    omega
  unfold reqBody at h ⊢
  rw [if_neg h1, if_pos this] at h ⊢
  exact again_rec hp hn h

theorem again_recs {l : List Rec} {b : Bytes} (hl : ∀ r ∈ l, r.Parseable ∧ ∀ p, r ≠ .port p) (h : join buildRec (l.map .tup) = .ok b) :
    join buildRec ((l.map Rec.wire).map .tup) = .ok b := by
  have := again_seq (w := Rec.wire) (P := fun r => r.Parseable ∧ ∀ p, r ≠ .port p) (fun r b hr h => again_rec hr.1 hr.2 h) (s := tups l)
    (all_tups hl) h
  rw [values_tups] at this
  exact this

/-- C60, in part. A message made by the library's builders (with arguments of the kinds that can be parsed) is parsed, wherever it
stands, and the builder called with the parsed tuple gives the same bytes.  Missing: messages that hold descriptions of ports
(`C60_port_refuted`), messages that cannot be parsed (C44, C45), experimenter replies (`C60_experimenter_refuted`), aggregate replies
(`C60_aggregate_refuted`). -/
theorem C60_message_partial (rnd rnd' : Nat) (h : HdrArg) (c : Call) (bs pre post : Bytes) (hc : c.Rebuildable) (hb : c.run rnd h = .ok bs) :
    ∃ msg, parse (pre ++ (bs ++ post)) pre.length = .ok msg ∧ objMsg rnd' msg = .ok bs := by
  have hm := At.intro pre bs post _ rfl
  cases c with
  | hello es =>
    refine ⟨_, hello_at hb hc hm, ?_⟩
    simp only [Call.run, buildHello, bind_ok] at hb
    obtain ⟨x, h1, h2⟩ := hb
    simp only [objMsg, buildHello, bind_ok]
    exact ⟨x, again_seq (fun _ _ hp h => again_hello hp h) hc h1, again_one _ h2⟩
  | error t c d =>
    refine ⟨_, error_at hb hm, ?_⟩
    simp only [Call.run, buildError, bind_ok] at hb
    obtain ⟨x, h1, h2⟩ := hb
    simp only [objMsg, buildError, bind_ok]
    exact ⟨x, h1, again_one _ h2⟩
  | features =>
    refine ⟨_, features_at hb hm, ?_⟩
    simp only [Call.run, buildFeatures, bind_ok] at hb
    obtain ⟨x, h1, y, h2, h3⟩ := hb
    simp only [objMsg, buildFeatures, bind_ok]
    exact ⟨x, h1, y, again_one _ h2, h3⟩
  | config =>
    refine ⟨_, (config_at hb hm).2, ?_⟩
    simp only [Call.run, buildConfig, bind_ok] at hb
    obtain ⟨x, h1, y, h2, h3⟩ := hb
    simp only [objMsg, buildConfig, bind_ok]
    exact ⟨x, h1, y, again_among _ h2, h3⟩
  | packetIn b tl r t c mt d =>
    obtain ⟨mt, rfl⟩ := hc
    refine ⟨_, packetIn_at hb hm, ?_⟩
    simp only [Call.run, buildPacketIn, bind_ok] at hb
    obtain ⟨x, h1, y, h2, h3⟩ := hb
    simp only [objMsg, buildPacketIn, bind_ok]
    exact ⟨x, h1, y, again_match h2, again_one _ h3⟩
  | flowRemoved _ _ _ _ _ _ _ _ _ _ mt =>
    obtain ⟨mt, rfl⟩ := hc
    refine ⟨_, flowRemoved_at hb hm, ?_⟩
    simp only [Call.run, buildFlowRemoved, bind_ok] at hb
    obtain ⟨x, h1, y, h2, h3⟩ := hb
    simp only [objMsg, buildFlowRemoved, bind_ok]
    exact ⟨x, h1, y, again_match h2, again_one _ h3⟩
  | portStatus => exact hc.elim
  | packetOut b ip as d =>
    refine ⟨_, packetOut_at hb hc hm, ?_⟩
    simp only [Call.run, buildPacketOut, bind_ok] at hb
    obtain ⟨x, h1, y, h2, h3⟩ := hb
    simp only [objMsg, buildPacketOut, bind_ok]
    exact ⟨x, again_actions hc h1, y, h2, again_one _ h3⟩
  | flowMod _ _ _ _ _ _ _ _ _ _ _ mt is =>
    obtain ⟨⟨mt, rfl⟩, hc⟩ := hc
    refine ⟨_, flowMod_at hb hc hm, ?_⟩
    simp only [Call.run, buildFlowMod, bind_ok] at hb
    obtain ⟨x, h1, y, h2, z, h3, h4⟩ := hb
    simp only [objMsg, buildFlowMod, bind_ok]
    exact ⟨x, again_instrs hc h1, y, h2, z, again_match h3, again_one _ h4⟩
  | groupMod c t g bk =>
    refine ⟨_, groupMod_at hb hc hm, ?_⟩
    simp only [Call.run, buildGroupMod, bind_ok] at hb
    obtain ⟨x, h1, y, h2, h3⟩ := hb
    simp only [objMsg, buildGroupMod, bind_ok]
    exact ⟨x, again_buckets hc h1, y, h2, again_one _ h3⟩
  | portMod => exact hc.elim
  | tableMod =>
    refine ⟨_, tableMod_at hb hm, ?_⟩
    simp only [Call.run, buildTableMod, bind_ok] at hb
    obtain ⟨x, h1, y, h2, h3⟩ := hb
    simp only [objMsg, buildTableMod, bind_ok]
    exact ⟨x, h1, y, again_one _ h2, h3⟩
  | mpRequest t f body =>
    rcases hc with hc | ⟨r, hr, ht, hp⟩ | ⟨rfl, d, rfl⟩
    · refine ⟨_, (mpRequest_empty hc hb hm).2, ?_⟩
      simp only [Call.run, buildMpRequest, bind_ok] at hb
      obtain ⟨x, h1, y, h2, h3⟩ := hb
      simp only [objMsg, buildMpRequest, bind_ok]
      refine ⟨x, ?_, y, h2, again_one _ h3⟩
      unfold reqBody at h1 ⊢
      rw [if_pos hc] at h1 ⊢
      exact h1
    · subst hr
      refine ⟨_, mpRequest_one ht hp hb hm, ?_⟩
      simp only [Call.run, buildMpRequest, bind_ok] at hb
      obtain ⟨x, h1, y, h2, h3⟩ := hb
      simp only [objMsg, buildMpRequest, bind_ok]
      exact ⟨x, again_reqBody h1 r rfl ht hp, y, h2, again_one _ h3⟩
    · refine ⟨_, mpRequest_exp hb hm, ?_⟩
      simp only [Call.run, buildMpRequest, bind_ok] at hb
      obtain ⟨x, h1, y, h2, h3⟩ := hb
      simp only [objMsg, buildMpRequest, bind_ok]
      exact ⟨x, h1, y, h2, again_one _ h3⟩
  | mpReply t f body =>
    rcases hc with ⟨hs, r, rfl, ht, hp⟩ | ⟨hs, l, rfl, hl⟩
    · refine ⟨_, mpReply_one ht hs hp hb hm, ?_⟩
      simp only [Call.run, buildMpReply, bind_ok] at hb
      obtain ⟨x, h1, y, h2, h3⟩ := hb
      simp only [objMsg, buildMpReply, bind_ok]
      refine ⟨x, ?_, y, h2, again_one _ h3⟩
      have hn : ∀ p, r ≠ .port p := by rintro p rfl; simp [Rec.replyType] at ht; subst ht; simp at hs
      have hi : t ∈ [0, 2, 8, 11] := by
        simp only [List.mem_cons, List.not_mem_nil, or_false] at hs ⊢
        omega
      unfold repBody at h1 ⊢
      rw [if_pos hi] at h1 ⊢
      exact again_rec hp hn h1
    · have hs' : t ∈ [1, 3, 5, 6, 7, 9, 10, 13] := by
        simp only [List.mem_cons, List.not_mem_nil, or_false] at hs ⊢
        omega
      refine ⟨_, mpReply_many hs' hl hb hm, ?_⟩
      simp only [Call.run, buildMpReply, bind_ok] at hb
      obtain ⟨x, h1, y, h2, h3⟩ := hb
      simp only [objMsg, buildMpReply, bind_ok]
      refine ⟨x, ?_, y, h2, again_one _ h3⟩
      have hi : t ∉ [0, 2, 8, 11] := by
        simp only [List.mem_cons, List.not_mem_nil, or_false] at hs ⊢
        omega
      have hj : t ∈ [1, 3, 4, 5, 6, 7, 9, 10, 12, 13] := by
        simp only [List.mem_cons, List.not_mem_nil, or_false] at hs ⊢
        omega
      unfold repBody at h1 ⊢
      rw [if_neg hi, if_pos hj] at h1 ⊢
      refine again_recs (fun r hr => ⟨(hl r hr).2, ?_⟩) h1
      rintro p rfl
      have := (hl _ hr).1
      simp [Rec.replyType] at this
      subst this
      simp at hs
  | queueReq =>
    refine ⟨_, queueReq_at hb hm, ?_⟩
    simp only [Call.run, buildQueueReq, bind_ok] at hb
    obtain ⟨x, h1, h2⟩ := hb
    simp only [objMsg, buildQueueReq, bind_ok]
    exact ⟨x, h1, again_one _ h2⟩
  | queueRep p qs =>
    refine ⟨_, queueRep_at hb hc hm, ?_⟩
    simp only [Call.run, buildQueueRep, bind_ok] at hb
    obtain ⟨x, h1, y, h2, h3⟩ := hb
    simp only [objMsg, buildQueueRep, bind_ok]
    exact ⟨x, again_seq (fun _ _ hp h => again_queue hp h) hc h1, y, h2, again_one _ h3⟩
  | role r g =>
    have ht : h.type 0 = 24 ∨ h.type 0 = 25 := by
      simp only [Call.run, buildRole, bind_ok] at hb
      obtain ⟨x, h1, h2⟩ := hb
      simpa using (ofp_among h2 0).1
    rcases ht with ht | ht
    · refine ⟨_, role_at hb hm ht, ?_⟩
      simp only [Call.run, buildRole, bind_ok] at hb
      obtain ⟨x, h1, h2⟩ := hb
      simp only [objMsg, buildRole, bind_ok]
      refine ⟨x, h1, ?_⟩
      have := again_among (rnd' := rnd') bs.length h2
      rwa [ht] at this
    · refine ⟨_, roleReply_at hb hm ht, ?_⟩
      simp only [Call.run, buildRole, bind_ok, pack_eq_ok] at hb
      obtain ⟨x, ⟨hf, rfl⟩, h2⟩ := hb
      have := again_any (rnd' := rnd') bs.length h2
      rw [ht] at this
      simp only [objMsg]
      rw [← this]
      simp [enc, encBE_4, encBE_8, zeros]
  | async a b c =>
    obtain ⟨ha, hb', hc⟩ := hc
    obtain ⟨_, x1, x2, y1, y2, z1, z2, rfl, rfl, rfl, h2⟩ := async_at hb hm ha hb' hc
    refine ⟨_, h2, ?_⟩
    simp only [Call.run, buildAsync, bind_ok] at hb
    obtain ⟨x, h1, h2⟩ := hb
    simp only [objMsg, buildAsync, bind_ok]
    exact ⟨x, h1, again_among _ h2⟩
  | meterMod c f m bd =>
    refine ⟨_, meterMod_at hb hc hm, ?_⟩
    simp only [Call.run, buildMeterMod, bind_ok] at hb
    obtain ⟨x, h1, y, h2, h3⟩ := hb
    simp only [objMsg, buildMeterMod, bind_ok]
    exact ⟨x, again_bands hc h1, y, h2, again_one _ h3⟩
  | experimenter => exact hc.elim

/-- Calls that meet the hypotheses: a FLOW_MOD with a set-field action that needs padding, and a reply with two flows. -/
example : (∃ bs, (Call.flowMod 1 2 3 0 5 6 7 none none none 8 (.tup ⟨none, none, .items [.raw [0x80, 0, 0, 4, 0, 0, 0, 1]]⟩)
      (tups [.actions (some 4) none (tups [.setField none none [0x80, 0, 0x0a, 2, 8, 0], .output none none 3 0])])).run 1 .none = .ok bs) ∧
    (Call.flowMod 1 2 3 0 5 6 7 none none none 8 (.tup ⟨none, none, .items [.raw [0x80, 0, 0, 4, 0, 0, 0, 1]]⟩)
      (tups [.actions (some 4) none (tups [.setField none none [0x80, 0, 0x0a, 2, 8, 0], .output none none 3 0])])).Rebuildable := by
  refine ⟨ok_of (by decide +kernel), ⟨_, rfl⟩, all_tups ?_⟩
  simp only [List.mem_singleton, forall_eq]
  exact all_tups (by simp [Action.Parseable])

theorem buildPort_wire (p : PortT) : buildPort p.wire = .error .assertion := by
  have : encodeName p.wire.name = .error .assertion := by
    show encodeName p.name.wire = _
    cases p.name <;> rfl
  rw [buildPort, this]
  rfl

/-- C60 is false of the code (Python 2): a parsed PORT_STATUS message cannot be built again, because the parser decodes the name of the port
and the builder does not accept Unicode text. -/
theorem C60_port_refuted (rnd rnd' : Nat) (h : HdrArg) (r : Nat) (p : PortT) (bs pre post : Bytes)
    (hb : buildPortStatus rnd h r (.tup p) = .ok bs) :
    ∃ msg, parse (pre ++ (bs ++ post)) pre.length = .ok msg ∧ objMsg rnd' msg = .error .assertion := by
  refine ⟨_, portStatus_at hb (At.intro pre bs post _ rfl), ?_⟩
  simp only [buildPortStatus, bind_ok, pack_eq_ok] at hb
  obtain ⟨x, ⟨hf, rfl⟩, _⟩ := hb
  simp only [objMsg, buildPortStatus, pack, hf, if_true, ok_bind, obj, buildPort_wire]
  rfl

/-- C60 is false of the code (Python 2): nor can a parsed description of ports. -/
theorem C60_port_desc_refuted (rnd rnd' : Nat) (h : HdrArg) (f : Nat) (p : PortT) (l : List PortT) (bs pre post : Bytes)
    (hb : buildMpReply rnd h 13 f (.many (((p :: l).map Rec.port).map .tup)) = .ok bs) :
    ∃ msg, parse (pre ++ (bs ++ post)) pre.length = .ok msg ∧ objMsg rnd' msg = .error .assertion := by
  refine ⟨_, mpReply_many (show 13 ∈ [1, 3, 5, 6, 7, 9, 10, 13] by decide) (fun r hr => ?_) hb (At.intro pre bs post _ rfl), ?_⟩
  · obtain ⟨q, _, rfl⟩ := List.mem_map.1 hr
    exact ⟨rfl, trivial⟩
  · show (do let b ← join buildRec ((((p :: l).map Rec.port).map Rec.wire).map .tup); _) = _
    simp only [List.map_cons, Rec.wire, join, obj, buildRec, buildPort_wire]
    rfl

/-- C60 is false of the code: experimenter replies come back as a tuple, which the builder does not accept. -/
theorem C60_experimenter_refuted (rnd rnd' : Nat) (h : HdrArg) (f e t : Nat) (d bs pre post : Bytes) (he : e < 2 ^ 32) (ht : t < 2 ^ 32)
    (hb : buildMpReply rnd h 0xffff f (.raw (be32 e ++ be32 t ++ d)) = .ok bs) :
    ∃ msg, parse (pre ++ (bs ++ post)) pre.length = .ok msg ∧ objMsg rnd' msg = .error .valueError :=
  ⟨_, mpReply_exp he ht hb (At.intro pre bs post _ rfl), rfl⟩

/-- C60 is false of the code: aggregate statistics come back as a list, which the builder does not accept. -/
theorem C60_aggregate_refuted (rnd rnd' : Nat) (h : HdrArg) (f a b c : Nat) (bs pre post : Bytes)
    (hb : buildMpReply rnd h 2 f (.one (.aggregate a b c)) = .ok bs) :
    ∃ msg, parse (pre ++ (bs ++ post)) pre.length = .ok msg ∧ objMsg rnd' msg = .error .valueError :=
  ⟨_, mpReply_aggregate hb (At.intro pre bs post _ rfl), rfl⟩

example : (∃ bs, buildPortStatus 1 .none 0 (.tup ⟨1, [1, 2, 3, 4, 5, 6], .str [97], 0, 0, 0, 0, 0, 0, 0, 0⟩) = .ok bs) ∧
    (∃ bs, buildMpReply 1 .none 13 0 (.many (([⟨1, [1, 2, 3, 4, 5, 6], .str [97], 0, 0, 0, 0, 0, 0, 0, 0⟩].map Rec.port).map .tup)) = .ok bs) ∧
    (∃ bs, buildMpReply 1 .none 0xffff 0 (.raw (be32 1 ++ be32 2 ++ [3])) = .ok bs) ∧
    (∃ bs, buildMpReply 1 .none 2 0 (.one (.aggregate 1 2 3)) = .ok bs) :=
  ⟨ok_of (by decide +kernel), ok_of (by decide +kernel), ⟨_, rfl⟩, ⟨_, rfl⟩⟩

end Twink.Of13
