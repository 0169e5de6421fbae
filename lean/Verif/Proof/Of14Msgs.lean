import Verif.Proof.Of14Reads
import Verif.Proof.Of14Loop

/-! # Which messages the OpenFlow 1.4 parser reads, and as what -/

namespace Twink.Of14.Reads
open Fmt Spec Twink.Reads
open Of13 (Hdr MatchT Band HelloElem tups rd bind_ok ok_inj pyAssert_ok pyAssert pyAssert_true ok_bind whileFetch listFetch fourList parsePair allInts)
open Of13.Reads (hdrAt msgEnd MatchAt BandAt ElemAt PairAt match_iff band_iff elem_iff pair_iff hdr_type hdr_length calcsize_ints allInts_vals)

theorem hdr_iff (m : Bytes) (o : Nat) (h : Hdr) (e : Nat) :
    parseHdr m o = .ok (h, e) ↔ o + 8 ≤ m.length ∧ u8 m o = 5 ∧ h = hdrAt m o ∧ e = o + 8 := by
  rw [parseHdr, bind_ok]
  constructor
  · rintro ⟨⟨h', e'⟩, h1, h2⟩
    reading [hdrFmt] at h1 h2
    obtain ⟨h3, rfl, rfl⟩ := h1
    obtain ⟨h4, rfl, rfl⟩ := h2
    exact ⟨h3, h4, rfl, rfl⟩
  · rintro ⟨h1, h2, rfl, rfl⟩
    refine ⟨(hdrAt m o, o + 8), ?_, ?_⟩
    · reading [hdrFmt, hdrAt]; simp [h1]
    · rw [show pyAssert ((hdrAt m o).version = 5) = .ok () from pyAssert_true h2]; rfl

theorem hdr_type (m : Bytes) (o : Nat) : (hdrAt m o).type = u8 m (o + 1) := rfl
theorem hdr_length (m : Bytes) (o : Nat) : o + (hdrAt m o).length = msgEnd m o := rfl

theorem hello_fwd {m : Bytes} {o : Nat} {r : Msg} {e : Nat} (ht : u8 m (o + 1) = 0) (h : parseHello m o = .ok (r, e)) : MsgAt m o r e := by
  reading [parseHello, hdr_iff, hdr_length, whileFetch_iff (elem_iff m)] at h
  obtain ⟨h0, hv, l, _, h1, rfl, rfl, rfl⟩ := h
  exact .hello ⟨h0, h0, hv, ht⟩ h1

theorem error_fwd {m : Bytes} {o : Nat} {r : Msg} {e : Nat} (ht : u8 m (o + 1) = 1) (h : parseError m o = .ok (r, e)) : MsgAt m o r e := by
  reading [parseError, hdr_iff, hdr_length] at h
  obtain ⟨h0, hv, h1, rfl, rfl⟩ := h
  exact .error ⟨h0, h1, hv, ht⟩

theorem features_fwd {m : Bytes} {o : Nat} {r : Msg} {e : Nat} (ht : u8 m (o + 1) = 6) (h : parseFeatures m o = .ok (r, e)) : MsgAt m o r e := by
  reading [parseFeatures, hdr_iff, hdr_length] at h
  obtain ⟨h0, hv, h1, rfl, rfl⟩ := h
  exact .features ⟨h0, h1, hv, ht⟩

theorem config_fwd {m : Bytes} {o : Nat} {r : Msg} {e : Nat} (ht : u8 m (o + 1) = 9 ∨ u8 m (o + 1) = 8) (h : parseConfig m o = .ok (r, e)) : MsgAt m o r e := by
  reading [parseConfig, hdr_iff, hdr_length] at h
  obtain ⟨h0, hv, h1, rfl, rfl⟩ := h
  exact .config ht.symm ⟨h0, h1, hv, rfl⟩

theorem packetIn_fwd {m : Bytes} {o : Nat} {r : Msg} {e : Nat} (ht : u8 m (o + 1) = 10) (h : parsePacketIn m o = .ok (r, e)) : MsgAt m o r e := by
  reading [parsePacketIn, hdr_iff, hdr_length, match_iff] at h
  obtain ⟨h0, hv, h1, mt, e', h2, h3, -, rfl, rfl⟩ := h
  exact .packetIn ⟨h0, h1, hv, ht⟩ h2 h3

theorem flowRemoved_fwd {m : Bytes} {o : Nat} {r : Msg} {e : Nat} (ht : u8 m (o + 1) = 11) (h : parseFlowRemoved m o = .ok (r, e)) : MsgAt m o r e := by
  reading [parseFlowRemoved, hdr_iff, hdr_length, Of13.flowRemovedFmt, match_iff] at h
  obtain ⟨h0, hv, h1, mt, _, h2, rfl, rfl⟩ := h
  exact .flowRemoved ⟨h0, h1, hv, ht⟩ h2

theorem portStatus_fwd {m : Bytes} {o : Nat} {r : Msg} {e : Nat} (ht : u8 m (o + 1) = 12) (h : parsePortStatus m o = .ok (r, e)) : MsgAt m o r e := by
  reading [parsePortStatus, hdr_iff, hdr_length, port_iff] at h
  obtain ⟨h0, hv, h1, mt, _, h2, rfl, rfl⟩ := h
  exact .portStatus ⟨h0, h1, hv, ht⟩ h2

theorem packetOut_fwd {m : Bytes} {o : Nat} {r : Msg} {e : Nat} (ht : u8 m (o + 1) = 13) (h : parsePacketOut m o = .ok (r, e)) : MsgAt m o r e := by
  reading [parsePacketOut, hdr_iff, hdr_length, actions_iff] at h
  obtain ⟨h0, hv, h1, l, e', h2, rfl, rfl⟩ := h
  exact .packetOut ⟨h0, h1, hv, ht⟩ (by rw [show o + 24 + u16 m (o + 16) = o + (8 + (16 + u16 m (o + 16))) by omega]; exact h2)

theorem flowMod_fwd {m : Bytes} {o : Nat} {r : Msg} {e : Nat} (ht : u8 m (o + 1) = 14) (h : parseFlowMod m o = .ok (r, e)) : MsgAt m o r e := by
  reading [parseFlowMod, hdr_iff, hdr_length, flowModFmt, match_iff, instrs_iff] at h
  obtain ⟨h0, hv, h1, mt, e', h2, l, _, h3, rfl, rfl, rfl⟩ := h
  exact .flowMod ⟨h0, h1, hv, ht⟩ h2 h3

theorem groupMod_fwd {m : Bytes} {o : Nat} {r : Msg} {e : Nat} (ht : u8 m (o + 1) = 15) (h : parseGroupMod m o = .ok (r, e)) : MsgAt m o r e := by
  reading [parseGroupMod, hdr_iff, hdr_length, whileFetch_iff (bucket_iff m)] at h
  obtain ⟨h0, hv, h1, l, _, h2, rfl, rfl⟩ := h
  exact .groupMod ⟨h0, h1, hv, ht⟩ h2

theorem portMod_fwd {m : Bytes} {o : Nat} {r : Msg} {e : Nat} (ht : u8 m (o + 1) = 16) (h : parsePortMod m o = .ok (r, e)) : MsgAt m o r e := by
  reading [parsePortMod, hdr_iff, hdr_length, portModFmt, whileFetch_iff (portModProp_iff m)] at h
  obtain ⟨h0, hv, h1, l, _, h2, rfl, rfl⟩ := h
  exact .portMod ⟨h0, h1, hv, ht⟩ h2

theorem tableMod_fwd {m : Bytes} {o : Nat} {r : Msg} {e : Nat} (ht : u8 m (o + 1) = 17) (h : parseTableMod m o = .ok (r, e)) : MsgAt m o r e := by
  reading [parseTableMod, hdr_iff, hdr_length, whileFetch_iff (tableProp_iff m)] at h
  obtain ⟨h0, hv, h1, l, _, h2, rfl, rfl⟩ := h
  exact .tableMod ⟨h0, h1, hv, ht⟩ h2

theorem mpRequest_fwd {m : Bytes} {o : Nat} {r : Msg} {e : Nat} (ht : u8 m (o + 1) = 18) (h : parseMpRequest m o = .ok (r, e)) : MsgAt m o r e := by
  reading [parseMpRequest, hdr_iff, hdr_length, request_iff] at h
  obtain ⟨h0, hv, h1, b, _, h2, rfl, rfl⟩ := h
  exact .mpRequest ⟨h0, h1, hv, ht⟩ h2

theorem mpReply_fwd {m : Bytes} {o : Nat} {r : Msg} {e : Nat} (ht : u8 m (o + 1) = 19) (h : parseMpReply m o = .ok (r, e)) : MsgAt m o r e := by
  reading [parseMpReply, hdr_iff, hdr_length, reply_iff] at h
  obtain ⟨h0, hv, h1, b, _, h2, rfl, rfl⟩ := h
  exact .mpReply ⟨h0, h1, hv, ht⟩ h2

theorem experimenter_fwd {m : Bytes} {o : Nat} {r : Msg} {e : Nat} (ht : u8 m (o + 1) = 4) (h : parseExperimenter m o = .ok (r, e)) : MsgAt m o r e := by
  reading [parseExperimenter, hdr_iff, hdr_length] at h
  obtain ⟨h0, hv, h1, rfl, rfl⟩ := h
  exact .experimenter ⟨h0, h1, hv, ht⟩

theorem async_fwd {m : Bytes} {o : Nat} {r : Msg} {e : Nat} (ht : u8 m (o + 1) = 28 ∨ u8 m (o + 1) = 27) (h : parseAsync m o = .ok (r, e)) : MsgAt m o r e := by
  reading [parseAsync, hdr_iff, hdr_length, whileFetch_iff (asyncProp_iff m)] at h
  obtain ⟨h0, hv, l, _, h2, rfl, rfl⟩ := h
  exact .async ht.symm ⟨h0, h0, hv, rfl⟩ h2

theorem meterMod_fwd {m : Bytes} {o : Nat} {r : Msg} {e : Nat} (ht : u8 m (o + 1) = 29) (h : parseMeterMod m o = .ok (r, e)) : MsgAt m o r e := by
  reading [parseMeterMod, hdr_iff, hdr_length, whileFetch_iff (band_iff m)] at h
  obtain ⟨h0, hv, h1, l, _, h2, rfl, rfl⟩ := h
  exact .meterMod ⟨h0, h1, hv, ht⟩ h2

theorem roleProps_iff (m : Bytes) (s limit o : Nat) (l : List Pr) (e : Nat) :
    whileFetch (parseRoleProp s m) limit o = .ok (l, e) ↔ limit ≤ o ∧ l = [] ∧ e = o := by
  rw [whileFetch_iff (At := fun o a e => parseRoleProp s m o = .ok (a, e)) (fun _ _ _ => Iff.rfl)]
  constructor
  · intro h
    cases l with
    | nil => exact ⟨h.1, rfl, h.2⟩
    | cons a l =>
      obtain ⟨-, _, h2, h3, -⟩ := h
      exact absurd (roleProp_ok h2).1 (by omega)
  · rintro ⟨h, rfl, rfl⟩
    exact ⟨h, rfl⟩

theorem bundleProps_iff (m : Bytes) (limit o : Nat) (l : List Pr) (e : Nat) :
    whileFetch (fun o => do
      let (_, _) ← rd [H, H] m o (Of13.two fun a b => (a, b))
      (.error .nameError : Py (Pr × Nat))) limit o = .ok (l, e) ↔ limit ≤ o ∧ l = [] ∧ e = o := by
  rw [whileFetch_iff (At := fun _ _ _ => False) (fun o a e => by rw [bind_ok]; simp)]
  constructor
  · intro h
    cases l with
    | nil => exact ⟨h.1, rfl, h.2⟩
    | cons a l => obtain ⟨-, _, h, -⟩ := h; exact h.elim
  · rintro ⟨h, rfl, rfl⟩
    exact ⟨h, rfl⟩

theorem roleStatus_fwd {m : Bytes} {o : Nat} {r : Msg} {e : Nat} (ht : u8 m (o + 1) = 30) (h : parseRoleStatus m o = .ok (r, e)) : MsgAt m o r e := by
  reading [parseRoleStatus, hdr_iff, hdr_length, roleProps_iff] at h
  obtain ⟨h0, hv, h1, h2, rfl, rfl⟩ := h
  exact .roleStatus ⟨h0, h1, hv, ht⟩ h2

theorem bundleCtrl_fwd {m : Bytes} {o : Nat} {r : Msg} {e : Nat} (ht : u8 m (o + 1) = 33) (h : parseBundleCtrl m o = .ok (r, e)) : MsgAt m o r e := by
  reading [parseBundleCtrl, hdr_iff, hdr_length, bundleProps_iff] at h
  obtain ⟨h0, hv, h1, h2, rfl, rfl⟩ := h
  exact .bundleCtrl ⟨h0, h1, hv, ht⟩ h2

theorem tableStatus_none (m : Bytes) (o : Nat) (r : Msg × Nat) : parseTableStatus m o ≠ .ok r := by
  intro h
  unfold parseTableStatus at h
  rw [bind_ok] at h; obtain ⟨_, _, h⟩ := h
  rw [bind_ok] at h; obtain ⟨_, _, h⟩ := h
  rw [bind_ok] at h; obtain ⟨_, _, h⟩ := h
  cases h

theorem other_fwd {m : Bytes} {o : Nat} {r : Msg} {e : Nat} (ht : u8 m (o + 1) ∉ knownTypes) (h : parseOther m o = .ok (r, e)) : MsgAt m o r e := by
  reading [parseOther, hdr_iff, hdr_length] at h
  obtain ⟨h0, hv, rfl, rfl⟩ := h
  exact .other ht ⟨h0, h0, hv, rfl⟩

theorem at_eq {m : Bytes} {o t n : Nat} (h : HeadAt m o t n) : parseAt m o =
    if t = 32 then parseRequestForward m o (parseAt m (o + 8))
    else if t = 34 then parseBundleAdd m o (parseAt m (o + 16)) else parseOf t m o := by
  have e : parseHdr m o = .ok (hdrAt m o, o + 8) := (hdr_iff ..).2 ⟨h.1, h.2.2.1, rfl, rfl⟩
  rw [parseAt]
  split
  · rename_i e' h'; rw [e] at h'; cases h'
  · rename_i hd o' h'; rw [e] at h'; cases h'
    rw [hdr_type, h.2.2.2]

theorem of_eq {m : Bytes} {o t n : Nat} (h : HeadAt m o t n) (c : t ≠ 32) (d : t ≠ 34) : parseAt m o = parseOf t m o := by
  rw [at_eq h, if_neg c, if_neg d]

theorem of_fwd {m : Bytes} {o : Nat} {r : Msg} {e : Nat} (c32 : u8 m (o + 1) ≠ 32) (c34 : u8 m (o + 1) ≠ 34)
    (h : parseOf (u8 m (o + 1)) m o = .ok (r, e)) : MsgAt m o r e := by
  unfold parseOf at h
  by_cases chello : u8 m (o + 1) = 0
  · rw [if_pos chello] at h; exact hello_fwd chello h
  rw [if_neg chello] at h
  by_cases cerror : u8 m (o + 1) = 1
  · rw [if_pos cerror] at h; exact error_fwd cerror h
  rw [if_neg cerror] at h
  by_cases cfeatures : u8 m (o + 1) = 6
  · rw [if_pos cfeatures] at h; exact features_fwd cfeatures h
  rw [if_neg cfeatures] at h
  by_cases cconfig : u8 m (o + 1) = 9 ∨ u8 m (o + 1) = 8
  · rw [if_pos cconfig] at h; exact config_fwd cconfig h
  rw [if_neg cconfig] at h
  by_cases cpacketIn : u8 m (o + 1) = 10
  · rw [if_pos cpacketIn] at h; exact packetIn_fwd cpacketIn h
  rw [if_neg cpacketIn] at h
  by_cases cflowRemoved : u8 m (o + 1) = 11
  · rw [if_pos cflowRemoved] at h; exact flowRemoved_fwd cflowRemoved h
  rw [if_neg cflowRemoved] at h
  by_cases cportStatus : u8 m (o + 1) = 12
  · rw [if_pos cportStatus] at h; exact portStatus_fwd cportStatus h
  rw [if_neg cportStatus] at h
  by_cases cpacketOut : u8 m (o + 1) = 13
  · rw [if_pos cpacketOut] at h; exact packetOut_fwd cpacketOut h
  rw [if_neg cpacketOut] at h
  by_cases cflowMod : u8 m (o + 1) = 14
  · rw [if_pos cflowMod] at h; exact flowMod_fwd cflowMod h
  rw [if_neg cflowMod] at h
  by_cases cgroupMod : u8 m (o + 1) = 15
  · rw [if_pos cgroupMod] at h; exact groupMod_fwd cgroupMod h
  rw [if_neg cgroupMod] at h
  by_cases cportMod : u8 m (o + 1) = 16
  · rw [if_pos cportMod] at h; exact portMod_fwd cportMod h
  rw [if_neg cportMod] at h
  by_cases ctableMod : u8 m (o + 1) = 17
  · rw [if_pos ctableMod] at h; exact tableMod_fwd ctableMod h
  rw [if_neg ctableMod] at h
  by_cases cmpRequest : u8 m (o + 1) = 18
  · rw [if_pos cmpRequest] at h; exact mpRequest_fwd cmpRequest h
  rw [if_neg cmpRequest] at h
  by_cases cmpReply : u8 m (o + 1) = 19
  · rw [if_pos cmpReply] at h; exact mpReply_fwd cmpReply h
  rw [if_neg cmpReply] at h
  by_cases cexperimenter : u8 m (o + 1) = 4
  · rw [if_pos cexperimenter] at h; exact experimenter_fwd cexperimenter h
  rw [if_neg cexperimenter] at h
  by_cases casync : u8 m (o + 1) = 28 ∨ u8 m (o + 1) = 27
  · rw [if_pos casync] at h; exact async_fwd casync h
  rw [if_neg casync] at h
  by_cases cmeterMod : u8 m (o + 1) = 29
  · rw [if_pos cmeterMod] at h; exact meterMod_fwd cmeterMod h
  rw [if_neg cmeterMod] at h
  by_cases croleStatus : u8 m (o + 1) = 30
  · rw [if_pos croleStatus] at h; exact roleStatus_fwd croleStatus h
  rw [if_neg croleStatus] at h
  by_cases ctableStatus : u8 m (o + 1) = 31
  · rw [if_pos ctableStatus] at h; exact absurd h (tableStatus_none m o _)
  rw [if_neg ctableStatus] at h
  by_cases cbundleCtrl : u8 m (o + 1) = 33
  · rw [if_pos cbundleCtrl] at h; exact bundleCtrl_fwd cbundleCtrl h
  rw [if_neg cbundleCtrl] at h
  exact other_fwd (by simp [knownTypes]; omega) h

/-- The parser returns what stands there, and nothing else, and stops where that ends. -/
theorem parseAt_iff (m : Bytes) (o : Nat) (r : Msg) (e : Nat) : parseAt m o = .ok (r, e) ↔ MsgAt m o r e := by
  constructor
  · intro h
    induction hn : m.length - o using Nat.strong_induction_on generalizing o r e with
    | _ n ih =>
      subst hn
      have hh : o + 8 ≤ m.length ∧ u8 m o = 5 := by
        rw [parseAt] at h
        split at h
        · cases h
        · rename_i hd o' h'; rw [hdr_iff] at h'; exact ⟨h'.1, h'.2.1⟩
      have hd : HeadAt m o (u8 m (o + 1)) 8 := ⟨hh.1, hh.1, hh.2, rfl⟩
      rw [at_eq hd] at h
      by_cases c32 : u8 m (o + 1) = 32
      · rw [if_pos c32] at h
        rw [c32] at hd
        reading [parseRequestForward, hdr_iff] at h
        obtain ⟨-, -, r', e', h1, rfl, rfl⟩ := h
        exact .requestForward hd (ih _ (by omega) _ _ _ h1 rfl)
      rw [if_neg c32] at h
      by_cases c34 : u8 m (o + 1) = 34
      · rw [if_pos c34] at h
        reading [parseBundleAdd, hdr_iff] at h
        obtain ⟨-, -, h1, r', e', h2, h3⟩ := h
        split_ifs at h3 with c
        cases h3
        exact .bundleAdd ⟨hh.1, h1, hh.2, c34⟩ (ih _ (by omega) _ _ _ h2 rfl) (Nat.le_of_not_lt c)
      rw [if_neg c34] at h
      exact of_fwd c32 c34 h
  · intro h
    induction h with
    | hello h h1 =>
      rw [of_eq h (by omega) (by omega)]
      show parseHello m _ = _
      reading [parseHello, hdr_iff, hdr_length, whileFetch_iff (elem_iff m)]
      exact ⟨h.1, h.2.2.1, _, _, h1, rfl, rfl, rfl⟩
    | error h =>
      rw [of_eq h (by omega) (by omega)]
      show parseError m _ = _
      reading [parseError, hdr_iff, hdr_length]
      exact ⟨h.1, h.2.2.1, h.2.1, trivial, trivial⟩
    | experimenter h =>
      rw [of_eq h (by omega) (by omega)]
      show parseExperimenter m _ = _
      reading [parseExperimenter, hdr_iff, hdr_length]
      exact ⟨h.1, h.2.2.1, h.2.1, trivial, trivial⟩
    | features h =>
      rw [of_eq h (by omega) (by omega)]
      show parseFeatures m _ = _
      reading [parseFeatures, hdr_iff, hdr_length]
      exact ⟨h.1, h.2.2.1, h.2.1, trivial, trivial⟩
    | config c h =>
      rw [of_eq h (by omega) (by omega)]
      have e : ∀ t o, t = 8 ∨ t = 9 → parseOf t m o = parseConfig m o := by rintro t o (rfl | rfl) <;> rfl
      rw [e _ _ c]
      reading [parseConfig, hdr_iff, hdr_length]
      exact ⟨h.1, h.2.2.1, h.2.1, trivial, trivial⟩
    | packetIn h h2 h3 =>
      rw [of_eq h (by omega) (by omega)]
      show parsePacketIn m _ = _
      reading [parsePacketIn, hdr_iff, hdr_length, match_iff]
      exact ⟨h.1, h.2.2.1, h.2.1, _, _, h2, h3, trivial, rfl, trivial⟩
    | flowRemoved h h2 =>
      rw [of_eq h (by omega) (by omega)]
      show parseFlowRemoved m _ = _
      reading [parseFlowRemoved, hdr_iff, hdr_length, Of13.flowRemovedFmt, match_iff]
      exact ⟨h.1, h.2.2.1, h.2.1, _, _, h2, rfl, rfl⟩
    | portStatus h h2 =>
      rw [of_eq h (by omega) (by omega)]
      show parsePortStatus m _ = _
      reading [parsePortStatus, hdr_iff, hdr_length, port_iff]
      exact ⟨h.1, h.2.2.1, h.2.1, _, _, h2, rfl, rfl⟩
    | packetOut h h2 =>
      rw [of_eq h (by omega) (by omega)]
      show parsePacketOut m _ = _
      reading [parsePacketOut, hdr_iff, hdr_length, actions_iff]
      exact ⟨h.1, h.2.2.1, h.2.1, _, _, by rw [show ∀ o, o + (8 + (16 + u16 m (o + 16))) = o + 24 + u16 m (o + 16) by intro o; omega]; exact h2, rfl, trivial⟩
    | flowMod h h2 h3 =>
      rw [of_eq h (by omega) (by omega)]
      show parseFlowMod m _ = _
      reading [parseFlowMod, hdr_iff, hdr_length, flowModFmt, match_iff, instrs_iff]
      exact ⟨h.1, h.2.2.1, h.2.1, _, _, h2, _, _, h3, rfl, rfl, rfl⟩
    | groupMod h h2 =>
      rw [of_eq h (by omega) (by omega)]
      show parseGroupMod m _ = _
      reading [parseGroupMod, hdr_iff, hdr_length, whileFetch_iff (bucket_iff m)]
      exact ⟨h.1, h.2.2.1, h.2.1, _, _, h2, rfl, rfl⟩
    | portMod h h2 =>
      rw [of_eq h (by omega) (by omega)]
      show parsePortMod m _ = _
      reading [parsePortMod, hdr_iff, hdr_length, portModFmt, whileFetch_iff (portModProp_iff m)]
      exact ⟨h.1, h.2.2.1, h.2.1, _, _, h2, rfl, rfl⟩
    | tableMod h h2 =>
      rw [of_eq h (by omega) (by omega)]
      show parseTableMod m _ = _
      reading [parseTableMod, hdr_iff, hdr_length, whileFetch_iff (tableProp_iff m)]
      exact ⟨h.1, h.2.2.1, h.2.1, _, _, h2, rfl, rfl⟩
    | mpRequest h h2 =>
      rw [of_eq h (by omega) (by omega)]
      show parseMpRequest m _ = _
      reading [parseMpRequest, hdr_iff, hdr_length, request_iff]
      exact ⟨h.1, h.2.2.1, h.2.1, _, _, h2, rfl, rfl⟩
    | mpReply h h2 =>
      rw [of_eq h (by omega) (by omega)]
      show parseMpReply m _ = _
      reading [parseMpReply, hdr_iff, hdr_length, reply_iff]
      exact ⟨h.1, h.2.2.1, h.2.1, _, _, h2, rfl, rfl⟩
    | meterMod h h2 =>
      rw [of_eq h (by omega) (by omega)]
      show parseMeterMod m _ = _
      reading [parseMeterMod, hdr_iff, hdr_length, whileFetch_iff (band_iff m)]
      exact ⟨h.1, h.2.2.1, h.2.1, _, _, h2, rfl, rfl⟩
    | async c h h2 =>
      rw [of_eq h (by omega) (by omega)]
      have e : ∀ t o, t = 27 ∨ t = 28 → parseOf t m o = parseAsync m o := by rintro t o (rfl | rfl) <;> rfl
      rw [e _ _ c]
      reading [parseAsync, hdr_iff, hdr_length, whileFetch_iff (asyncProp_iff m)]
      exact ⟨h.1, h.2.2.1, _, _, h2, rfl, rfl⟩
    | roleStatus h h2 =>
      rw [of_eq h (by omega) (by omega)]
      show parseRoleStatus m _ = _
      reading [parseRoleStatus, hdr_iff, hdr_length, roleProps_iff]
      exact ⟨h.1, h.2.2.1, h.2.1, h2, trivial, trivial⟩
    | bundleCtrl h h2 =>
      rw [of_eq h (by omega) (by omega)]
      show parseBundleCtrl m _ = _
      reading [parseBundleCtrl, hdr_iff, hdr_length, bundleProps_iff]
      exact ⟨h.1, h.2.2.1, h.2.1, h2, trivial, trivial⟩
    | requestForward h h1 ih =>
      rw [at_eq h, if_pos rfl]
      reading [parseRequestForward, hdr_iff]
      exact ⟨h.1, h.2.2.1, _, _, ih, rfl, rfl⟩
    | bundleAdd h h1 h2 ih =>
      rw [at_eq h, if_neg (by omega), if_pos rfl]
      reading [parseBundleAdd, hdr_iff, ih]
      exact ⟨h.1, h.2.2.1, h.2.1, if_neg (Nat.not_lt.2 h2)⟩
    | @other o t c h =>
      have c' := c
      simp only [knownTypes, List.mem_cons, List.not_mem_nil, or_false, not_or] at c
      rw [of_eq h (by omega) (by omega)]
      have e : parseOf t m o = parseOther m o := by
        unfold parseOf
        iterate 20 rw [if_neg (by omega)]
      rw [e]
      reading [parseOther, hdr_iff, hdr_length]
      exact ⟨h.1, h.2.2.1, trivial, trivial⟩

theorem parse_iff (m : Bytes) (o : Nat) (r : Msg) : parse m o = .ok r ↔ ∃ e, MsgAt m o r e := by
  unfold parse
  rw [bind_ok]
  constructor
  · rintro ⟨⟨r', e⟩, h1, h2⟩; cases h2; exact ⟨e, (parseAt_iff ..).1 h1⟩
  · rintro ⟨e, h⟩; exact ⟨(r, e), (parseAt_iff ..).2 h, rfl⟩

end Twink.Of14.Reads
