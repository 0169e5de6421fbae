import Verif.Proof.Of14Msgs
import Verif.Proof.Of13Never

/-! Which messages the OpenFlow 1.4 parser never finishes, against `Spec/Of14Reads`. -/

namespace Twink.Of14.Reads
open Fmt Spec Twink.Reads
open Of13 (Hdr MatchT Band HelloElem tups rd bind_ok ok_inj pyAssert_ok pyAssert pyAssert_true ok_bind whileFetch listFetch fourList parsePair allInts
  rd_nd band_nd match_nd)
open Of13.Reads (hdrAt msgEnd MatchAt BandAt ElemAt PairAt match_iff band_iff elem_iff pair_iff rd_never assert_never ok_never match_never)

theorem hdr_never {m o} : parseHdr m o = .error .diverges ↔ False := iff_false_intro hdr_nd

/-- Simplifies what is known of a parser that never ends. -/
macro "neverending14" "[" ls:Lean.Parser.Tactic.simpLemma,* "]" loc:(Lean.Parser.Tactic.location)? : tactic => `(tactic|
  simp only [bind_never, rd_never, assert_never, ok_never, hdr_never, match_never, match_iff, hdr_iff, hdr_length, bind_ok, rd_iff, vals, Of13.two,
    Of13.three, Of13.four, Of13.five, Option.some.injEq, calcsize, Item.width, ok_inj, Prod.exists,
    Prod.mk.injEq, pyAssert_ok, Nat.add_assoc, Nat.reduceAdd, part_slice, up8_align, B, H, I, Q, S, X, exists_eq_left', exists_eq_left, exists_eq_right,
    exists_eq_right', and_assoc, exists_and_left, exists_and_right, exists_const, false_or, or_false, and_false, exists_false, $ls,*] $[$loc]?)

theorem typeError_never {α : Type} : (.error .typeError : Py α) = .error .diverges ↔ False := by simp

theorem actions_never (m : Bytes) (limit o : Nat) :
    whileFetch (parseAction m) limit o = .error .diverges ↔ ActionsNever m limit o :=
  whileFetch_never (action_iff m) (fun _ => iff_false_intro action_nd) limit o

theorem instr_never (m : Bytes) (o : Nat) : parseInstr m o = .error .diverges ↔ InstrNever m o := by
  neverending14 [parseInstr]
  constructor
  · rintro ⟨h0, h⟩
    unfold parseInstrOf at h
    split_ifs at h with c1 c2 c3 c4 c5
    · exact absurd h rd_nd
    · exact absurd h rd_nd
    · neverending14 [actions_never] at h
      exact ⟨h.1, by simpa using c3, h.2⟩
    · exact absurd h rd_nd
    · neverending14 [] at h
    · cases h
  · rintro ⟨h0, c, h⟩
    refine ⟨by omega, ?_⟩
    simp only [List.mem_cons, List.not_mem_nil, or_false] at c
    unfold parseInstrOf
    rw [if_neg (by omega), if_neg (by omega), if_pos c]
    neverending14 [actions_never]
    exact ⟨h0, h⟩

theorem instrs_never (m : Bytes) (limit o : Nat) : listFetch (parseInstr m) limit o = .error .diverges ↔ InstrsNever m limit o :=
  listFetch_never (instr_iff m) (instr_never m) limit o

theorem bucket_never (m : Bytes) (o : Nat) : parseBucket m o = .error .diverges ↔ BucketNever m o := by
  neverending14 [parseBucket, actions_never, BucketNever]

theorem flowStats_never (m : Bytes) (o : Nat) : parseFlowStats m o = .error .diverges ↔ FlowStatsNever m o := by
  neverending14 [parseFlowStats, Of13.flowStatsFmt, instrs_never, FlowStatsNever]

theorem groupDesc_never (m : Bytes) (o : Nat) : parseGroupDesc m o = .error .diverges ↔ GroupDescNever m o := by
  neverending14 [parseGroupDesc, listFetch_never (bucket_iff m) (bucket_never m), GroupDescNever, BucketsNever]

theorem meterConfig_never (m : Bytes) (o : Nat) : parseMeterConfig m o = .error .diverges ↔ MeterConfigNever m o := by
  neverending14 [parseMeterConfig, listFetch_never (band_iff m) (fun _ => iff_false_intro band_nd), MeterConfigNever, BandsNever]

theorem queueDesc_never (m : Bytes) (o : Nat) : parseQueueDesc m o = .error .diverges ↔ QueueDescNever m o := by
  neverending14 [parseQueueDesc, whileFetch_never (queueProp_iff m) (fun _ => iff_false_intro qdProp_nd), QueueDescNever]

theorem portStats_never (m : Bytes) (o : Nat) : parsePortStats m o = .error .diverges ↔ PortStatsNever m o := by
  neverending14 [parsePortStats, portStatsParseFmt, List.replicate, List.append_assoc, List.cons_append, List.nil_append, firstInt, typeError_never,
    whileFetch_never (portStatsProp_iff m) (fun _ => iff_false_intro psProp_nd), PortStatsNever]

theorem queueStats_never (m : Bytes) (o : Nat) : parseQueueStats m o = .error .diverges ↔ QueueStatsNever m o := by
  neverending14 [parseQueueStats, queueStatsFmt, firstInt, typeError_never,
    whileFetch_never (queueStatsProp_iff m) (fun _ => iff_false_intro qsProp_nd), QueueStatsNever]

/-- Records of which none is ever read -/
theorem endless_none {At : Nat → α → Nat → Prop} {Never : Nat → Prop} (hA : ∀ o a e, ¬ At o a e) (limit o : Nat) :
    Endless At Never limit o ↔ o < limit ∧ Never o := by
  constructor
  · intro h
    cases h with
    | inside h1 h2 => exact ⟨h1, h2⟩
    | stuck h1 h2 _ => exact absurd h2 (hA _ _ _)
    | later h1 h2 _ _ => exact absurd h2 (hA _ _ _)
  · rintro ⟨h1, h2⟩
    exact .inside h1 h2

theorem several_never (r : Py (List Rec × Nat)) : several r = .error .diverges ↔ r = .error .diverges := by
  neverending14 [several]

theorem reply_never (m : Bytes) (t limit o : Nat) : parseRepBody t m limit o = .error .diverges ↔ ReplyNever m limit o t := by
  have hs := several_never
  have p4 : several (listFetch (parsePortStats m) limit o) = .error .diverges ↔ o < limit ∧ PortStatsNever m o := by
    rw [hs, listFetch_never (At := fun _ _ _ => False) (portStats_iff m) (portStats_never m), endless_none (fun _ _ _ => id)]
  have p5 : several (listFetch (parseQueueStats m) limit o) = .error .diverges ↔ o < limit ∧ QueueStatsNever m o := by
    rw [hs, listFetch_never (At := fun _ _ _ => False) (queueStats_iff m) (queueStats_never m), endless_none (fun _ _ _ => id)]
  constructor
  · intro h
    rcases repBody_stuck h with ⟨rfl | rfl, -⟩ | ⟨rfl, -⟩ | ⟨rfl | rfl | rfl, -⟩
    · exact .flow ((listFetch_never (flowStats_iff m) (flowStats_never m) _ _).1 ((hs _).1 h))
    · exact .groupDesc ((listFetch_never (groupDesc_iff m) (groupDesc_never m) _ _).1 ((hs _).1 h))
    · exact .meterConfig ((listFetch_never (meterConfig_iff m) (meterConfig_never m) _ _).1 ((hs _).1 h))
    · exact .port (p4.1 h).1 (p4.1 h).2
    · exact .queue (p5.1 h).1 (p5.1 h).2
    · exact .queueDesc ((listFetch_never (queueDesc_iff m) (queueDesc_never m) _ _).1 ((hs _).1 h))
  · intro h
    cases h with
    | flow h => exact (hs _).2 ((listFetch_never (flowStats_iff m) (flowStats_never m) _ _).2 h)
    | port h1 h2 => exact p4.2 ⟨h1, h2⟩
    | queue h1 h2 => exact p5.2 ⟨h1, h2⟩
    | groupDesc h => exact (hs _).2 ((listFetch_never (groupDesc_iff m) (groupDesc_never m) _ _).2 h)
    | meterConfig h => exact (hs _).2 ((listFetch_never (meterConfig_iff m) (meterConfig_never m) _ _).2 h)
    | queueDesc h => exact (hs _).2 ((listFetch_never (queueDesc_iff m) (queueDesc_never m) _ _).2 h)

theorem packetOut_never (m : Bytes) (o : Nat) : parsePacketOut m o = .error .diverges ↔
    o + 8 ≤ m.length ∧ u8 m o = 5 ∧ o + 24 ≤ m.length ∧ ActionsNever m (o + 24 + u16 m (o + 16)) (o + 24) := by
  neverending14 [parsePacketOut, actions_never]
  rw [show o + (8 + (16 + u16 m (o + 16))) = o + (24 + u16 m (o + 16)) by omega]

theorem flowMod_never (m : Bytes) (o : Nat) : parseFlowMod m o = .error .diverges ↔
    o + 8 ≤ m.length ∧ u8 m o = 5 ∧ o + 48 ≤ m.length ∧ ∃ mt e, MatchAt m (o + 48) mt e ∧ InstrsNever m (msgEnd m o) e := by
  neverending14 [parseFlowMod, flowModFmt, instrs_never]

theorem groupMod_never (m : Bytes) (o : Nat) : parseGroupMod m o = .error .diverges ↔
    o + 8 ≤ m.length ∧ u8 m o = 5 ∧ o + 16 ≤ m.length ∧ BucketsNever m (msgEnd m o) (o + 16) := by
  neverending14 [parseGroupMod, whileFetch_never (bucket_iff m) (bucket_never m), BucketsNever]

theorem portMod_never (m : Bytes) (o : Nat) : parsePortMod m o = .error .diverges ↔
    o + 8 ≤ m.length ∧ u8 m o = 5 ∧ o + 24 ≤ m.length ∧ Endless (PortModPropAt m) (fun _ => False) (msgEnd m o) (o + 8) := by
  neverending14 [parsePortMod, portModFmt, whileFetch_never (portModProp_iff m) (fun _ => iff_false_intro pmProp_nd)]

theorem tableMod_never (m : Bytes) (o : Nat) : parseTableMod m o = .error .diverges ↔
    o + 8 ≤ m.length ∧ u8 m o = 5 ∧ o + 16 ≤ m.length ∧ Endless (TablePropAt m) (fun _ => False) (msgEnd m o) (o + 16) := by
  neverending14 [parseTableMod, whileFetch_never (tableProp_iff m) (fun _ => iff_false_intro tmProp_nd)]

theorem meterMod_never (m : Bytes) (o : Nat) : parseMeterMod m o = .error .diverges ↔
    o + 8 ≤ m.length ∧ u8 m o = 5 ∧ o + 16 ≤ m.length ∧ BandsNever m (msgEnd m o) (o + 16) := by
  neverending14 [parseMeterMod, whileFetch_never (band_iff m) (fun _ => iff_false_intro band_nd), BandsNever]

theorem mpReply_never (m : Bytes) (o : Nat) : parseMpReply m o = .error .diverges ↔
    o + 8 ≤ m.length ∧ u8 m o = 5 ∧ o + 16 ≤ m.length ∧ ReplyNever m (msgEnd m o) (o + 16) (u16 m (o + 8)) := by
  neverending14 [parseMpReply, reply_never]

theorem roleProps_never (m : Bytes) (s limit o : Nat) (h1 : o + 4 ≤ m.length) (h2 : s + 12 ≤ m.length) :
    whileFetch (parseRoleProp s m) limit o = .error .diverges ↔ o < limit ∧ u16 m o = 65535 := by
  rw [whileFetch_never (At := fun o a e => parseRoleProp s m o = .ok (a, e)) (Never := fun _ => False) (fun _ _ _ => Iff.rfl)
    (fun _ => iff_false_intro roleProp_nd)]
  constructor
  · intro h
    cases h with
    | inside _ h => exact h.elim
    | stuck h1 h2 _ => exact ⟨h1, (roleProp_ok h2).2⟩
    | later h1 h2 _ _ => exact ⟨h1, (roleProp_ok h2).2⟩
  · rintro ⟨h3, h4⟩
    refine .stuck (a := .roleExp (some (u16 m s)) (some (u16 m (s + 2))) (u32 m (s + 4)) (u32 m (s + 8)) (some (part m s (s + u16 m (s + 2)))))
      h3 (e := o) ?_ (Nat.le_refl o)
    show parseRoleProp s m o = _
    reading [parseRoleProp]
    refine ⟨h1, ?_⟩
    rw [if_pos h4]
    reading []
    simp [h2]

theorem roleStatus_never (m : Bytes) (o : Nat) : parseRoleStatus m o = .error .diverges ↔
    o + 8 ≤ m.length ∧ u8 m o = 5 ∧ o + 16 ≤ m.length ∧ o + 8 < msgEnd m o ∧ u16 m (o + 8) = 65535 := by
  neverending14 [parseRoleStatus]
  constructor
  · rintro ⟨h1, h2, h3, h4⟩
    exact ⟨h1, h2, h3, (roleProps_never m o _ _ (by omega) (by omega)).1 h4⟩
  · rintro ⟨h1, h2, h3, h4⟩
    exact ⟨h1, h2, h3, (roleProps_never m o _ _ (by omega) (by omega)).2 h4⟩

theorem of_types {m : Bytes} {o : Nat} (h : parseOf (u8 m (o + 1)) m o = .error .diverges) :
    u8 m (o + 1) ∈ [13, 14, 15, 16, 17, 19, 29, 30] := by
  obtain ⟨p, -, h⟩ := parseOf_stuck h
  unfold Blocks at h
  simp only [List.mem_cons, List.not_mem_nil, or_false] at h ⊢
  omega

/-- The parser does not end for these messages, and for no others. -/
theorem parseAt_never (m : Bytes) (o : Nat) : parseAt m o = .error .diverges ↔ MsgNever m o := by
  constructor
  · intro h
    induction hn : m.length - o using Nat.strong_induction_on generalizing o with
    | _ n ih =>
      subst hn
      have hh : o + 8 ≤ m.length ∧ u8 m o = 5 := by
        rw [parseAt] at h
        split at h
        · rename_i e he
          injection h with h
          exact absurd (h ▸ he) hdr_nd
        · rename_i hd o' h'; rw [hdr_iff] at h'; exact ⟨h'.1, h'.2.1⟩
      obtain ⟨h0, hv⟩ := hh
      have hd : HeadAt m o (u8 m (o + 1)) 8 := ⟨h0, h0, hv, rfl⟩
      rw [at_eq hd] at h
      by_cases c32 : u8 m (o + 1) = 32
      · rw [if_pos c32] at h
        rw [c32] at hd
        neverending14 [parseRequestForward] at h
        exact .requestForward hd (ih _ (by omega) _ h.2.2 rfl)
      rw [if_neg c32] at h
      by_cases c34 : u8 m (o + 1) = 34
      · rw [if_pos c34] at h
        unfold parseBundleAdd at h
        rw [bind_never] at h
        obtain h | ⟨⟨hd', o'⟩, h1, h⟩ := h
        · exact absurd h hdr_nd
        rw [hdr_iff] at h1
        obtain ⟨-, -, rfl, rfl⟩ := h1
        rw [bind_never] at h
        obtain h | ⟨_, h1, h⟩ := h
        · exact absurd h rd_nd
        reading [] at h1
        obtain ⟨h1, -⟩ := h1
        rw [bind_never] at h
        obtain h | ⟨_, _, h⟩ := h
        · exact .bundleAdd ⟨h0, h1, hv, c34⟩ (ih _ (by omega) _ h rfl)
        · simp only at h
          split_ifs at h
          cases h
      rw [if_neg c34] at h
      have ht := of_types h
      simp only [List.mem_cons, List.not_mem_nil, or_false] at ht
      rcases ht with ht | ht | ht | ht | ht | ht | ht | ht <;> rw [ht] at h
      · obtain ⟨-, -, h3, h4⟩ := (packetOut_never m o).1 h
        exact .packetOut ⟨h0, h3, hv, ht⟩ h4
      · obtain ⟨-, -, h3, mt, e, h4, h5⟩ := (flowMod_never m o).1 h
        exact .flowMod ⟨h0, h3, hv, ht⟩ h4 h5
      · obtain ⟨-, -, h3, h4⟩ := (groupMod_never m o).1 h
        exact .groupMod ⟨h0, h3, hv, ht⟩ h4
      · obtain ⟨-, -, h3, h4⟩ := (portMod_never m o).1 h
        exact .portMod ⟨h0, h3, hv, ht⟩ h4
      · obtain ⟨-, -, h3, h4⟩ := (tableMod_never m o).1 h
        exact .tableMod ⟨h0, h3, hv, ht⟩ h4
      · obtain ⟨-, -, h3, h4⟩ := (mpReply_never m o).1 h
        exact .mpReply ⟨h0, h3, hv, ht⟩ h4
      · obtain ⟨-, -, h3, h4⟩ := (meterMod_never m o).1 h
        exact .meterMod ⟨h0, h3, hv, ht⟩ h4
      · obtain ⟨-, -, h3, h4, h5⟩ := (roleStatus_never m o).1 h
        exact .roleStatus ⟨h0, h3, hv, ht⟩ h4 h5
  · intro h
    induction h with
    | packetOut h h1 => rw [of_eq h (by omega) (by omega)]; exact (packetOut_never m _).2 ⟨h.1, h.2.2.1, h.2.1, h1⟩
    | flowMod h h1 h2 => rw [of_eq h (by omega) (by omega)]; exact (flowMod_never m _).2 ⟨h.1, h.2.2.1, h.2.1, _, _, h1, h2⟩
    | groupMod h h1 => rw [of_eq h (by omega) (by omega)]; exact (groupMod_never m _).2 ⟨h.1, h.2.2.1, h.2.1, h1⟩
    | portMod h h1 => rw [of_eq h (by omega) (by omega)]; exact (portMod_never m _).2 ⟨h.1, h.2.2.1, h.2.1, h1⟩
    | tableMod h h1 => rw [of_eq h (by omega) (by omega)]; exact (tableMod_never m _).2 ⟨h.1, h.2.2.1, h.2.1, h1⟩
    | mpReply h h1 => rw [of_eq h (by omega) (by omega)]; exact (mpReply_never m _).2 ⟨h.1, h.2.2.1, h.2.1, h1⟩
    | meterMod h h1 => rw [of_eq h (by omega) (by omega)]; exact (meterMod_never m _).2 ⟨h.1, h.2.2.1, h.2.1, h1⟩
    | roleStatus h h1 h2 => rw [of_eq h (by omega) (by omega)]; exact (roleStatus_never m _).2 ⟨h.1, h.2.2.1, h.2.1, h1, h2⟩
    | requestForward h h1 ih =>
      rw [at_eq h, if_pos rfl]
      neverending14 [parseRequestForward]
      exact ⟨h.1, h.2.2.1, ih⟩
    | @bundleAdd o h h1 ih =>
      rw [at_eq h, if_neg (by omega), if_pos rfl]
      unfold parseBundleAdd
      rw [(hdr_iff m o _ _).2 ⟨h.1, h.2.2.1, rfl, rfl⟩, ok_bind, ih]
      rw [bind_never]
      refine .inr ⟨(Msg.bundleAdd (hdrAt m o) (u32 m (o + 8)) (u16 m (o + 14)), o + 16), ?_, rfl⟩
      reading []
      simp [h.2.1]

theorem parse_never (m : Bytes) (o : Nat) : parse m o = .error .diverges ↔ MsgNever m o := by
  rw [← parseAt_never, parse, bind_never]
  constructor
  · rintro (h | ⟨⟨a, e⟩, _, h⟩)
    · exact h
    · cases h
  · exact .inl

end Twink.Of14.Reads
