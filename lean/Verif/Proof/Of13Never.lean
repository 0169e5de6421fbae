import Verif.Proof.Of13Reads

/-! Which messages the OpenFlow 1.3 parser never finishes, against `Spec/Of13Reads`. -/

namespace Twink.Of13.Reads
open Fmt Spec Twink.Reads Of13

theorem rd_never {f m off} {k : List Val → Option α} : rd f m off k = .error .diverges ↔ False := iff_false_intro rd_nd
theorem assert_never {p : Prop} [Decidable p] : pyAssert p = .error .diverges ↔ False := iff_false_intro assert_nd
theorem ok_never {a : α} : (.ok a : Py α) = .error .diverges ↔ False := by simp
theorem hdr_never {m o} : parseHdr m o = .error .diverges ↔ False := iff_false_intro hdr_nd
theorem match_never {m o} : parseMatch m o = .error .diverges ↔ False := iff_false_intro match_nd

/-- Simplifies what is known of a parser that never ends. -/
macro "neverending" "[" ls:Lean.Parser.Tactic.simpLemma,* "]" loc:(Lean.Parser.Tactic.location)? : tactic => `(tactic|
  simp only [bind_never, rd_never, assert_never, ok_never, hdr_never, match_never, match_iff, hdr_iff, hdr_length, bind_ok, rd_iff, vals, two, three, four, five,
    Option.some.injEq, calcsize, Item.width, ok_inj, Prod.exists,
    Prod.mk.injEq, pyAssert_ok, Nat.add_assoc, Nat.reduceAdd, part_slice, up8_align, B, H, I, Q, S, X, exists_eq_left', exists_eq_left, exists_eq_right,
    exists_eq_right', and_assoc, exists_and_left, exists_and_right, exists_const, false_or, or_false, and_false, exists_false, $ls,*] $[$loc]?)

theorem actions_never (m : Bytes) (limit o : Nat) :
    whileFetch (parseAction m) limit o = .error .diverges ↔ ActionsNever m limit o :=
  whileFetch_never (action_iff m) (fun _ => iff_false_intro action_nd) limit o

theorem instr_never (m : Bytes) (o : Nat) : parseInstr m o = .error .diverges ↔ InstrNever m o := by
  neverending [parseInstr]
  constructor
  · rintro ⟨h0, h⟩
    unfold parseInstrOf at h
    split_ifs at h with c1 c2 c3 c4 c5
    · exact absurd h rd_nd
    · exact absurd h rd_nd
    · neverending [actions_never] at h
      exact ⟨h.1, by simpa using c3, h.2⟩
    · exact absurd h rd_nd
    · neverending [] at h
    · cases h
  · rintro ⟨h0, c, h⟩
    refine ⟨by omega, ?_⟩
    simp only [List.mem_cons, List.not_mem_nil, or_false] at c
    unfold parseInstrOf
    rw [if_neg (by omega), if_neg (by omega), if_pos c]
    neverending [actions_never]
    exact ⟨h0, h⟩

theorem instrs_never (m : Bytes) (limit o : Nat) : listFetch (parseInstr m) limit o = .error .diverges ↔ InstrsNever m limit o :=
  listFetch_never (instr_iff m) (instr_never m) limit o

theorem bucket_never (m : Bytes) (o : Nat) : parseBucket m o = .error .diverges ↔ BucketNever m o := by
  neverending [parseBucket, actions_never, BucketNever]

theorem flowStats_never (m : Bytes) (o : Nat) : parseFlowStats m o = .error .diverges ↔ FlowStatsNever m o := by
  neverending [parseFlowStats, flowStatsFmt, instrs_never, FlowStatsNever]

theorem groupDesc_never (m : Bytes) (o : Nat) : parseGroupDesc m o = .error .diverges ↔ GroupDescNever m o := by
  neverending [parseGroupDesc, listFetch_never (bucket_iff m) (bucket_never m), GroupDescNever, BucketsNever]

theorem meterConfig_never (m : Bytes) (o : Nat) : parseMeterConfig m o = .error .diverges ↔ MeterConfigNever m o := by
  neverending [parseMeterConfig, listFetch_never (band_iff m) (fun _ => iff_false_intro band_nd), MeterConfigNever, BandsNever]

theorem reply_never (m : Bytes) (t limit o : Nat) : parseRepBody t m limit o = .error .diverges ↔
    (t = 1 ∧ Endless (FlowStatsAt m) (FlowStatsNever m) limit o) ∨ (t = 7 ∧ Endless (GroupDescAt m) (GroupDescNever m) limit o) ∨
    (t = 10 ∧ Endless (MeterConfigAt m) (MeterConfigNever m) limit o) := by
  have hs : ∀ r, several r = .error .diverges ↔ r = .error .diverges := by
    intro r; neverending [several]
  constructor
  · intro h
    rcases repBody_stuck h with ⟨rfl | rfl, -⟩ | ⟨rfl, -⟩
    · exact .inl ⟨rfl, (listFetch_never (flowStats_iff m) (flowStats_never m) _ _).1 ((hs _).1 h)⟩
    · exact .inr (.inl ⟨rfl, (listFetch_never (groupDesc_iff m) (groupDesc_never m) _ _).1 ((hs _).1 h)⟩)
    · exact .inr (.inr ⟨rfl, (listFetch_never (meterConfig_iff m) (meterConfig_never m) _ _).1 ((hs _).1 h)⟩)
  · rintro (⟨rfl, h⟩ | ⟨rfl, h⟩ | ⟨rfl, h⟩)
    · exact (hs _).2 ((listFetch_never (flowStats_iff m) (flowStats_never m) _ _).2 h)
    · exact (hs _).2 ((listFetch_never (groupDesc_iff m) (groupDesc_never m) _ _).2 h)
    · exact (hs _).2 ((listFetch_never (meterConfig_iff m) (meterConfig_never m) _ _).2 h)

theorem packetOut_never (m : Bytes) (o : Nat) : parsePacketOut m o = .error .diverges ↔
    o + 8 ≤ m.length ∧ u8 m o = 4 ∧ o + 24 ≤ m.length ∧ ActionsNever m (o + 24 + u16 m (o + 16)) (o + 24) := by
  neverending [parsePacketOut, actions_never]
  rw [show o + (8 + (16 + u16 m (o + 16))) = o + (24 + u16 m (o + 16)) by omega]

theorem flowMod_never (m : Bytes) (o : Nat) : parseFlowMod m o = .error .diverges ↔
    o + 8 ≤ m.length ∧ u8 m o = 4 ∧ o + 48 ≤ m.length ∧ ∃ mt e, MatchAt m (o + 48) mt e ∧ InstrsNever m (msgEnd m o) e := by
  neverending [parseFlowMod, flowModFmt, instrs_never]

theorem groupMod_never (m : Bytes) (o : Nat) : parseGroupMod m o = .error .diverges ↔
    o + 8 ≤ m.length ∧ u8 m o = 4 ∧ o + 16 ≤ m.length ∧ BucketsNever m (msgEnd m o) (o + 16) := by
  neverending [parseGroupMod, whileFetch_never (bucket_iff m) (bucket_never m), BucketsNever]

theorem meterMod_never (m : Bytes) (o : Nat) : parseMeterMod m o = .error .diverges ↔
    o + 8 ≤ m.length ∧ u8 m o = 4 ∧ o + 16 ≤ m.length ∧ BandsNever m (msgEnd m o) (o + 16) := by
  neverending [parseMeterMod, whileFetch_never (band_iff m) (fun _ => iff_false_intro band_nd), BandsNever]

theorem mpReply_never (m : Bytes) (o : Nat) : parseMpReply m o = .error .diverges ↔
    o + 8 ≤ m.length ∧ u8 m o = 4 ∧ o + 16 ≤ m.length ∧ parseRepBody (u16 m (o + 8)) m (msgEnd m o) (o + 16) = .error .diverges := by
  neverending [parseMpReply]

/-- The parser does not end for these messages, and for no others. -/
theorem parse_never (m : Bytes) (o : Nat) : parse m o = .error .diverges ↔ MsgNever m o := by
  constructor
  · intro h
    have hd := h
    rw [parse, bind_never] at hd
    obtain hd | ⟨⟨hd, e⟩, h1, h2⟩ := hd
    · exact absurd hd hdr_nd
    rw [hdr_iff] at h1
    obtain ⟨h0, hv, rfl, rfl⟩ := h1
    simp only [hdr_type] at h2
    have ht : u8 m (o + 1) ∈ [13, 14, 15, 29, 19] := by
      rcases parse_stuck h with ⟨h | h, -⟩ | ⟨h | h, -⟩
      · simp at h ⊢; omega
      · simp [h.1]
      · simp [h]
      · simp [h.1]
    simp only [List.mem_cons, List.not_mem_nil, or_false] at ht
    rcases ht with ht | ht | ht | ht | ht <;> rw [ht] at h2
    · obtain ⟨-, -, h3, h4⟩ := (packetOut_never m o).1 h2
      exact .packetOut ⟨h0, h3, hv, ht⟩ h4
    · obtain ⟨-, -, h3, mt, e, h4, h5⟩ := (flowMod_never m o).1 h2
      exact .flowMod ⟨h0, h3, hv, ht⟩ h4 h5
    · obtain ⟨-, -, h3, h4⟩ := (groupMod_never m o).1 h2
      exact .groupMod ⟨h0, h3, hv, ht⟩ h4
    · obtain ⟨-, -, h3, h4⟩ := (meterMod_never m o).1 h2
      exact .meterMod ⟨h0, h3, hv, ht⟩ h4
    · obtain ⟨-, -, h3, h4⟩ := (mpReply_never m o).1 h2
      rcases (reply_never ..).1 h4 with ⟨h5, h6⟩ | ⟨h5, h6⟩ | ⟨h5, h6⟩
      · exact .flowStats ⟨h0, h3, hv, ht⟩ h5 h6
      · exact .groupDesc ⟨h0, h3, hv, ht⟩ h5 h6
      · exact .meterConfig ⟨h0, h3, hv, ht⟩ h5 h6
  · intro h
    cases h with
    | packetOut h h1 => rw [parse_eq h]; exact (packetOut_never m o).2 ⟨h.1, h.2.2.1, h.2.1, h1⟩
    | flowMod h h1 h2 => rw [parse_eq h]; exact (flowMod_never m o).2 ⟨h.1, h.2.2.1, h.2.1, _, _, h1, h2⟩
    | groupMod h h1 => rw [parse_eq h]; exact (groupMod_never m o).2 ⟨h.1, h.2.2.1, h.2.1, h1⟩
    | meterMod h h1 => rw [parse_eq h]; exact (meterMod_never m o).2 ⟨h.1, h.2.2.1, h.2.1, h1⟩
    | flowStats h c h1 => rw [parse_eq h]; exact (mpReply_never m o).2 ⟨h.1, h.2.2.1, h.2.1, (reply_never ..).2 (.inl ⟨c, h1⟩)⟩
    | groupDesc h c h1 => rw [parse_eq h]; exact (mpReply_never m o).2 ⟨h.1, h.2.2.1, h.2.1, (reply_never ..).2 (.inr (.inl ⟨c, h1⟩))⟩
    | meterConfig h c h1 => rw [parse_eq h]; exact (mpReply_never m o).2 ⟨h.1, h.2.2.1, h.2.1, (reply_never ..).2 (.inr (.inr ⟨c, h1⟩))⟩

end Twink.Of13.Reads
