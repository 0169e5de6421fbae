import Verif.Proof.Reads
import Verif.Spec.Of13Reads

/-! The OpenFlow 1.3 parser against `Spec/Of13Reads`. -/

namespace Twink.Of13.Reads
open Fmt Spec Twink.Reads Of13

/-- Simplifies what is known of a successful parser. -/
macro "reading" "[" ls:Lean.Parser.Tactic.simpLemma,* "]" loc:(Lean.Parser.Tactic.location)? : tactic => `(tactic|
  simp only [bind_ok, rd_iff, vals, two, three, four, five, Option.some.injEq, calcsize, Item.width, ok_inj, Prod.exists, Prod.mk.injEq,
    pyAssert_ok, Nat.add_assoc, Nat.reduceAdd, part_slice, up8_align, B, H, I, Q, S, X, exists_eq_left', exists_eq_left, exists_eq_right, exists_eq_right', and_assoc, exists_and_left, exists_and_right, exists_const, $ls,*] $[$loc]?)

theorem match_iff (m : Bytes) (o : Nat) (a : MatchT) (e : Nat) : parseMatch m o = .ok (a, e) ↔ MatchAt m o a e := by
  reading [parseMatch]
  constructor
  · rintro ⟨h, rfl, rfl⟩; exact .mk h
  · rintro ⟨h⟩; exact ⟨h, rfl, rfl⟩

theorem action_iff (m : Bytes) (o : Nat) (a : Action) (e : Nat) : parseAction m o = .ok (a, e) ↔ ActionAt m o a e := by
  reading [parseAction]
  constructor
  · rintro ⟨h, h2⟩
    unfold parseActionOf at h2
    split_ifs at h2 with c1 c2 c3 c4 c5 c6 c7 c8 c9
    all_goals reading [] at h2; obtain ⟨h3, rfl, rfl⟩ := h2
    · rw [c1]; exact .output h3 c1
    · rw [c2]; exact .group h3 c2
    · rw [c3]; exact .setQueue h3 c3
    · rw [c5]; exact .nwTtl h3 c5
    · exact .push h3 (by simpa using c6)
    · rw [c7]; exact .popMpls h3 c7
    · rw [c8]; exact .setField h c8
    · rw [c9]; exact .experimenter h c9
    · exact .plain h (by simp; omega)
  · intro h
    cases h with
    | push h c =>
      refine ⟨by omega, ?_⟩
      simp only [List.mem_cons, List.not_mem_nil, or_false] at c
      unfold parseActionOf
      rw [if_neg (by omega), if_neg (by omega), if_neg (by omega), if_neg (by omega), if_neg (by omega), if_pos c]
      reading []; simp [h]
    | plain h c =>
      refine ⟨by omega, ?_⟩
      simp only [List.mem_cons, List.not_mem_nil, or_false, not_or] at c
      unfold parseActionOf
      rw [if_neg (by omega), if_neg (by omega), if_neg (by omega), if_neg (by omega), if_neg (by omega), if_neg (by omega), if_neg (by omega),
        if_neg (by omega), if_neg (by omega)]
      reading []; simp [h]
    | _ h c => refine ⟨by omega, ?_⟩; rw [c]; simp only [parseActionOf, Nat.reduceEqDiff, or_self, ↓reduceIte]; reading []; simp [h, c] <;> omega

theorem actions_iff (m : Bytes) (limit o : Nat) (l : List Action) (e : Nat) :
    whileFetch (parseAction m) limit o = .ok (l, e) ↔ Row (ActionAt m) limit o l e := whileFetch_iff (action_iff m) limit o l e

theorem instr_iff (m : Bytes) (o : Nat) (a : Instr) (e : Nat) : parseInstr m o = .ok (a, e) ↔ InstrAt m o a e := by
  reading [parseInstr]
  constructor
  · rintro ⟨h, h2⟩
    unfold parseInstrOf at h2
    split_ifs at h2 with c1 c2 c3 c4 c5
    · reading [] at h2; obtain ⟨h3, rfl, rfl⟩ := h2; rw [c1]; exact .gotoTable h3 c1
    · reading [] at h2; obtain ⟨h3, rfl, rfl⟩ := h2; rw [c2]; exact .writeMetadata h3 c2
    · reading [actions_iff] at h2; obtain ⟨h3, l, _, h4, rfl, rfl, rfl⟩ := h2; exact .actions h3 (by simpa using c3) h4
    · reading [] at h2; obtain ⟨h3, rfl, rfl⟩ := h2; rw [c4]; exact .meter h3 c4
    · reading [] at h2; obtain ⟨h3, rfl, rfl⟩ := h2; rw [c5]; exact .experimenter h3 c5
  · intro h
    cases h with
    | actions h c r =>
      refine ⟨by omega, ?_⟩
      simp only [List.mem_cons, List.not_mem_nil, or_false] at c
      unfold parseInstrOf
      rw [if_neg (by omega), if_neg (by omega), if_pos c]
      reading [actions_iff]
      exact ⟨h, _, _, r, rfl, rfl, rfl⟩
    | _ h c => refine ⟨by omega, ?_⟩; rw [c]; simp only [parseInstrOf, Nat.reduceEqDiff, or_self, ↓reduceIte]; reading []; simp [h, c]

theorem bucket_iff (m : Bytes) (o : Nat) (a : Bucket) (e : Nat) : parseBucket m o = .ok (a, e) ↔ BucketAt m o a e := by
  reading [parseBucket, actions_iff]
  constructor
  · rintro ⟨h, l, _, h2, rfl, rfl⟩; exact .mk h h2
  · rintro ⟨h, h2⟩; exact ⟨h, _, _, h2, rfl, rfl⟩

theorem band_iff (m : Bytes) (o : Nat) (a : Band) (e : Nat) : parseBand m o = .ok (a, e) ↔ BandAt m o a e := by
  reading [parseBand]
  constructor
  · rintro ⟨h, h2⟩
    unfold parseBandOf at h2
    split_ifs at h2 with c1 c2 c3
    all_goals reading [] at h2; obtain ⟨h3, rfl, rfl⟩ := h2
    · rw [c1]; exact .drop h3 c1
    · rw [c2]; exact .dscp h3 c2
    · rw [c3]; exact .experimenter h3 c3
  · intro h
    cases h with
    | _ h c => refine ⟨by omega, ?_⟩; rw [c]; simp only [parseBandOf, Nat.reduceEqDiff, ↓reduceIte]; reading []; simp [h, c]

theorem port_iff (m : Bytes) (o : Nat) (a : PortT) (e : Nat) : parsePort m o = .ok (a, e) ↔ PortAt m o a e := by
  reading [parsePort, portFmt, portOf, decodeName]
  constructor
  · rintro ⟨h, t, h2, rfl, rfl⟩
    split at h2
    · rename_i hu
      cases h2
      exact .mk h ((upToNul_iff _ _).2 rfl) ((utf8Ok_iff _).1 hu)
    · cases h2
  · rintro ⟨h, h1, h2⟩
    rw [upToNul_iff] at h1
    subst h1
    exact ⟨h, _, if_pos ((utf8Ok_iff _).2 h2), rfl, rfl⟩

theorem pair_iff (m : Bytes) (o : Nat) (a : Nat × Nat) (e : Nat) : parsePair m o = .ok (a, e) ↔ PairAt m o a e := by
  reading [parsePair]
  constructor
  · rintro ⟨h, h2, rfl⟩; cases h2; exact .mk h
  · rintro ⟨h⟩; exact ⟨h, rfl, rfl⟩

theorem queue_iff (m : Bytes) (o : Nat) (a : Queue) (e : Nat) : parseQueue m o = .ok (a, e) ↔ QueueAt m o a e := by
  have hf : ∀ o (a : QProp) e, (do
      let _ ← rd [Item.u 2, Item.u 2, Item.x 4] m o (two fun a b => (a, b))
      (.error .nameError : Py (QProp × Nat))) = .ok (a, e) ↔ False := by
    intro o a e; simp [bind_ok]
  reading [parseQueue, whileFetch_iff hf]
  constructor
  · rintro ⟨h, l, _, h1, rfl, rfl, rfl⟩
    cases l with
    | nil =>
      obtain ⟨-, h2⟩ := h1
      have e : u16 m (o + 8) = 16 := by omega
      rw [e]; exact .mk h e
    | cons a l => obtain ⟨-, _, h, -⟩ := h1; exact h.elim
  · rintro ⟨h, h1⟩
    exact ⟨h, [], _, by rw [h1]; exact ⟨Nat.le_refl _, rfl⟩, by omega, by rw [h1], rfl⟩

theorem calcsize_ints (n : Nat) : calcsize (List.replicate n (Item.u 4)) = 4 * n := by
  induction n with
  | zero => rfl
  | succ n ih => rw [List.replicate_succ, calcsize, ih, Item.width]; omega

theorem allInts_vals (n : Nat) (m : Bytes) (o : Nat) :
    allInts (vals (List.replicate n (Item.u 4)) m o) = some ((List.range n).map fun i => u32 m (o + 4 * i)) := by
  induction n generalizing o with
  | zero => rfl
  | succ n ih =>
    rw [List.replicate_succ, vals, allInts, ih, List.range_succ_eq_map, List.map_cons, List.map_map]
    simp only [Option.map_some, Function.comp_def, Nat.add_assoc, Nat.mul_zero, Nat.add_zero, Nat.mul_succ, Nat.add_comm 4]

theorem elem_iff (m : Bytes) (o : Nat) (a : HelloElem) (e : Nat) : parseHelloElem m o = .ok (a, e) ↔ ElemAt m o a e := by
  reading [parseHelloElem, parseVersionBitmap]
  constructor
  · rintro ⟨h, h2⟩
    split at h2
    · rename_i c
      reading [] at h2
      obtain ⟨-, -, h3⟩ := h2
      split at h3
      · cases h3
      · reading [calcsize_ints, allInts_vals] at h3
        obtain ⟨h4, rfl, rfl⟩ := h3
        rename_i c2
        have e1 : (u16 m (o + 2) - 4) / 4 = u16 m (o + 2) / 4 - 1 := by omega
        have e2 : o + (4 + (4 * ((u16 m (o + 2) - 4) / 4) + (Twink.Reads.up8 (u16 m (o + 2)) - u16 m (o + 2)))) =
          o + 4 * (u16 m (o + 2) / 4) + (Twink.Reads.up8 (u16 m (o + 2)) - u16 m (o + 2)) := by omega
        rw [e2, e1, c]
        have := ElemAt.versionBitmap (m := m) (o := o) (by omega) h c (by omega)
        simpa only [Nat.add_assoc] using this
    · cases h2
  · rintro ⟨h, h1, c, c2⟩
    refine ⟨h1, ?_⟩
    rw [if_pos c]
    reading []
    refine ⟨h1, c, ?_⟩
    rw [if_neg (by omega)]
    reading [calcsize_ints, allInts_vals]
    refine ⟨by omega, ?_, by omega⟩
    rw [c, show (u16 m (o + 2) - 4) / 4 = u16 m (o + 2) / 4 - 1 by omega]

theorem instrs_iff (m : Bytes) (limit o : Nat) (l : List Instr) (e : Nat) :
    listFetch (parseInstr m) limit o = .ok (l, e) ↔ Row (InstrAt m) limit o l e ∧ e = limit := listFetch_iff (instr_iff m) limit o l e

theorem flowStats_iff (m : Bytes) (o : Nat) (a : Rec) (e : Nat) : parseFlowStats m o = .ok (a, e) ↔ FlowStatsAt m o a e := by
  reading [parseFlowStats, flowStatsFmt, match_iff, instrs_iff]
  constructor
  · rintro ⟨h, mt, e1, h1, l, _, h2, rfl, rfl, rfl⟩; exact .mk h h1 h2
  · rintro ⟨h, h1, h2⟩; exact ⟨h, _, _, h1, _, _, h2, rfl, rfl, rfl⟩

theorem aggregate_iff (m : Bytes) (o : Nat) (a : Rec) (e : Nat) : parseAggregate m o = .ok (a, e) ↔ AggregateAt m o a e := by
  reading [parseAggregate]
  constructor
  · rintro ⟨h, rfl, rfl⟩; exact .mk h
  · rintro ⟨h⟩; exact ⟨h, rfl, rfl⟩

theorem tableStats_iff (m : Bytes) (o : Nat) (a : Rec) (e : Nat) : parseTableStats m o = .ok (a, e) ↔ TableStatsAt m o a e := by
  reading [parseTableStats]
  constructor
  · rintro ⟨h, rfl, rfl⟩; exact .mk h
  · rintro ⟨h⟩; exact ⟨h, rfl, rfl⟩

theorem portStats_iff (m : Bytes) (o : Nat) (a : Rec) (e : Nat) : parsePortStats m o = .ok (a, e) ↔ PortStatsAt m o a e := by
  reading [parsePortStats, portStatsParseFmt, portStatsOf, List.replicate, List.cons_append, List.nil_append]
  constructor
  · rintro ⟨h, rfl, rfl⟩; exact .mk h
  · rintro ⟨h⟩; exact ⟨h, rfl, rfl⟩

theorem queueStats_iff (m : Bytes) (o : Nat) (a : Rec) (e : Nat) : parseQueueStats m o = .ok (a, e) ↔ QueueStatsAt m o a e := by
  reading [parseQueueStats]
  constructor
  · rintro ⟨h, rfl, rfl⟩; exact .mk h
  · rintro ⟨h⟩; exact ⟨h, rfl, rfl⟩

theorem groupStats_iff (m : Bytes) (o : Nat) (a : Rec) (e : Nat) : parseGroupStats m o = .ok (a, e) ↔ GroupStatsAt m o a e := by
  reading [parseGroupStats, groupStatsFmt, listFetch_iff (pair_iff m)]
  constructor
  · rintro ⟨h, l, _, h2, rfl, rfl, rfl⟩; exact .mk h h2
  · rintro ⟨h, h2⟩; exact ⟨h, _, _, h2, rfl, rfl, rfl⟩

theorem groupDesc_iff (m : Bytes) (o : Nat) (a : Rec) (e : Nat) : parseGroupDesc m o = .ok (a, e) ↔ GroupDescAt m o a e := by
  reading [parseGroupDesc, listFetch_iff (bucket_iff m)]
  constructor
  · rintro ⟨h, l, _, h2, rfl, rfl, rfl⟩; exact .mk h h2
  · rintro ⟨h, h2⟩; exact ⟨h, _, _, h2, rfl, rfl, rfl⟩

theorem meterStats_iff (m : Bytes) (o : Nat) (a : Rec) (e : Nat) : parseMeterStats m o = .ok (a, e) ↔ MeterStatsAt m o a e := by
  reading [parseMeterStats, meterStatsFmt, listFetch_iff (pair_iff m)]
  constructor
  · rintro ⟨h, l, _, h2, rfl, rfl, rfl⟩; exact .mk h h2
  · rintro ⟨h, h2⟩; exact ⟨h, _, _, h2, rfl, rfl, rfl⟩

theorem meterConfig_iff (m : Bytes) (o : Nat) (a : Rec) (e : Nat) : parseMeterConfig m o = .ok (a, e) ↔ MeterConfigAt m o a e := by
  reading [parseMeterConfig, listFetch_iff (band_iff m)]
  constructor
  · rintro ⟨h, l, _, h2, rfl, rfl, rfl⟩; exact .mk h h2
  · rintro ⟨h, h2⟩; exact ⟨h, _, _, h2, rfl, rfl, rfl⟩

theorem portRec_iff (m : Bytes) (o : Nat) (a : Rec) (e : Nat) : parsePortRec m o = .ok (a, e) ↔ PortRecAt m o a e := by
  reading [parsePortRec, port_iff]
  constructor
  · rintro ⟨p, _, h, rfl, rfl⟩; exact .mk h
  · rintro ⟨h⟩; exact ⟨_, _, h, rfl, rfl⟩

theorem tableFeatures_iff (m : Bytes) (o : Nat) (a : Rec) (e : Nat) : parseTableFeatures m o = .ok (a, e) ↔ False := by
  simp [parseTableFeatures, bind_ok]

/-! ### bodies -/

theorem several_iff {fetch : Nat → Py (Rec × Nat)} {At : Nat → Rec → Nat → Prop} (hf : ∀ o a e, fetch o = .ok (a, e) ↔ At o a e)
    (limit o : Nat) (b : Body) : several (listFetch fetch limit o) = .ok b ↔ Records At limit o b := by
  reading [several, listFetch_iff hf, Records]
  constructor
  · rintro ⟨l, _, h, rfl, rfl⟩; exact ⟨l, h, rfl⟩
  · rintro ⟨l, h, rfl⟩; exact ⟨l, _, h, rfl, rfl⟩

theorem single_iff (r : Py (Rec × Nat)) (b : Body) : single r = .ok b ↔ ∃ a e, r = .ok (a, e) ∧ b = .one a := by
  unfold single
  rw [bind_ok]
  constructor
  · rintro ⟨⟨a, e⟩, h1, h2⟩; cases h2; exact ⟨a, e, h1, rfl⟩
  · rintro ⟨a, e, h1, rfl⟩; exact ⟨_, h1, rfl⟩

theorem flowReq_iff (m : Bytes) (o : Nat) (a : Rec) (e : Nat) : parseFlowStatsReq m o = .ok (a, e) ↔ o + 32 ≤ m.length ∧ ∃ mt,
    MatchAt m (o + 32) mt e ∧ a = .flowStatsReq (some (u8 m o)) (some (u32 m (o + 4))) (some (u32 m (o + 8))) (some (u64 m (o + 16)))
      (some (u64 m (o + 24))) (some (.tup mt)) := by
  reading [parseFlowStatsReq, flowStatsReqFmt, match_iff]
  constructor
  · rintro ⟨h, mt, _, h2, rfl, rfl⟩; exact ⟨h, mt, h2, rfl⟩
  · rintro ⟨h, mt, h2, rfl⟩; exact ⟨h, mt, _, h2, rfl, rfl⟩

theorem aggregateReq_iff (m : Bytes) (o : Nat) (a : Rec) (e : Nat) : parseAggregateReq m o = .ok (a, e) ↔ o + 32 ≤ m.length ∧ ∃ mt,
    MatchAt m (o + 32) mt e ∧ a = .aggregateReq (some (u8 m o)) (some (u32 m (o + 4))) (some (u32 m (o + 8))) (some (u64 m (o + 16)))
      (some (u64 m (o + 24))) (some (.tup mt)) := by
  reading [parseAggregateReq, flowStatsReqFmt, match_iff]
  constructor
  · rintro ⟨h, mt, _, h2, rfl, rfl⟩; exact ⟨h, mt, h2, rfl⟩
  · rintro ⟨h, mt, h2, rfl⟩; exact ⟨h, mt, _, h2, rfl, rfl⟩

theorem request_iff (m : Bytes) (t limit o : Nat) (b : Body) : parseReqBody t m limit o = .ok b ↔ RequestAt m limit o t b := by
  constructor
  · intro h
    unfold parseReqBody at h
    split_ifs at h with c1 c2 c3 c4 c5 c6 c7 c8 c9
    · reading [] at h; subst h; exact .nothing c1
    · subst c2; obtain ⟨_, e, h', rfl⟩ := (single_iff _ _).1 h; obtain ⟨h1, mt, h2, rfl⟩ := (flowReq_iff ..).1 h'; exact .flow h1 h2
    · subst c3; obtain ⟨_, e, h', rfl⟩ := (single_iff _ _).1 h; obtain ⟨h1, mt, h2, rfl⟩ := (aggregateReq_iff ..).1 h'; exact .aggregate h1 h2
    · reading [single, parsePortStatsReq] at h; subst c4; obtain ⟨h1, rfl⟩ := h; exact .port h1
    · reading [single, parseQueueStatsReq] at h; subst c5; obtain ⟨h1, rfl⟩ := h; exact .queue h1
    · reading [single, parseGroupStatsReq] at h; subst c6; obtain ⟨h1, rfl⟩ := h; exact .group h1
    · reading [single, parseMeterReq] at h; obtain ⟨h1, rfl⟩ := h; exact .meter c7 h1
    · reading [several, whileFetch_iff (tableFeatures_iff m)] at h
      subst c8
      obtain ⟨l, ⟨e, h1⟩, rfl⟩ := h
      cases l with
      | nil => exact .tables h1.1
      | cons a l => obtain ⟨-, _, h, -⟩ := h1; exact h.elim
    · reading [] at h; subst h c9; exact .experimenter
  · intro h
    cases h with
    | nothing c => rw [parseReqBody, if_pos c]
    | flow h1 h2 => exact (single_iff (parseFlowStatsReq m o) _).2 ⟨_, _, (flowReq_iff ..).2 ⟨h1, _, h2, rfl⟩, rfl⟩
    | aggregate h1 h2 => exact (single_iff (parseAggregateReq m o) _).2 ⟨_, _, (aggregateReq_iff ..).2 ⟨h1, _, h2, rfl⟩, rfl⟩
    | port h1 => show single (parsePortStatsReq m o) = _; reading [single, parsePortStatsReq]; simp [h1]
    | queue h1 => show single (parseQueueStatsReq m o) = _; reading [single, parseQueueStatsReq]; simp [h1]
    | group h1 => show single (parseGroupStatsReq m o) = _; reading [single, parseGroupStatsReq]; simp [h1]
    | meter c h1 =>
      have e : parseReqBody t m limit o = single (parseMeterReq m o) := by rcases c with rfl | rfl <;> rfl
      rw [e]; reading [single, parseMeterReq]; simp [h1]
    | tables h =>
      show several (whileFetch (parseTableFeatures m) limit o) = _
      reading [several, whileFetch_iff (tableFeatures_iff m)]
      exact ⟨[], ⟨_, h, rfl⟩, rfl⟩
    | experimenter => show Except.ok _ = _; rw [part_slice]

theorem reply_iff (m : Bytes) (t limit o : Nat) (b : Body) : parseRepBody t m limit o = .ok b ↔ ReplyAt m limit o t b := by
  constructor
  · intro h
    unfold parseRepBody at h
    by_cases c0 : t = 0
    · rw [if_pos c0] at h
      reading [single, parseDesc] at h; subst c0; obtain ⟨h1, rfl⟩ := h; exact .desc h1
    rw [if_neg c0] at h
    by_cases c1 : t = 1
    · rw [if_pos c1] at h
      subst c1; exact .flow ((several_iff (flowStats_iff m) _ _ _).1 h)
    rw [if_neg c1] at h
    by_cases c2 : t = 2
    · rw [if_pos c2] at h
      subst c2; exact .aggregate ((several_iff (aggregate_iff m) _ _ _).1 h)
    rw [if_neg c2] at h
    by_cases c3 : t = 3
    · rw [if_pos c3] at h
      subst c3; exact .table ((several_iff (tableStats_iff m) _ _ _).1 h)
    rw [if_neg c3] at h
    by_cases c4 : t = 4
    · rw [if_pos c4] at h
      subst c4; exact .port ((several_iff (portStats_iff m) _ _ _).1 h)
    rw [if_neg c4] at h
    by_cases c5 : t = 5
    · rw [if_pos c5] at h
      subst c5; exact .queue ((several_iff (queueStats_iff m) _ _ _).1 h)
    rw [if_neg c5] at h
    by_cases c6 : t = 6
    · rw [if_pos c6] at h
      subst c6; exact .group ((several_iff (groupStats_iff m) _ _ _).1 h)
    rw [if_neg c6] at h
    by_cases c7 : t = 7
    · rw [if_pos c7] at h
      subst c7; exact .groupDesc ((several_iff (groupDesc_iff m) _ _ _).1 h)
    rw [if_neg c7] at h
    by_cases c8 : t = 8
    · rw [if_pos c8] at h
      reading [single, parseGroupFeatures, fourList] at h; subst c8; obtain ⟨-, -, h1, rfl⟩ := h; exact .groupFeatures h1
    rw [if_neg c8] at h
    by_cases c9 : t = 9
    · rw [if_pos c9] at h
      subst c9; exact .meter ((several_iff (meterStats_iff m) _ _ _).1 h)
    rw [if_neg c9] at h
    by_cases c10 : t = 10
    · rw [if_pos c10] at h
      subst c10; exact .meterConfig ((several_iff (meterConfig_iff m) _ _ _).1 h)
    rw [if_neg c10] at h
    by_cases c11 : t = 11
    · rw [if_pos c11] at h
      reading [single, parseMeterFeatures] at h; subst c11; obtain ⟨h1, rfl⟩ := h; exact .meterFeatures h1
    rw [if_neg c11] at h
    by_cases c12 : t = 12
    · rw [if_pos c12] at h
      subst c12
      obtain ⟨l, h1, rfl⟩ := (several_iff (tableFeatures_iff m) _ _ _).1 h
      cases l with
      | nil => exact .tables h1.2.symm
      | cons a l => obtain ⟨-, _, h, -⟩ := h1; exact h.elim
    rw [if_neg c12] at h
    by_cases c13 : t = 13
    · rw [if_pos c13] at h
      subst c13; exact .ports ((several_iff (portRec_iff m) _ _ _).1 h)
    rw [if_neg c13] at h
    by_cases c14 : t = 65535
    · rw [if_pos c14] at h
      reading [single, parseExperimenterMp] at h; subst c14; obtain ⟨h1, rfl⟩ := h; exact .experimenter h1
    rw [if_neg c14] at h
    cases h
  · intro h
    cases h with
    | desc h1 => show single (parseDesc m o) = _; reading [single, parseDesc]; simp [h1]
    | flow h => exact (several_iff (flowStats_iff m) _ _ _).2 h
    | aggregate h => exact (several_iff (aggregate_iff m) _ _ _).2 h
    | table h => exact (several_iff (tableStats_iff m) _ _ _).2 h
    | port h => exact (several_iff (portStats_iff m) _ _ _).2 h
    | queue h => exact (several_iff (queueStats_iff m) _ _ _).2 h
    | group h => exact (several_iff (groupStats_iff m) _ _ _).2 h
    | groupDesc h => exact (several_iff (groupDesc_iff m) _ _ _).2 h
    | groupFeatures h1 =>
      show single (parseGroupFeatures m o) = _; reading [single, parseGroupFeatures, fourList]; simp [h1]; omega
    | meter h => exact (several_iff (meterStats_iff m) _ _ _).2 h
    | meterConfig h => exact (several_iff (meterConfig_iff m) _ _ _).2 h
    | meterFeatures h1 => show single (parseMeterFeatures m o) = _; reading [single, parseMeterFeatures]; simp [h1]
    | tables h => exact (several_iff (tableFeatures_iff m) _ _ _).2 ⟨[], ⟨by omega, h.symm⟩, rfl⟩
    | ports h => exact (several_iff (portRec_iff m) _ _ _).2 h
    | experimenter h1 => show single (parseExperimenterMp limit m o) = _; reading [single, parseExperimenterMp]; simp [h1]

/-! ### messages -/

theorem hdr_iff (m : Bytes) (o : Nat) (h : Hdr) (e : Nat) :
    parseHdr m o = .ok (h, e) ↔ o + 8 ≤ m.length ∧ u8 m o = 4 ∧ h = hdrAt m o ∧ e = o + 8 := by
  rw [parseHdr, bind_ok]
  constructor
  · rintro ⟨⟨h', e'⟩, h1, h2⟩
    reading [hdrFmt] at h1 h2
    obtain ⟨h3, rfl, rfl⟩ := h1
    obtain ⟨h4, rfl, rfl⟩ := h2
    exact ⟨h3, h4, rfl, rfl⟩
  · rintro ⟨h1, h2, rfl, rfl⟩
    refine ⟨(hdrAt m o, o + 8), ?_, ?_⟩
    · reading [hdrFmt, hdrAt]; simp [h1]
    · rw [show pyAssert ((hdrAt m o).version = 4) = .ok () from pyAssert_true h2]; rfl

theorem hdr_type (m : Bytes) (o : Nat) : (hdrAt m o).type = u8 m (o + 1) := rfl
theorem hdr_length (m : Bytes) (o : Nat) : o + (hdrAt m o).length = msgEnd m o := rfl

theorem hello_fwd {m : Bytes} {o : Nat} {r : Msg} (ht : u8 m (o + 1) = 0) (h : parseHello m o = .ok r) : MsgAt m o r := by
  reading [parseHello, hdr_iff, hdr_length, whileFetch_iff (elem_iff m)] at h
  obtain ⟨h0, hv, l, _, h1, rfl, rfl⟩ := h
  exact .hello ⟨h0, h0, hv, ht⟩ h1

theorem error_fwd {m : Bytes} {o : Nat} {r : Msg} (ht : u8 m (o + 1) = 1) (h : parseError m o = .ok r) : MsgAt m o r := by
  reading [parseError, hdr_iff, hdr_length] at h
  obtain ⟨h0, hv, h1, rfl⟩ := h
  exact .error ⟨h0, h1, hv, ht⟩

theorem features_fwd {m : Bytes} {o : Nat} {r : Msg} (ht : u8 m (o + 1) = 6) (h : parseFeatures m o = .ok r) : MsgAt m o r := by
  reading [parseFeatures, hdr_iff, hdr_length] at h
  obtain ⟨h0, hv, h1, rfl⟩ := h
  exact .features ⟨h0, h1, hv, ht⟩

theorem config_fwd {m : Bytes} {o : Nat} {r : Msg} (ht : u8 m (o + 1) = 9 ∨ u8 m (o + 1) = 8) (h : parseConfig m o = .ok r) : MsgAt m o r := by
  reading [parseConfig, hdr_iff, hdr_length] at h
  obtain ⟨h0, hv, h1, rfl⟩ := h
  exact .config ht.symm ⟨h0, h1, hv, rfl⟩

theorem packetIn_fwd {m : Bytes} {o : Nat} {r : Msg} (ht : u8 m (o + 1) = 10) (h : parsePacketIn m o = .ok r) : MsgAt m o r := by
  reading [parsePacketIn, hdr_iff, hdr_length, match_iff] at h
  obtain ⟨h0, hv, h1, mt, e, h2, h3, -, rfl⟩ := h
  exact .packetIn ⟨h0, h1, hv, ht⟩ h2 h3

theorem flowRemoved_fwd {m : Bytes} {o : Nat} {r : Msg} (ht : u8 m (o + 1) = 11) (h : parseFlowRemoved m o = .ok r) : MsgAt m o r := by
  reading [parseFlowRemoved, hdr_iff, hdr_length, flowRemovedFmt, match_iff] at h
  obtain ⟨h0, hv, h1, mt, ⟨e, h2⟩, rfl⟩ := h
  exact .flowRemoved ⟨h0, h1, hv, ht⟩ h2

theorem portStatus_fwd {m : Bytes} {o : Nat} {r : Msg} (ht : u8 m (o + 1) = 12) (h : parsePortStatus m o = .ok r) : MsgAt m o r := by
  reading [parsePortStatus, hdr_iff, hdr_length, port_iff] at h
  obtain ⟨h0, hv, h1, mt, ⟨e, h2⟩, rfl⟩ := h
  exact .portStatus ⟨h0, h1, hv, ht⟩ h2

theorem packetOut_fwd {m : Bytes} {o : Nat} {r : Msg} (ht : u8 m (o + 1) = 13) (h : parsePacketOut m o = .ok r) : MsgAt m o r := by
  reading [parsePacketOut, hdr_iff, hdr_length, actions_iff] at h
  obtain ⟨h0, hv, h1, l, e, h2, rfl⟩ := h
  exact .packetOut ⟨h0, h1, hv, ht⟩ (by rw [show o + 24 + u16 m (o + 16) = o + (8 + (16 + u16 m (o + 16))) by omega]; exact h2)

theorem flowMod_fwd {m : Bytes} {o : Nat} {r : Msg} (ht : u8 m (o + 1) = 14) (h : parseFlowMod m o = .ok r) : MsgAt m o r := by
  reading [parseFlowMod, hdr_iff, hdr_length, flowModFmt, match_iff, instrs_iff] at h
  obtain ⟨h0, hv, h1, mt, e, h2, l, _, h3, rfl, rfl⟩ := h
  exact .flowMod ⟨h0, h1, hv, ht⟩ h2 h3

theorem groupMod_fwd {m : Bytes} {o : Nat} {r : Msg} (ht : u8 m (o + 1) = 15) (h : parseGroupMod m o = .ok r) : MsgAt m o r := by
  reading [parseGroupMod, hdr_iff, hdr_length, whileFetch_iff (bucket_iff m)] at h
  obtain ⟨h0, hv, h1, l, ⟨e, h2⟩, rfl⟩ := h
  exact .groupMod ⟨h0, h1, hv, ht⟩ h2

theorem portMod_none (m : Bytes) (o : Nat) (r : Msg) : parsePortMod m o ≠ .ok r := by
  intro h
  reading [parsePortMod, hdr_iff, portModFmt] at h
  simp at h

theorem tableMod_fwd {m : Bytes} {o : Nat} {r : Msg} (ht : u8 m (o + 1) = 17) (h : parseTableMod m o = .ok r) : MsgAt m o r := by
  reading [parseTableMod, hdr_iff, hdr_length] at h
  obtain ⟨h0, hv, h1, rfl⟩ := h
  exact .tableMod ⟨h0, h1, hv, ht⟩

theorem mpRequest_fwd {m : Bytes} {o : Nat} {r : Msg} (ht : u8 m (o + 1) = 18) (h : parseMpRequest m o = .ok r) : MsgAt m o r := by
  reading [parseMpRequest, hdr_iff, hdr_length, request_iff] at h
  obtain ⟨h0, hv, h1, b, h2, rfl⟩ := h
  exact .mpRequest ⟨h0, h1, hv, ht⟩ h2

theorem mpReply_fwd {m : Bytes} {o : Nat} {r : Msg} (ht : u8 m (o + 1) = 19) (h : parseMpReply m o = .ok r) : MsgAt m o r := by
  reading [parseMpReply, hdr_iff, hdr_length, reply_iff] at h
  obtain ⟨h0, hv, h1, b, h2, rfl⟩ := h
  exact .mpReply ⟨h0, h1, hv, ht⟩ h2

theorem experimenter_none (m : Bytes) (o : Nat) (r : Msg) : parseExperimenter m o ≠ .ok r := by
  intro h
  reading [parseExperimenter, hdr_iff] at h
  simp at h

theorem queueReq_fwd {m : Bytes} {o : Nat} {r : Msg} (ht : u8 m (o + 1) = 22) (h : parseQueueReq m o = .ok r) : MsgAt m o r := by
  reading [parseQueueReq, hdr_iff, hdr_length] at h
  obtain ⟨h0, hv, h1, rfl⟩ := h
  exact .queueReq ⟨h0, h1, hv, ht⟩

theorem queueRep_fwd {m : Bytes} {o : Nat} {r : Msg} (ht : u8 m (o + 1) = 23) (h : parseQueueRep m o = .ok r) : MsgAt m o r := by
  reading [parseQueueRep, hdr_iff, hdr_length, listFetch_iff (queue_iff m)] at h
  obtain ⟨h0, hv, h1, l, _, h2, rfl, rfl⟩ := h
  exact .queueRep ⟨h0, h1, hv, ht⟩ h2

theorem role_fwd {m : Bytes} {o : Nat} {r : Msg} (ht : u8 m (o + 1) = 24) (h : parseRole m o = .ok r) : MsgAt m o r := by
  reading [parseRole, hdr_iff, hdr_length] at h
  obtain ⟨h0, hv, h1, rfl⟩ := h
  exact .role ⟨h0, h1, hv, ht⟩

theorem async_fwd {m : Bytes} {o : Nat} {r : Msg} (ht : u8 m (o + 1) = 28 ∨ u8 m (o + 1) = 27) (h : parseAsync m o = .ok r) : MsgAt m o r := by
  reading [parseAsync, hdr_iff, hdr_length] at h
  obtain ⟨h0, hv, h1, rfl⟩ := h
  exact .async ht.symm ⟨h0, h1, hv, rfl⟩

theorem meterMod_fwd {m : Bytes} {o : Nat} {r : Msg} (ht : u8 m (o + 1) = 29) (h : parseMeterMod m o = .ok r) : MsgAt m o r := by
  reading [parseMeterMod, hdr_iff, hdr_length, whileFetch_iff (band_iff m)] at h
  obtain ⟨h0, hv, h1, l, ⟨e, h2⟩, rfl⟩ := h
  exact .meterMod ⟨h0, h1, hv, ht⟩ h2

theorem other_fwd {m : Bytes} {o : Nat} {r : Msg} (ht : u8 m (o + 1) ∉ knownTypes) (h : parseOther m o = .ok r) : MsgAt m o r := by
  reading [parseOther, hdr_iff, hdr_length] at h
  obtain ⟨h0, hv, rfl⟩ := h
  exact .other ht ⟨h0, h0, hv, rfl⟩

theorem parse_eq {m : Bytes} {o t n : Nat} (h : HeadAt m o t n) : parse m o = parseOf t m o := by
  have e : parseHdr m o = .ok (hdrAt m o, o + 8) := (hdr_iff ..).2 ⟨h.1, h.2.2.1, rfl, rfl⟩
  rw [parse, e, ok_bind]
  show parseOf (hdrAt m o).type m o = _
  rw [hdr_type, h.2.2.2]

/-- The parser returns what stands there, and nothing else. -/
theorem parse_iff (m : Bytes) (o : Nat) (r : Msg) : parse m o = .ok r ↔ MsgAt m o r := by
  constructor
  · intro h
    rw [parse, bind_ok] at h
    obtain ⟨⟨hd, e⟩, h1, h⟩ := h
    rw [hdr_iff] at h1
    obtain ⟨h0, hv, rfl, rfl⟩ := h1
    simp only [hdr_type] at h
    unfold parseOf at h
    by_cases chello : u8 m (o + 1) = 0
    · rw [if_pos chello] at h; exact hello_fwd chello h
    rw [if_neg chello] at h
    by_cases cerror : u8 m (o + 1) = 1
    · rw [if_pos cerror] at h; exact error_fwd cerror h
    rw [if_neg cerror] at h
    by_cases cfeatures : u8 m (o + 1) = 6
    · rw [if_pos cfeatures] at h; exact features_fwd cfeatures h
    rw [if_neg cfeatures] at h
    by_cases cconfig : u8 m (o + 1) = 9 ∨ u8 m (o + 1) = 8
    · rw [if_pos cconfig] at h; exact config_fwd cconfig h
    rw [if_neg cconfig] at h
    by_cases cpacketIn : u8 m (o + 1) = 10
    · rw [if_pos cpacketIn] at h; exact packetIn_fwd cpacketIn h
    rw [if_neg cpacketIn] at h
    by_cases cflowRemoved : u8 m (o + 1) = 11
    · rw [if_pos cflowRemoved] at h; exact flowRemoved_fwd cflowRemoved h
    rw [if_neg cflowRemoved] at h
    by_cases cportStatus : u8 m (o + 1) = 12
    · rw [if_pos cportStatus] at h; exact portStatus_fwd cportStatus h
    rw [if_neg cportStatus] at h
    by_cases cpacketOut : u8 m (o + 1) = 13
    · rw [if_pos cpacketOut] at h; exact packetOut_fwd cpacketOut h
    rw [if_neg cpacketOut] at h
    by_cases cflowMod : u8 m (o + 1) = 14
    · rw [if_pos cflowMod] at h; exact flowMod_fwd cflowMod h
    rw [if_neg cflowMod] at h
    by_cases cgroupMod : u8 m (o + 1) = 15
    · rw [if_pos cgroupMod] at h; exact groupMod_fwd cgroupMod h
    rw [if_neg cgroupMod] at h
    by_cases cportMod : u8 m (o + 1) = 16
    · rw [if_pos cportMod] at h; exact absurd h (portMod_none m o r)
    rw [if_neg cportMod] at h
    by_cases ctableMod : u8 m (o + 1) = 17
    · rw [if_pos ctableMod] at h; exact tableMod_fwd ctableMod h
    rw [if_neg ctableMod] at h
    by_cases cmpRequest : u8 m (o + 1) = 18
    · rw [if_pos cmpRequest] at h; exact mpRequest_fwd cmpRequest h
    rw [if_neg cmpRequest] at h
    by_cases cmpReply : u8 m (o + 1) = 19
    · rw [if_pos cmpReply] at h; exact mpReply_fwd cmpReply h
    rw [if_neg cmpReply] at h
    by_cases cexperimenter : u8 m (o + 1) = 4
    · rw [if_pos cexperimenter] at h; exact absurd h (experimenter_none m o r)
    rw [if_neg cexperimenter] at h
    by_cases cqueueReq : u8 m (o + 1) = 22
    · rw [if_pos cqueueReq] at h; exact queueReq_fwd cqueueReq h
    rw [if_neg cqueueReq] at h
    by_cases cqueueRep : u8 m (o + 1) = 23
    · rw [if_pos cqueueRep] at h; exact queueRep_fwd cqueueRep h
    rw [if_neg cqueueRep] at h
    by_cases crole : u8 m (o + 1) = 24
    · rw [if_pos crole] at h; exact role_fwd crole h
    rw [if_neg crole] at h
    by_cases casync : u8 m (o + 1) = 28 ∨ u8 m (o + 1) = 27
    · rw [if_pos casync] at h; exact async_fwd casync h
    rw [if_neg casync] at h
    by_cases cmeterMod : u8 m (o + 1) = 29
    · rw [if_pos cmeterMod] at h; exact meterMod_fwd cmeterMod h
    rw [if_neg cmeterMod] at h
    exact other_fwd (by simp [knownTypes]; omega) h
  · intro h
    cases h with
    | hello h h1 =>
      rw [parse_eq h]
      show parseHello m o = _
      reading [parseHello, hdr_iff, hdr_length, whileFetch_iff (elem_iff m)]
      exact ⟨h.1, h.2.2.1, _, _, h1, rfl, rfl⟩
    | error h =>
      rw [parse_eq h]
      show parseError m o = _
      reading [parseError, hdr_iff, hdr_length]
      exact ⟨h.1, h.2.2.1, h.2.1, trivial⟩
    | features h =>
      rw [parse_eq h]
      show parseFeatures m o = _
      reading [parseFeatures, hdr_iff, hdr_length]
      exact ⟨h.1, h.2.2.1, h.2.1, trivial⟩
    | config c h =>
      rw [parse_eq h]
      have e : ∀ t, t = 8 ∨ t = 9 → parseOf t m o = parseConfig m o := by rintro t (rfl | rfl) <;> rfl
      rw [e _ c]
      reading [parseConfig, hdr_iff, hdr_length]
      exact ⟨h.1, h.2.2.1, h.2.1, trivial⟩
    | packetIn h h2 h3 =>
      rw [parse_eq h]
      show parsePacketIn m o = _
      reading [parsePacketIn, hdr_iff, hdr_length, match_iff]
      exact ⟨h.1, h.2.2.1, h.2.1, _, _, h2, h3, trivial, rfl⟩
    | flowRemoved h h2 =>
      rw [parse_eq h]
      show parseFlowRemoved m o = _
      reading [parseFlowRemoved, hdr_iff, hdr_length, flowRemovedFmt, match_iff]
      exact ⟨h.1, h.2.2.1, h.2.1, _, ⟨_, h2⟩, rfl⟩
    | portStatus h h2 =>
      rw [parse_eq h]
      show parsePortStatus m o = _
      reading [parsePortStatus, hdr_iff, hdr_length, port_iff]
      exact ⟨h.1, h.2.2.1, h.2.1, _, ⟨_, h2⟩, rfl⟩
    | packetOut h h2 =>
      rw [parse_eq h]
      show parsePacketOut m o = _
      reading [parsePacketOut, hdr_iff, hdr_length, actions_iff]
      exact ⟨h.1, h.2.2.1, h.2.1, _, _, by rw [show o + (8 + (16 + u16 m (o + 16))) = o + 24 + u16 m (o + 16) by omega]; exact h2, rfl⟩
    | flowMod h h2 h3 =>
      rw [parse_eq h]
      show parseFlowMod m o = _
      reading [parseFlowMod, hdr_iff, hdr_length, flowModFmt, match_iff, instrs_iff]
      exact ⟨h.1, h.2.2.1, h.2.1, _, _, h2, _, _, h3, rfl, rfl⟩
    | groupMod h h2 =>
      rw [parse_eq h]
      show parseGroupMod m o = _
      reading [parseGroupMod, hdr_iff, hdr_length, whileFetch_iff (bucket_iff m)]
      exact ⟨h.1, h.2.2.1, h.2.1, _, ⟨_, h2⟩, rfl⟩
    | tableMod h =>
      rw [parse_eq h]
      show parseTableMod m o = _
      reading [parseTableMod, hdr_iff, hdr_length]
      exact ⟨h.1, h.2.2.1, h.2.1, trivial⟩
    | mpRequest h h2 =>
      rw [parse_eq h]
      show parseMpRequest m o = _
      reading [parseMpRequest, hdr_iff, hdr_length, request_iff]
      exact ⟨h.1, h.2.2.1, h.2.1, _, h2, rfl⟩
    | mpReply h h2 =>
      rw [parse_eq h]
      show parseMpReply m o = _
      reading [parseMpReply, hdr_iff, hdr_length, reply_iff]
      exact ⟨h.1, h.2.2.1, h.2.1, _, h2, rfl⟩
    | queueReq h =>
      rw [parse_eq h]
      show parseQueueReq m o = _
      reading [parseQueueReq, hdr_iff, hdr_length]
      exact ⟨h.1, h.2.2.1, h.2.1, trivial⟩
    | queueRep h h2 =>
      rw [parse_eq h]
      show parseQueueRep m o = _
      reading [parseQueueRep, hdr_iff, hdr_length, listFetch_iff (queue_iff m)]
      exact ⟨h.1, h.2.2.1, h.2.1, _, _, h2, rfl, rfl⟩
    | role h =>
      rw [parse_eq h]
      show parseRole m o = _
      reading [parseRole, hdr_iff, hdr_length]
      exact ⟨h.1, h.2.2.1, h.2.1, trivial⟩
    | async c h =>
      rw [parse_eq h]
      have e : ∀ t, t = 27 ∨ t = 28 → parseOf t m o = parseAsync m o := by rintro t (rfl | rfl) <;> rfl
      rw [e _ c]
      reading [parseAsync, hdr_iff, hdr_length]
      exact ⟨h.1, h.2.2.1, h.2.1, trivial⟩
    | meterMod h h2 =>
      rw [parse_eq h]
      show parseMeterMod m o = _
      reading [parseMeterMod, hdr_iff, hdr_length, whileFetch_iff (band_iff m)]
      exact ⟨h.1, h.2.2.1, h.2.1, _, ⟨_, h2⟩, rfl⟩
    | @other t c h =>
      rw [parse_eq h]
      have e : parseOf t m o = parseOther m o := by
        simp only [knownTypes, List.mem_cons, List.not_mem_nil, or_false, not_or] at c
        unfold parseOf
        iterate 20 rw [if_neg (by omega)]
      rw [e]
      reading [parseOther, hdr_iff, hdr_length]
      exact ⟨h.1, h.2.2.1, trivial⟩

end Twink.Of13.Reads
