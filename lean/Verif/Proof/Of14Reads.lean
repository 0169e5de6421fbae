import Verif.Proof.Of13Reads
import Verif.Proof.Of14Loop
import Verif.Spec.Of14Reads

/-! The OpenFlow 1.4 parser against `Spec/Of14Reads`. -/

namespace Twink.Of14.Reads
open Fmt Spec Twink.Reads
open Of13 (Hdr MatchT Band HelloElem tups rd bind_ok ok_inj pyAssert_ok pyAssert pyAssert_true ok_bind whileFetch listFetch fourList parsePair allInts)
open Of13.Reads (hdrAt msgEnd MatchAt BandAt ElemAt PairAt match_iff band_iff elem_iff pair_iff hdr_type hdr_length calcsize_ints allInts_vals)

theorem exp_iff {k : Option Nat → Option Nat → Nat → Nat → Option Bytes → Pr} {fill : Nat → Nat} (m : Bytes) (o : Nat) (a : Pr) (e : Nat) :
    parseExp k fill m o = .ok (a, e) ↔ o + 12 ≤ m.length ∧ a = k (some (u16 m o)) (some (u16 m (o + 2))) (u32 m (o + 4)) (u32 m (o + 8))
      (some (part m (o + 12) (o + u16 m (o + 2)))) ∧ e = o + fill (u16 m (o + 2)) := by
  reading [parseExp]
  constructor
  · rintro ⟨h, rfl, rfl⟩; exact ⟨h, rfl, rfl⟩
  · rintro ⟨h, rfl, rfl⟩; exact ⟨h, rfl, rfl⟩

theorem portProp_iff (m : Bytes) (o : Nat) (a : Pr) (e : Nat) :
    o + 4 ≤ m.length ∧ parsePortPropOf (u16 m o) m o = .ok (a, e) ↔ PortPropAt m o a e := by
  constructor
  · rintro ⟨h, h2⟩
    unfold parsePortPropOf at h2
    split_ifs at h2 with c0 c1 c2
    · reading [exp_iff, id, portEthernetFmt, portEthernetOf, portOpticalFmt, portOpticalOf] at h2; obtain ⟨h3, rfl, rfl⟩ := h2; rw [c0]; exact .ethernet h3 c0
    · reading [exp_iff, id, portEthernetFmt, portEthernetOf, portOpticalFmt, portOpticalOf] at h2; obtain ⟨h3, rfl, rfl⟩ := h2; rw [c1]; exact .optical h3 c1
    · reading [exp_iff, id, portEthernetFmt, portEthernetOf, portOpticalFmt, portOpticalOf] at h2; obtain ⟨h3, rfl, rfl⟩ := h2; rw [c2]; exact .experimenter h3 c2
  · intro h
    cases h with
    | _ h c => refine ⟨by omega, ?_⟩; rw [c]; simp only [parsePortPropOf, Nat.reduceEqDiff, ↓reduceIte]; reading [exp_iff, id, portEthernetFmt, portEthernetOf, portOpticalFmt, portOpticalOf]; simp [h, c]

theorem port_iff (m : Bytes) (o : Nat) (a : Pr) (e : Nat) : parsePort m o = .ok (a, e) ↔ PortAt m o a e := by
  reading [parsePort, portFmt]
  constructor
  · rintro ⟨h, h2⟩
    split_ifs at h2 with c
    reading [] at h2
    exact .mk h (by omega) ((portProp_iff m (o + 40) a e).1 (by simpa only [Nat.add_assoc, Nat.reduceAdd] using h2))
  · rintro ⟨h, c, h2⟩
    refine ⟨h, ?_⟩
    rw [if_pos (by omega)]
    reading []
    simpa only [Nat.add_assoc, Nat.reduceAdd] using (portProp_iff m (o + 40) a e).2 h2

theorem tableProp_iff (m : Bytes) (o : Nat) (a : Pr) (e : Nat) : parseTmProp m o = .ok (a, e) ↔ TablePropAt m o a e := by
  reading [parseTmProp]
  constructor
  · rintro ⟨h, h2⟩
    unfold parseTmPropOf at h2
    split_ifs at h2 with c0 c1 c2
    · reading [exp_iff, up8_align] at h2; obtain ⟨h3, rfl, rfl⟩ := h2; rw [c0]; exact .eviction h3 c0
    · reading [exp_iff, up8_align] at h2; obtain ⟨h3, rfl, rfl⟩ := h2; rw [c1]; exact .vacancy h3 c1
    · reading [exp_iff, up8_align] at h2; obtain ⟨h3, rfl, rfl⟩ := h2; rw [c2]; exact .experimenter h3 c2
  · intro h
    cases h with
    | _ h c => refine ⟨by omega, ?_⟩; rw [c]; simp only [parseTmPropOf, Nat.reduceEqDiff, ↓reduceIte]; reading [exp_iff, up8_align]; simp [h, c]

theorem portStatsProp_iff (m : Bytes) (o : Nat) (a : Pr) (e : Nat) : parsePsProp m o = .ok (a, e) ↔ PortStatsPropAt m o a e := by
  reading [parsePsProp]
  constructor
  · rintro ⟨h, h2⟩
    unfold parsePsPropOf at h2
    split_ifs at h2 with c0 c1 c2
    · reading [exp_iff, up8_align, psEthernetFmt, psEthernetOf, psOpticalFmt, psOpticalOf] at h2; obtain ⟨h3, rfl, rfl⟩ := h2; rw [c0]; exact .ethernet h3 c0
    · reading [exp_iff, up8_align, psEthernetFmt, psEthernetOf, psOpticalFmt, psOpticalOf] at h2; obtain ⟨h3, rfl, rfl⟩ := h2; rw [c1]; exact .optical h3 c1
    · reading [exp_iff, up8_align, psEthernetFmt, psEthernetOf, psOpticalFmt, psOpticalOf] at h2; obtain ⟨h3, rfl, rfl⟩ := h2; rw [c2]; exact .experimenter h3 c2
  · intro h
    cases h with
    | _ h c => refine ⟨by omega, ?_⟩; rw [c]; simp only [parsePsPropOf, Nat.reduceEqDiff, ↓reduceIte]; reading [exp_iff, up8_align, psEthernetFmt, psEthernetOf, psOpticalFmt, psOpticalOf]; simp [h, c]

theorem queueStatsProp_iff (m : Bytes) (o : Nat) (a : Pr) (e : Nat) : parseQsProp m o = .ok (a, e) ↔ QueueStatsPropAt m o a e := by
  reading [parseQsProp]
  constructor
  · rintro ⟨h, h2⟩
    split_ifs at h2 with c0
    · reading [exp_iff, up8_align] at h2; obtain ⟨h3, rfl, rfl⟩ := h2; rw [c0]; exact .experimenter h3 c0
  · intro h
    cases h with
    | _ h c => refine ⟨by omega, ?_⟩; rw [c]; simp only [Nat.reduceEqDiff, ↓reduceIte]; reading [exp_iff, up8_align]; simp [h, c]

theorem queueProp_iff (m : Bytes) (o : Nat) (a : Pr) (e : Nat) : parseQdProp m o = .ok (a, e) ↔ QueuePropAt m o a e := by
  reading [parseQdProp]
  constructor
  · rintro ⟨h, h2⟩
    unfold parseQdPropOf at h2
    split_ifs at h2 with c0 c1 c2
    · reading [exp_iff, up8_align] at h2; obtain ⟨h3, rfl, rfl⟩ := h2; rw [c0]; exact .minRate h3 c0
    · reading [exp_iff, up8_align] at h2; obtain ⟨h3, rfl, rfl⟩ := h2; rw [c1]; exact .maxRate h3 c1
    · reading [exp_iff, up8_align] at h2; obtain ⟨h3, rfl, rfl⟩ := h2; rw [c2]; exact .experimenter h3 c2
  · intro h
    cases h with
    | _ h c => refine ⟨by omega, ?_⟩; rw [c]; simp only [parseQdPropOf, Nat.reduceEqDiff, ↓reduceIte]; reading [exp_iff, up8_align]; simp [h, c]

theorem unsigned_i32 (m : Bytes) (o : Nat) : unsigned (u32 m o) = i32 m o := by
  unfold unsigned i32; rw [show (2 : Nat) ^ 31 = 2147483648 by decide, show (2 : Int) ^ 32 = 4294967296 by decide]

theorem portModProp_iff (m : Bytes) (o : Nat) (a : Pr) (e : Nat) : parsePmProp m o = .ok (a, e) ↔ PortModPropAt m o a e := by
  reading [parsePmProp]
  constructor
  · rintro ⟨h, h2⟩
    unfold parsePmPropOf at h2
    split_ifs at h2 with c0 c1 c2
    · reading [] at h2; obtain ⟨h3, rfl, rfl⟩ := h2; rw [c0]; exact .ethernet h3 c0
    · reading [pmOpticalFmt, pmOpticalOf, unsigned_i32] at h2; obtain ⟨h3, rfl, rfl⟩ := h2; rw [c1]; exact .optical h3 c1
    · reading [] at h2; obtain ⟨h3, rfl, rfl⟩ := h2; rw [c2]; exact .experimenter h3 c2
    · reading [] at h2; obtain ⟨rfl, rfl⟩ := h2; exact .unknown h (by simp; omega)
  · intro h
    cases h with
    | unknown h c =>
      refine ⟨h, ?_⟩
      simp only [List.mem_cons, List.not_mem_nil, or_false, not_or] at c
      rw [parsePmPropOf, if_neg c.1, if_neg c.2.1, if_neg c.2.2]
    | _ h c =>
      refine ⟨by omega, ?_⟩; rw [c]; simp only [parsePmPropOf, Nat.reduceEqDiff, ↓reduceIte]
      reading [pmOpticalFmt, pmOpticalOf, unsigned_i32]; simp [h, c]

theorem asyncProp_iff (m : Bytes) (o : Nat) (a : Pr) (e : Nat) : parseAsyncProp m o = .ok (a, e) ↔ AsyncPropAt m o a e := by
  reading [parseAsyncProp]
  constructor
  · rintro ⟨h, h2⟩
    split_ifs at h2 with c
    reading [] at h2; obtain ⟨h3, rfl, rfl⟩ := h2; exact .reasons h3 c
  · rintro ⟨h, c⟩
    refine ⟨by omega, ?_⟩
    rw [if_pos c]
    reading []; simp [h]

theorem id_iff (m : Bytes) (o : Nat) (a : IdT) (e : Nat) : parseId m o = .ok (a, e) ↔ IdAt m o a e := by
  reading [parseId]
  constructor
  · rintro ⟨h, rfl, rfl⟩; exact .mk h
  · rintro ⟨h⟩; exact ⟨h, rfl, rfl⟩

theorem calcsize_bytes (n : Nat) : calcsize (List.replicate n (Item.u 1)) = n := by
  induction n with
  | zero => rfl
  | succ n ih => rw [List.replicate_succ, calcsize, ih, Item.width]; omega

theorem allInts_bytes (n : Nat) (m : Bytes) (o : Nat) :
    allInts (vals (List.replicate n (Item.u 1)) m o) = some ((List.range n).map fun i => u8 m (o + i)) := by
  induction n generalizing o with
  | zero => rfl
  | succ n ih =>
    rw [List.replicate_succ, vals, allInts, ih, List.range_succ_eq_map, List.map_cons, List.map_map]
    simp only [Option.map_some, Function.comp_def, Nat.add_assoc, Nat.add_zero, Nat.succ_eq_add_one, Nat.add_comm 1]

theorem feature_iff (m : Bytes) (o : Nat) (a : TfProp) (e : Nat) : parseTfProp m o = .ok (a, e) ↔ FeatureAt m o a e := by
  reading [parseTfProp]
  constructor
  · rintro ⟨h, h2⟩
    unfold parseTfPropOf at h2
    split_ifs at h2 with c0 c1 c2 c3 c4
    · reading [listFetch_iff (id_iff m)] at h2
      obtain ⟨h3, l, _, h4, rfl, rfl, rfl⟩ := h2
      exact .instructions h3 (by simpa using c0) h4
    · reading [] at h2
      obtain ⟨h3, h4⟩ := h2
      split_ifs at h4 with c
      reading [calcsize_bytes, allInts_bytes] at h4
      obtain ⟨h5, rfl, rfl⟩ := h4
      have := FeatureAt.tables (m := m) (o := o) h3 (by simpa using c1) (by omega) h5
      simpa only [Nat.add_assoc] using this
    · reading [] at h2; simp at h2
    · reading [] at h2
      obtain ⟨h3, h4⟩ := h2
      split_ifs at h4 with c
      reading [calcsize_ints, allInts_vals] at h4
      obtain ⟨h5, rfl, rfl⟩ := h4
      have := FeatureAt.oxm (m := m) (o := o) h3 (by simpa using c3) (by omega) (by omega)
      have e1 : (u16 m (o + 2) - 4) / 4 = u16 m (o + 2) / 4 - 1 := by omega
      have e2 : o + (4 + (4 * ((u16 m (o + 2) - 4) / 4) + (Twink.Reads.up8 (u16 m (o + 2)) - u16 m (o + 2)))) =
          o + (4 * (u16 m (o + 2) / 4) + (Twink.Reads.up8 (u16 m (o + 2)) - u16 m (o + 2))) := by omega
      rw [e2, e1]
      simpa only [Nat.add_assoc] using this
    · reading [] at h2
      obtain ⟨h3, rfl, rfl⟩ := h2
      have := FeatureAt.experimenter (m := m) (o := o) h3 (by simpa using c4)
      simpa only [Nat.add_assoc] using this
  · intro h
    unfold parseTfPropOf
    cases h with
    | instructions h c h2 =>
      simp only [List.mem_cons, List.not_mem_nil, or_false] at c
      refine ⟨h, ?_⟩
      rw [if_pos c]
      reading [listFetch_iff (id_iff m)]
      exact ⟨h, _, _, h2, rfl, rfl, trivial⟩
    | tables h c c2 h2 =>
      simp only [List.mem_cons, List.not_mem_nil, or_false] at c
      refine ⟨h, ?_⟩
      rw [if_neg (by omega), if_pos c]
      reading []
      refine ⟨h, ?_⟩
      rw [if_neg (by omega)]
      reading [calcsize_bytes, allInts_bytes]
      simp [h2]
    | oxm h c c2 h2 =>
      simp only [List.mem_cons, List.not_mem_nil, or_false] at c
      refine ⟨h, ?_⟩
      rw [if_neg (by omega), if_neg (by omega), if_neg (by omega), if_pos c]
      reading []
      refine ⟨h, ?_⟩
      rw [if_neg (by omega)]
      reading [calcsize_ints, allInts_vals]
      refine ⟨by omega, ?_, by omega⟩
      rw [show (u16 m (o + 2) - 4) / 4 = u16 m (o + 2) / 4 - 1 by omega]
    | experimenter h c =>
      simp only [List.mem_cons, List.not_mem_nil, or_false] at c
      refine ⟨by omega, ?_⟩
      rw [if_neg (by omega), if_neg (by omega), if_neg (by omega), if_neg (by omega), if_pos c]
      reading []
      simp [h]

theorem action_iff (m : Bytes) (o : Nat) (a : Action) (e : Nat) : parseAction m o = .ok (a, e) ↔ ActionAt m o a e := by
  reading [parseAction]
  constructor
  · rintro ⟨h, h2⟩
    unfold parseActionOf at h2
    split_ifs at h2 with c1 c2 c3 c4 c5 c6 c7 c8 c9 c10
    all_goals reading [] at h2; obtain ⟨h3, rfl, rfl⟩ := h2
    · rw [c1]; exact .output h3 c1
    · rw [c2]; exact .group h3 c2
    · rw [c3]; exact .setQueue h3 c3
    · rw [c5]; exact .nwTtl h3 c5
    · exact .push h3 (by simpa using c6)
    · rw [c7]; exact .popMpls h3 c7
    · rw [c8]; exact .setField h c8
    · rw [c9]; exact .experimenter h3 c9
    · exact .plain h3 (by simp; omega)
  · intro h
    cases h with
    | push h c =>
      refine ⟨by omega, ?_⟩
      simp only [List.mem_cons, List.not_mem_nil, or_false] at c
      unfold parseActionOf
      rw [if_neg (by omega), if_neg (by omega), if_neg (by omega), if_neg (by omega), if_neg (by omega), if_pos c]
      reading []; simp [h]
    | plain h c =>
      refine ⟨by omega, ?_⟩
      simp only [List.mem_cons, List.not_mem_nil, or_false] at c
      unfold parseActionOf
      rw [if_neg (by omega), if_neg (by omega), if_neg (by omega), if_neg (by omega), if_neg (by omega), if_neg (by omega), if_neg (by omega),
        if_neg (by omega), if_neg (by omega), if_pos (by omega)]
      reading []; simp [h]
    | _ h c => refine ⟨by omega, ?_⟩; rw [c]; simp only [parseActionOf, Nat.reduceEqDiff, or_self, ↓reduceIte]; reading []; simp [h, c]

theorem actions_iff (m : Bytes) (limit o : Nat) (l : List Action) (e : Nat) :
    whileFetch (parseAction m) limit o = .ok (l, e) ↔ Row (ActionAt m) limit o l e := whileFetch_iff (action_iff m) limit o l e

theorem instr_iff (m : Bytes) (o : Nat) (a : Instr) (e : Nat) : parseInstr m o = .ok (a, e) ↔ InstrAt m o a e := by
  reading [parseInstr]
  constructor
  · rintro ⟨h, h2⟩
    unfold parseInstrOf at h2
    split_ifs at h2 with c1 c2 c3 c4 c5
    · reading [] at h2; obtain ⟨h3, rfl, rfl⟩ := h2; rw [c1]; exact .gotoTable h3 c1
    · reading [] at h2; obtain ⟨h3, rfl, rfl⟩ := h2; rw [c2]; exact .writeMetadata h3 c2
    · reading [actions_iff] at h2; obtain ⟨h3, l, _, h4, rfl, rfl, rfl⟩ := h2; exact .actions h3 (by simpa using c3) h4
    · reading [] at h2; obtain ⟨h3, rfl, rfl⟩ := h2; rw [c4]; exact .meter h3 c4
    · reading [] at h2; obtain ⟨h3, rfl, rfl⟩ := h2; rw [c5]; exact .experimenter h3 c5
  · intro h
    cases h with
    | actions h c r =>
      refine ⟨by omega, ?_⟩
      simp only [List.mem_cons, List.not_mem_nil, or_false] at c
      unfold parseInstrOf
      rw [if_neg (by omega), if_neg (by omega), if_pos c]
      reading [actions_iff]
      exact ⟨h, _, _, r, rfl, rfl, rfl⟩
    | _ h c => refine ⟨by omega, ?_⟩; rw [c]; simp only [parseInstrOf, Nat.reduceEqDiff, or_self, ↓reduceIte]; reading []; simp [h, c]

theorem instrs_iff (m : Bytes) (limit o : Nat) (l : List Instr) (e : Nat) :
    listFetch (parseInstr m) limit o = .ok (l, e) ↔ Row (InstrAt m) limit o l e ∧ e = limit := listFetch_iff (instr_iff m) limit o l e

theorem bucket_iff (m : Bytes) (o : Nat) (a : Bucket) (e : Nat) : parseBucket m o = .ok (a, e) ↔ BucketAt m o a e := by
  reading [parseBucket, actions_iff]
  constructor
  · rintro ⟨h, l, _, h2, rfl, rfl⟩; exact .mk h h2
  · rintro ⟨h, h2⟩; exact ⟨h, _, _, h2, rfl, rfl⟩

theorem flowStats_iff (m : Bytes) (o : Nat) (a : Rec) (e : Nat) : parseFlowStats m o = .ok (a, e) ↔ FlowStatsAt m o a e := by
  reading [parseFlowStats, Of13.flowStatsFmt, match_iff, instrs_iff]
  constructor
  · rintro ⟨h, mt, e1, h1, l, _, h2, rfl, rfl, rfl⟩; exact .mk h h1 h2
  · rintro ⟨h, h1, h2⟩; exact ⟨h, _, _, h1, _, _, h2, rfl, rfl, rfl⟩

theorem aggregate_iff (m : Bytes) (o : Nat) (a : Rec) (e : Nat) : parseAggregate m o = .ok (a, e) ↔ AggregateAt m o a e := by
  reading [parseAggregate]
  constructor
  · rintro ⟨h, rfl, rfl⟩; exact .mk h
  · rintro ⟨h⟩; exact ⟨h, rfl, rfl⟩

theorem tableStats_iff (m : Bytes) (o : Nat) (a : Rec) (e : Nat) : parseTableStats m o = .ok (a, e) ↔ False := by
  simp [parseTableStats, bind_ok]

theorem tableDesc_iff (m : Bytes) (o : Nat) (a : Rec) (e : Nat) : parseTableDesc m o = .ok (a, e) ↔ False := by
  simp [parseTableDesc, bind_ok]

theorem portStats_iff (m : Bytes) (o : Nat) (a : Rec) (e : Nat) : parsePortStats m o = .ok (a, e) ↔ False := by
  simp [parsePortStats, bind_ok]

theorem queueStats_iff (m : Bytes) (o : Nat) (a : Rec) (e : Nat) : parseQueueStats m o = .ok (a, e) ↔ False := by
  simp [parseQueueStats, bind_ok]

theorem tableFeatures_iff (m : Bytes) (o : Nat) (a : Rec) (e : Nat) : parseTableFeatures m o = .ok (a, e) ↔ TableFeaturesAt m o a e := by
  reading [parseTableFeatures, Of13.tableFeaturesFmt, whileFetch_iff (feature_iff m)]
  constructor
  · rintro ⟨h, l, _, h1, rfl, rfl⟩; exact .mk h ((upToNul_iff _ _).2 rfl) h1
  · rintro ⟨h, h1, h2⟩
    rw [upToNul_iff] at h1
    subst h1
    exact ⟨h, _, _, h2, rfl, rfl⟩

theorem queueDesc_iff (m : Bytes) (o : Nat) (a : Rec) (e : Nat) : parseQueueDesc m o = .ok (a, e) ↔ QueueDescAt m o a e := by
  reading [parseQueueDesc, whileFetch_iff (queueProp_iff m)]
  constructor
  · rintro ⟨h, l, _, h1, rfl, rfl⟩; exact .mk h h1
  · rintro ⟨h, h1⟩; exact ⟨h, _, _, h1, rfl, rfl⟩

theorem groupStats_iff (m : Bytes) (o : Nat) (a : Rec) (e : Nat) : parseGroupStats m o = .ok (a, e) ↔ GroupStatsAt m o a e := by
  reading [parseGroupStats, Of13.groupStatsFmt, listFetch_iff (pair_iff m)]
  constructor
  · rintro ⟨h, l, _, h1, rfl, rfl, rfl⟩; exact .mk h h1
  · rintro ⟨h, h1⟩; exact ⟨h, _, _, h1, rfl, rfl, rfl⟩

theorem groupDesc_iff (m : Bytes) (o : Nat) (a : Rec) (e : Nat) : parseGroupDesc m o = .ok (a, e) ↔ GroupDescAt m o a e := by
  reading [parseGroupDesc, listFetch_iff (bucket_iff m)]
  constructor
  · rintro ⟨h, l, _, h1, rfl, rfl, rfl⟩; exact .mk h h1
  · rintro ⟨h, h1⟩; exact ⟨h, _, _, h1, rfl, rfl, rfl⟩

theorem meterStats_iff (m : Bytes) (o : Nat) (a : Rec) (e : Nat) : parseMeterStats m o = .ok (a, e) ↔ MeterStatsAt m o a e := by
  reading [parseMeterStats, Of13.meterStatsFmt, listFetch_iff (pair_iff m)]
  constructor
  · rintro ⟨h, l, _, h1, rfl, rfl, rfl⟩; exact .mk h h1
  · rintro ⟨h, h1⟩; exact ⟨h, _, _, h1, rfl, rfl, rfl⟩

theorem meterConfig_iff (m : Bytes) (o : Nat) (a : Rec) (e : Nat) : parseMeterConfig m o = .ok (a, e) ↔ MeterConfigAt m o a e := by
  reading [parseMeterConfig, listFetch_iff (band_iff m)]
  constructor
  · rintro ⟨h, l, _, h1, rfl, rfl, rfl⟩; exact .mk h h1
  · rintro ⟨h, h1⟩; exact ⟨h, _, _, h1, rfl, rfl, rfl⟩

theorem update_iff (m : Bytes) (o : Nat) (a : Rec) (e : Nat) : parseUpdateHeader m o = .ok (a, e) ↔ UpdateAt m o a e := by
  reading [parseUpdateHeader]
  constructor
  · rintro ⟨h, rfl, rfl⟩; exact .mk h
  · rintro ⟨h⟩; exact ⟨h, rfl, rfl⟩

theorem portRec_iff (m : Bytes) (o : Nat) (a : Rec) (e : Nat) : parsePortRec m o = .ok (a, e) ↔ PortRecAt m o a e := by
  reading [parsePortRec, port_iff]
  constructor
  · rintro ⟨p, _, h, rfl, rfl⟩; exact .mk h
  · rintro ⟨h⟩; exact ⟨_, _, h, rfl, rfl⟩

/-! ### bodies -/

theorem several_iff {fetch : Nat → Py (Rec × Nat)} {At : Nat → Rec → Nat → Prop} (hf : ∀ o a e, fetch o = .ok (a, e) ↔ At o a e)
    (limit o : Nat) (b : Body) (e : Nat) : several (listFetch fetch limit o) = .ok (b, e) ↔ Records At limit o b ∧ e = limit := by
  reading [several, listFetch_iff hf, Records]
  constructor
  · rintro ⟨l, _, h, rfl, rfl, rfl⟩; exact ⟨⟨l, h, rfl⟩, rfl⟩
  · rintro ⟨⟨l, h, rfl⟩, rfl⟩; exact ⟨l, _, h, rfl, rfl, rfl⟩

theorem nothing_iff {fetch : Nat → Py (Rec × Nat)} (hf : ∀ o a e, fetch o = .ok (a, e) ↔ False)
    (limit o : Nat) (b : Body) (e : Nat) : several (listFetch fetch limit o) = .ok (b, e) ↔ o = limit ∧ b = .many [] ∧ e = limit := by
  rw [several_iff hf]
  constructor
  · rintro ⟨⟨l, h, rfl⟩, rfl⟩
    cases l with
    | nil => exact ⟨h.2.symm, rfl, rfl⟩
    | cons a l => obtain ⟨-, _, h, -⟩ := h; exact h.elim
  · rintro ⟨rfl, rfl, rfl⟩
    exact ⟨⟨[], ⟨Nat.le_refl _, rfl⟩, rfl⟩, rfl⟩

theorem single_iff (r : Py (Rec × Nat)) (b : Body) (e : Nat) : single r = .ok (b, e) ↔ ∃ a, r = .ok (a, e) ∧ b = .one a := by
  unfold single
  rw [bind_ok]
  constructor
  · rintro ⟨⟨a, e⟩, h1, h2⟩; cases h2; exact ⟨a, h1, rfl⟩
  · rintro ⟨a, h1, rfl⟩; exact ⟨_, h1, rfl⟩

theorem flowReq_iff (m : Bytes) (o : Nat) (a : Rec) (e : Nat) : parseFlowStatsReq m o = .ok (a, e) ↔ o + 32 ≤ m.length ∧ ∃ mt,
    MatchAt m (o + 32) mt e ∧ a = .flowStatsReq (some (u8 m o)) (some (u32 m (o + 4))) (some (u32 m (o + 8))) (some (u64 m (o + 16)))
      (some (u64 m (o + 24))) (some (.tup mt)) := by
  reading [parseFlowStatsReq, Of13.flowStatsReqFmt, match_iff]
  constructor
  · rintro ⟨h, mt, _, h2, rfl, rfl⟩; exact ⟨h, mt, h2, rfl⟩
  · rintro ⟨h, mt, h2, rfl⟩; exact ⟨h, mt, _, h2, rfl, rfl⟩

theorem aggregateReq_iff (m : Bytes) (o : Nat) (a : Rec) (e : Nat) : parseAggregateReq m o = .ok (a, e) ↔ o + 32 ≤ m.length ∧ ∃ mt,
    MatchAt m (o + 32) mt e ∧ a = .aggregateReq (some (u8 m o)) (some (u32 m (o + 4))) (some (u32 m (o + 8))) (some (u64 m (o + 16)))
      (some (u64 m (o + 24))) (.tup mt) := by
  reading [parseAggregateReq, Of13.flowStatsReqFmt, match_iff]
  constructor
  · rintro ⟨h, mt, _, h2, rfl, rfl⟩; exact ⟨h, mt, h2, rfl⟩
  · rintro ⟨h, mt, h2, rfl⟩; exact ⟨h, mt, _, h2, rfl, rfl⟩

theorem monitorReq_iff (m : Bytes) (o : Nat) (a : Rec) (e : Nat) : parseFlowMonitorReq m o = .ok (a, e) ↔ o + 16 ≤ m.length ∧ ∃ mt,
    MatchAt m (o + 16) mt e ∧ a = .flowMonitorReq (u32 m o) (u32 m (o + 4)) (u32 m (o + 8)) (u16 m (o + 12)) (u8 m (o + 14)) (u8 m (o + 15))
      (.tup mt) := by
  reading [parseFlowMonitorReq, match_iff]
  constructor
  · rintro ⟨h, mt, _, h2, rfl, rfl⟩; exact ⟨h, mt, h2, rfl⟩
  · rintro ⟨h, mt, h2, rfl⟩; exact ⟨h, mt, _, h2, rfl, rfl⟩

theorem request_iff (m : Bytes) (t limit o : Nat) (b : Body) (e : Nat) : parseReqBody t m limit o = .ok (b, e) ↔ RequestAt m limit o t b e := by
  constructor
  · intro h
    unfold parseReqBody at h
    by_cases c1 : t ∈ [0, 3, 7, 8, 11, 13, 14]
    · rw [if_pos c1] at h; cases h; exact .nothing c1
    rw [if_neg c1] at h
    by_cases c2 : t = 1
    · rw [if_pos c2] at h
      subst c2; obtain ⟨_, h', rfl⟩ := (single_iff _ _ _).1 h; obtain ⟨h1, mt, h2, rfl⟩ := (flowReq_iff ..).1 h'; exact .flow h1 h2
    rw [if_neg c2] at h
    by_cases c3 : t = 2
    · rw [if_pos c3] at h
      subst c3; obtain ⟨_, h', rfl⟩ := (single_iff _ _ _).1 h; obtain ⟨h1, mt, h2, rfl⟩ := (aggregateReq_iff ..).1 h'; exact .aggregate h1 h2
    rw [if_neg c3] at h
    by_cases c4 : t = 4
    · rw [if_pos c4] at h
      subst c4; reading [single, parsePortStatsReq] at h; obtain ⟨h1, rfl, rfl⟩ := h; exact .port h1
    rw [if_neg c4] at h
    by_cases c5 : t = 5
    · rw [if_pos c5] at h
      subst c5; reading [single, parseQueueStatsReq] at h; obtain ⟨h1, rfl, rfl⟩ := h; exact .queue h1
    rw [if_neg c5] at h
    by_cases c6 : t = 6
    · rw [if_pos c6] at h
      subst c6; reading [single, parseGroupStatsReq] at h; obtain ⟨h1, rfl, rfl⟩ := h; exact .group h1
    rw [if_neg c6] at h
    by_cases c7 : t = 9 ∨ t = 10
    · rw [if_pos c7] at h
      cases h
    rw [if_neg c7] at h
    by_cases c8 : t = 15
    · rw [if_pos c8] at h
      subst c8; reading [single, parseQueueDescReq] at h; obtain ⟨h1, rfl, rfl⟩ := h; exact .queueDesc h1
    rw [if_neg c8] at h
    by_cases c9 : t = 16
    · rw [if_pos c9] at h
      subst c9; obtain ⟨_, h', rfl⟩ := (single_iff _ _ _).1 h; obtain ⟨h1, mt, h2, rfl⟩ := (monitorReq_iff ..).1 h'; exact .monitor h1 h2
    rw [if_neg c9] at h
    by_cases c10 : t = 12
    · rw [if_pos c10] at h
      subst c10
      reading [several, whileFetch_iff (tableFeatures_iff m)] at h
      obtain ⟨l, _, h1, rfl, rfl⟩ := h
      exact .tables h1
    rw [if_neg c10] at h
    by_cases c11 : t = 0xffff
    · rw [if_pos c11] at h
      cases h; subst c11; rw [part_slice]; exact .experimenter
    rw [if_neg c11] at h
    cases h
  · intro h
    cases h with
    | nothing c => rw [parseReqBody, if_pos c]
    | flow h1 h2 => exact (single_iff (parseFlowStatsReq m o) _ _).2 ⟨_, (flowReq_iff ..).2 ⟨h1, _, h2, rfl⟩, rfl⟩
    | aggregate h1 h2 => exact (single_iff (parseAggregateReq m o) _ _).2 ⟨_, (aggregateReq_iff ..).2 ⟨h1, _, h2, rfl⟩, rfl⟩
    | port h1 => show single (parsePortStatsReq m o) = _; reading [single, parsePortStatsReq]; simp [h1]
    | queue h1 => show single (parseQueueStatsReq m o) = _; reading [single, parseQueueStatsReq]; simp [h1]
    | group h1 => show single (parseGroupStatsReq m o) = _; reading [single, parseGroupStatsReq]; simp [h1]
    | tables h =>
      show several (whileFetch (parseTableFeatures m) limit o) = _
      reading [several, whileFetch_iff (tableFeatures_iff m)]
      exact ⟨_, _, h, rfl, rfl⟩
    | queueDesc h1 => show single (parseQueueDescReq m o) = _; reading [single, parseQueueDescReq]; simp [h1]
    | monitor h1 h2 => exact (single_iff (parseFlowMonitorReq m o) _ _).2 ⟨_, (monitorReq_iff ..).2 ⟨h1, _, h2, rfl⟩, rfl⟩
    | experimenter => show Except.ok _ = _; rw [part_slice]

theorem reply_iff (m : Bytes) (t limit o : Nat) (b : Body) (e : Nat) : parseRepBody t m limit o = .ok (b, e) ↔ ReplyAt m limit o t b e := by
  constructor
  · intro h
    unfold parseRepBody at h
    by_cases c0 : t = 0
    · rw [if_pos c0] at h
      subst c0
      reading [single, parseDesc] at h; obtain ⟨h1, rfl, rfl⟩ := h; exact .desc h1
    rw [if_neg c0] at h
    by_cases c1 : t = 1
    · rw [if_pos c1] at h
      subst c1
      obtain ⟨h, rfl⟩ := (several_iff (flowStats_iff m) _ _ _ _).1 h; exact .flow h
    rw [if_neg c1] at h
    by_cases c2 : t = 2
    · rw [if_pos c2] at h
      subst c2
      obtain ⟨h, rfl⟩ := (several_iff (aggregate_iff m) _ _ _ _).1 h; exact .aggregate h
    rw [if_neg c2] at h
    by_cases c3 : t = 3
    · rw [if_pos c3] at h
      subst c3
      obtain ⟨g, rfl, rfl⟩ := (nothing_iff (tableStats_iff m) _ _ _ _).1 h; exact .none (by decide) g
    rw [if_neg c3] at h
    by_cases c4 : t = 4
    · rw [if_pos c4] at h
      subst c4
      obtain ⟨g, rfl, rfl⟩ := (nothing_iff (portStats_iff m) _ _ _ _).1 h; exact .none (by decide) g
    rw [if_neg c4] at h
    by_cases c5 : t = 5
    · rw [if_pos c5] at h
      subst c5
      obtain ⟨g, rfl, rfl⟩ := (nothing_iff (queueStats_iff m) _ _ _ _).1 h; exact .none (by decide) g
    rw [if_neg c5] at h
    by_cases c6 : t = 6
    · rw [if_pos c6] at h
      subst c6
      obtain ⟨h, rfl⟩ := (several_iff (groupStats_iff m) _ _ _ _).1 h; exact .group h
    rw [if_neg c6] at h
    by_cases c7 : t = 7
    · rw [if_pos c7] at h
      subst c7
      obtain ⟨h, rfl⟩ := (several_iff (groupDesc_iff m) _ _ _ _).1 h; exact .groupDesc h
    rw [if_neg c7] at h
    by_cases c8 : t = 8
    · rw [if_pos c8] at h
      subst c8
      reading [single, parseGroupFeatures, fourList] at h; obtain ⟨-, -, h1, rfl, rfl⟩ := h; exact .groupFeatures h1
    rw [if_neg c8] at h
    by_cases c9 : t = 9
    · rw [if_pos c9] at h
      subst c9
      obtain ⟨h, rfl⟩ := (several_iff (meterStats_iff m) _ _ _ _).1 h; exact .meter h
    rw [if_neg c9] at h
    by_cases c10 : t = 10
    · rw [if_pos c10] at h
      subst c10
      obtain ⟨h, rfl⟩ := (several_iff (meterConfig_iff m) _ _ _ _).1 h; exact .meterConfig h
    rw [if_neg c10] at h
    by_cases c11 : t = 11
    · rw [if_pos c11] at h
      subst c11
      reading [single, parseMeterFeatures] at h; obtain ⟨h1, rfl, rfl⟩ := h; exact .meterFeatures h1
    rw [if_neg c11] at h
    by_cases c12 : t = 12
    · rw [if_pos c12] at h
      subst c12
      obtain ⟨h, rfl⟩ := (several_iff (tableFeatures_iff m) _ _ _ _).1 h; exact .tables h
    rw [if_neg c12] at h
    by_cases c13 : t = 13
    · rw [if_pos c13] at h
      subst c13
      obtain ⟨h, rfl⟩ := (several_iff (portRec_iff m) _ _ _ _).1 h; exact .ports h
    rw [if_neg c13] at h
    by_cases c14 : t = 14
    · rw [if_pos c14] at h
      subst c14
      obtain ⟨g, rfl, rfl⟩ := (nothing_iff (tableDesc_iff m) _ _ _ _).1 h; exact .none (by decide) g
    rw [if_neg c14] at h
    by_cases c15 : t = 15
    · rw [if_pos c15] at h
      subst c15
      obtain ⟨h, rfl⟩ := (several_iff (queueDesc_iff m) _ _ _ _).1 h; exact .queueDesc h
    rw [if_neg c15] at h
    by_cases c16 : t = 16
    · rw [if_pos c16] at h
      subst c16
      obtain ⟨h, rfl⟩ := (several_iff (update_iff m) _ _ _ _).1 h; exact .updates h
    rw [if_neg c16] at h
    by_cases c65535 : t = 65535
    · rw [if_pos c65535] at h
      subst c65535
      reading [single, parseExperimenterMp] at h; obtain ⟨h1, rfl, rfl⟩ := h; exact .experimenter h1
    rw [if_neg c65535] at h
    cases h
  · intro h
    cases h with
    | desc h1 => show single (parseDesc m o) = _; reading [single, parseDesc]; simp [h1]
    | none c h =>
      simp only [List.mem_cons, List.not_mem_nil, or_false] at c
      rcases c with rfl | rfl | rfl | rfl
      · exact (nothing_iff (tableStats_iff m) _ _ _ _).2 ⟨h, rfl, rfl⟩
      · exact (nothing_iff (portStats_iff m) _ _ _ _).2 ⟨h, rfl, rfl⟩
      · exact (nothing_iff (queueStats_iff m) _ _ _ _).2 ⟨h, rfl, rfl⟩
      · exact (nothing_iff (tableDesc_iff m) _ _ _ _).2 ⟨h, rfl, rfl⟩
    | flow h => exact (several_iff (flowStats_iff m) _ _ _ _).2 ⟨h, rfl⟩
    | aggregate h => exact (several_iff (aggregate_iff m) _ _ _ _).2 ⟨h, rfl⟩
    | group h => exact (several_iff (groupStats_iff m) _ _ _ _).2 ⟨h, rfl⟩
    | groupDesc h => exact (several_iff (groupDesc_iff m) _ _ _ _).2 ⟨h, rfl⟩
    | meter h => exact (several_iff (meterStats_iff m) _ _ _ _).2 ⟨h, rfl⟩
    | meterConfig h => exact (several_iff (meterConfig_iff m) _ _ _ _).2 ⟨h, rfl⟩
    | tables h => exact (several_iff (tableFeatures_iff m) _ _ _ _).2 ⟨h, rfl⟩
    | ports h => exact (several_iff (portRec_iff m) _ _ _ _).2 ⟨h, rfl⟩
    | queueDesc h => exact (several_iff (queueDesc_iff m) _ _ _ _).2 ⟨h, rfl⟩
    | updates h => exact (several_iff (update_iff m) _ _ _ _).2 ⟨h, rfl⟩
    | groupFeatures h1 =>
      show single (parseGroupFeatures m o) = _; reading [single, parseGroupFeatures, fourList]; simp [h1]; omega
    | meterFeatures h1 => show single (parseMeterFeatures m o) = _; reading [single, parseMeterFeatures]; simp [h1]
    | experimenter h1 => show single (parseExperimenterMp limit m o) = _; reading [single, parseExperimenterMp]; simp [h1]

end Twink.Of14.Reads
