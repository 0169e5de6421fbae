import Verif.Spec.Of14Fits
import Verif.Proof.Of14Layout
import Verif.Proof.Of13Fits

/-! The builders of structures succeed exactly on the arguments of `Spec/Of14Fits`, with its bytes. -/

namespace Twink.Of14
open Fmt Spec Of13

theorem action_fits (a : Action) : (∃ b, buildAction a = .ok b) ↔ a.Fits := by
  cases a
  case header t l => cases t <;> cases l <;> built [buildAction, Action.Fits, packHH]
  case expHeader t l e => cases t <;> cases l <;> built [buildAction, Action.Fits]
  case push t l e => cases t <;> built [buildAction, Action.Fits]; omega
  case generic t l => cases t <;> built [buildAction, Action.Fits]; omega
  all_goals
    built [buildAction, Action.Fits]
  all_goals rintro h; simp [isType_iff.2 h]
  all_goals grind

theorem actions_iff (s : Seq Action) (b : Bytes) : seqBytes buildAction s = .ok b ↔ s.Fits Action.Fits ∧ b = s.bytes Action.bytes :=
  seq_iff action_bytes action_fits s b

theorem instr_fits (a : Instr) : (∃ b, buildInstr a = .ok b) ↔ a.Fits := by
  cases a
  case header t l => cases t <;> cases l <;> built [buildInstr, Instr.Fits, packHH]
  case actions t l s => cases t <;> built [buildInstr, Instr.Fits, actions_iff]; grind
  all_goals
    built [buildInstr, Instr.Fits]
  all_goals rintro h; simp [isType_iff.2 h]
  all_goals grind

theorem instr_out (a : Instr) (b : Bytes) (h : buildInstr a = .ok b) : b = a.out := by
  cases a
  case actions t l s =>
    simp only [buildInstr, bind_ok, actions_iff] at h
    obtain ⟨_, ⟨_, rfl⟩, h2⟩ := h
    split at h2
    · cases h2
    · simp only [bind_ok, pyAssert_ok, pack_eq_ok, ok_inj, exists_const] at h2
      obtain ⟨_, _, ⟨_, rfl⟩, rfl⟩ := h2
      rw [Instr.out]; layout; rfl
  all_goals exact instr_bytes _ b (by trivial) h

theorem instrs_iff (s : Seq Instr) (b : Bytes) : seqBytes buildInstr s = .ok b ↔ s.Fits Instr.Fits ∧ b = s.bytes Instr.out :=
  seq_iff instr_out instr_fits s b

theorem bucket_fits (a : Bucket) : (∃ b, buildBucket a = .ok b) ↔ a.Fits := by
  built [buildBucket, Bucket.Fits, actions_iff]; grind

theorem buckets_iff (s : Seq Bucket) (b : Bytes) : seqBytes buildBucket s = .ok b ↔ s.Fits Bucket.Fits ∧ b = s.bytes Bucket.bytes :=
  seq_iff bucket_bytes bucket_fits s b

theorem exp_fits (e t : Nat) (d : Bytes) : (∃ b, packExp 0xffff e t d = .ok b) ↔ expFits e t d := by
  built [packExp, expFits]; grind

theorem signed_iff {o : Int} {n : Nat} : signed o = .ok n ↔ (-2147483648 ≤ o ∧ o < 2147483648) ∧ n = twos o := by
  unfold signed
  split
  · rename_i h; simp [h, twos, eq_comm]
  · rename_i h; simp [h]

theorem twos_lt (o : Int) : twos o < 4294967296 := by unfold twos; omega

theorem pr_fits (a : Pr) : (∃ b, buildPr a = .ok b) ↔ a.Fits := by
  cases a
  case header t l => cases t <;> cases l <;> built [buildPr, Pr.Fits, packHH]
  case qdHeader t l => cases t <;> cases l <;> built [buildPr, Pr.Fits, packHH]
  case eviction t l f => cases l <;> built [buildPr, Pr.Fits, packOpt]
  case tableExp t l e et d => cases d <;> simp [buildPr, Pr.Fits, exp_fits]
  case pmExp t l e et d => cases d <;> simp [buildPr, Pr.Fits, exp_fits]
  case qsExp t l e et d => cases d <;> simp [buildPr, Pr.Fits, exp_fits]
  case bundleExp t l e et d => cases d <;> simp [buildPr, Pr.Fits, exp_fits]
  case roleExp t l e et d => simp [buildPr, Pr.Fits, exp_fits]
  case psExp t l e et d => built [buildPr, Pr.Fits, expFits]; grind
  case reasons t l m => cases t <;> built [buildPr, Pr.Fits]; omega
  case pmOptical t l c f o s p =>
    built [buildPr, Pr.Fits, pmOpticalFmt, signed_iff, twos_lt]; grind
  all_goals
    built [buildPr, Pr.Fits, portEthernetFmt, portOpticalFmt, psEthernetFmt, psOpticalFmt]
  all_goals try (rintro h; simp [isType_iff.2 h])
  all_goals try grind

theorem pr_out (a : Pr) (b : Bytes) (h : buildPr a = .ok b) : b = a.out := by
  cases a
  case eviction t l f =>
    obtain ⟨n, rfl, h⟩ := packOpt_ok.1 h
    obtain ⟨_, rfl⟩ := pack_eq_ok.1 h
    rw [Pr.out]; layout; rfl
  case psExp t l e et d =>
    simp only [buildPr, bind_ok, pack_eq_ok, ok_inj] at h
    obtain ⟨_, ⟨hf, rfl⟩, rfl⟩ := h
    rw [Pr.out]; layout
  case qdHeader t l =>
    obtain ⟨_, _, rfl, rfl, h⟩ := packHH_ok h
    obtain ⟨_, rfl⟩ := pack_eq_ok.1 h
    rw [Pr.out]; layout; rfl
  all_goals exact pr_bytes _ b (by trivial) h

theorem prs_iff (s : Seq Pr) (b : Bytes) : seqBytes buildPr s = .ok b ↔ s.Fits Pr.Fits ∧ b = s.bytes Pr.out :=
  seq_iff pr_out pr_fits s b

theorem port_fits (p : PortT) : (∃ b, buildPort p = .ok b) ↔ p.Fits := by
  built [buildPort, PortT.Fits, prs_iff, portFmt]; grind

theorem port_out (p : PortT) (b : Bytes) (h : buildPort p = .ok b) : b = p.out := by
  simp only [buildPort, bind_ok, pyAssert_ok, pack_eq_ok, ok_inj, exists_const, prs_iff] at h
  obtain ⟨h6, h16, _, ⟨_, rfl⟩, _, rfl⟩ := h
  rw [PortT.out, portFmt]
  layout
  simp only [inField, List.append_assoc]
  rw [List.take_of_length_le (by omega), List.take_of_length_le h16, h6]
  simp only [Nat.sub_self, zeros, List.replicate_zero, List.nil_append]

theorem idI_iff (i : IdT) (b : Bytes) : buildId [0xfffe, 0xffff] i = .ok b ↔ (i.type < 65536 ∧ i.outI.length < 65536) ∧ b = i.outI := by
  obtain ⟨t, l, d⟩ := i
  by_cases h1 : t = 0xfffe
  · subst h1
    simp only [buildId, bind_ok, pack_eq_ok, ok_inj, IdT.outI, if_true]
    constructor
    · rintro ⟨_, ⟨hf, rfl⟩, rfl⟩
      simp [fits] at hf
      refine ⟨⟨by decide, by simp; omega⟩, by layout; rfl⟩
    · rintro ⟨⟨_, hl⟩, rfl⟩
      simp at hl
      refine ⟨_, ⟨by simp [fits]; omega, rfl⟩, by layout; rfl⟩
  · by_cases h2 : t = 0xffff
    · subst h2
      simp only [buildId, bind_ok, pack_eq_ok, ok_inj, IdT.outI, IdT.bytes, h1, if_false, if_true]
      constructor
      · rintro ⟨_, ⟨hf, rfl⟩, rfl⟩
        simp [fits] at hf
        refine ⟨⟨by decide, by simp; omega⟩, by layout; rfl⟩
      · rintro ⟨⟨_, hl⟩, rfl⟩
        simp at hl
        refine ⟨_, ⟨by simp [fits]; omega, rfl⟩, by layout; rfl⟩
    · have h3 : t ∉ [0xfffe, 0xffff] := by simp [h1, h2]
      simp only [buildId, bind_ok, pack_eq_ok, ok_inj, IdT.outI, IdT.bytes, h1, h2, h3, if_false]
      constructor
      · rintro ⟨_, ⟨hf, rfl⟩, rfl⟩
        simp [fits] at hf
        refine ⟨⟨hf, by simp⟩, by layout; rfl⟩
      · rintro ⟨⟨ht, _⟩, rfl⟩
        refine ⟨_, ⟨by simp [fits]; omega, rfl⟩, by layout; rfl⟩

theorem idA_iff (i : IdT) (b : Bytes) : buildId [0xffff] i = .ok b ↔ (i.type < 65536 ∧ i.bytes.length < 65536) ∧ b = i.bytes := by
  obtain ⟨t, l, d⟩ := i
  by_cases h2 : t = 0xffff
  · subst h2
    simp only [buildId, bind_ok, pack_eq_ok, ok_inj, IdT.bytes, if_true]
    constructor
    · rintro ⟨_, ⟨hf, rfl⟩, rfl⟩
      simp [fits] at hf
      refine ⟨⟨by decide, by simp; omega⟩, by layout; rfl⟩
    · rintro ⟨⟨_, hl⟩, rfl⟩
      simp at hl
      refine ⟨_, ⟨by simp [fits]; omega, rfl⟩, by layout; rfl⟩
  · have h3 : t ∉ [0xffff] := by simp [h2]
    simp only [buildId, bind_ok, pack_eq_ok, ok_inj, IdT.bytes, h2, h3, if_false]
    constructor
    · rintro ⟨_, ⟨hf, rfl⟩, rfl⟩
      simp [fits] at hf
      refine ⟨⟨hf, by simp⟩, by layout; rfl⟩
    · rintro ⟨⟨ht, _⟩, rfl⟩
      refine ⟨_, ⟨by simp [fits]; omega, rfl⟩, by layout; rfl⟩

/-- From an equivalence with contents to one without. -/
theorem iff_fits {build : α → Py Bytes} {f : α → Bytes} {P : α → Prop} (h : ∀ a b, build a = .ok b ↔ P a ∧ b = f a) (a : α) :
    (∃ b, build a = .ok b) ↔ P a := by simp [h]

theorem iff_bytes {build : α → Py Bytes} {f : α → Bytes} {P : α → Prop} (h : ∀ a b, build a = .ok b ↔ P a ∧ b = f a) (a : α) (b : Bytes)
    (hb : build a = .ok b) : b = f a := ((h a b).1 hb).2

theorem tableIds_fits (a : TableIds) : (∃ b, tableIdBytes a = .ok b) ↔ a.Fits := by
  cases a with
  | ints l => cases l <;> simp [tableIdBytes, TableIds.Fits]
  | _ => simp [tableIdBytes, TableIds.Fits]

theorem tfprop_iff (a : TfProp) (b : Bytes) : buildTfProp a = .ok b ↔ a.Fits ∧ b = a.out := by
  have key : ∀ (build : Py Bytes) (t : Option Nat) (ts : List Nat) (P : Prop) (i : Bytes), (∀ n ∈ ts, n < 65536) →
      (∀ b, build = .ok b ↔ P ∧ b = i) →
      ((do tfProp t ts (← build)) = .ok b ↔ (isAmong t ts ∧ P ∧ 4 + i.length < 65536) ∧
        b = pad8 (be16 (t.getD 0) ++ be16 (4 + i.length) ++ i)) := by
    intro build t ts P i hts hb
    simp only [bind_ok, hb]
    have := tf_fits t ts i hts
    constructor
    · rintro ⟨_, ⟨hp, rfl⟩, h⟩
      have h2 := this.1 ⟨b, h⟩
      exact ⟨⟨h2.1, hp, h2.2⟩, tf_bytes h⟩
    · rintro ⟨⟨h1, hp, h2⟩, rfl⟩
      obtain ⟨b, h⟩ := this.2 ⟨h1, h2⟩
      exact ⟨_, ⟨hp, rfl⟩, by rw [h, tf_bytes h]⟩
  cases a with
  | header t l =>
    constructor
    · intro h
      obtain ⟨_, _, rfl, rfl, h⟩ := packHH_ok h
      obtain ⟨hf, rfl⟩ := pack_eq_ok.1 h
      simp [fits] at hf
      refine ⟨⟨⟨_, hf.1, rfl⟩, ⟨_, hf.2, rfl⟩⟩, by rw [TfProp.out]; layout; rfl; rintro _ _ _ ⟨⟩⟩
    · rintro ⟨⟨⟨t, ht, rfl⟩, ⟨l, hl, rfl⟩⟩, rfl⟩
      refine pack_eq_ok.2 ⟨by simp [fits, ht, hl], by rw [TfProp.out]; layout; rfl; rintro _ _ _ ⟨⟩⟩
  | instructions t l s => exact key _ _ _ _ _ (by simp) (seq_iff (iff_bytes idI_iff) (iff_fits idI_iff) s)
  | tables t l s => exact key _ _ _ _ _ (by simp) (built_iff tableIds_bytes tableIds_fits s)
  | actions t l s => exact key _ _ _ _ _ (by simp) (seq_iff (iff_bytes idA_iff) (iff_fits idA_iff) s)
  | oxm t l i => exact key _ _ _ _ _ (by simp) (built_iff ints_bytes ints_fits i)
  | experimenter => simp [buildTfProp, TfProp.Fits]

theorem port_iff (p : PortT) (b : Bytes) : buildPort p = .ok b ↔ p.Fits ∧ b = p.out := built_iff port_out port_fits p b

theorem rec_fits (r : Rec) : (∃ b, buildRec r = .ok b) ↔ r.Fits := by
  cases r
  case desc => built [buildRec, Rec.Fits, padTo]; omega
  case flowStatsReq t p g c cm mt =>
    have h0 : buildMatch ⟨none, none, .items []⟩ = .ok ((⟨none, none, .none⟩ : MatchT).bytes) := rfl
    cases mt with
    | none =>
      simp only [buildRec, h0, ok_bind]
      built [Rec.Fits, flowStatsReqFmt, obj, Elem.Fits, MatchT.Fits, Seq.Fits, MatchT.fields]
    | some e => built [buildRec, Rec.Fits, flowStatsReqFmt, match_iff]; grind
  case flowStats => built [buildRec, Rec.Fits, flowStatsFmt, match_iff, instrs_iff]; grind
  case aggregateReq => built [buildRec, Rec.Fits, flowStatsReqFmt]
  case tableDesc => built [buildRec, Rec.Fits, prs_iff]; grind
  case tableFeatures =>
    built [buildRec, Rec.Fits, tableFeaturesFmt, seq_iff (iff_bytes tfprop_iff) (iff_fits tfprop_iff), padTo]; grind
  case portStats l port ds dn cs ps =>
    have e : portStatsFmt = [H, X 2, I, I, I] ++ (List.replicate 8 Q ++ []) := rfl
    have hc := fun (hl : cs.length = 8) => fits_counters_iff cs [] []
    simp only [buildRec, Rec.Fits, bind_ok, prs_iff, pack_eq_ok, ok_inj]
    constructor
    · rintro ⟨_, _, ⟨hp, rfl⟩, _, ⟨hf, _⟩, _⟩
      rw [e] at hf
      simp only [List.cons_append, List.nil_append, I, H, X, fits, Bool.and_eq_true, decide_eq_true_eq] at hf
      have hl : cs.length = 8 := by
        refine fits_counters (f := []) (vs := []) ?_ rfl (by simp)
        rw [List.append_nil (cs.map Val.int)]
        exact hf.2.2.2.2
      have := hf.2.2.2.2
      rw [← hl, ← List.append_nil (cs.map Val.int), fits_counters_iff] at this
      exact ⟨hf.2.1, hf.2.2.1, hf.2.2.2.1, hl, this.1, hp, hf.1⟩
    · rintro ⟨h1, h2, h3, hl, h4, hp, h5⟩
      refine ⟨_, _, ⟨hp, rfl⟩, _, ⟨?_, rfl⟩, rfl⟩
      rw [e]
      simp only [List.cons_append, List.nil_append, I, H, X, fits, Bool.and_eq_true, decide_eq_true_eq]
      refine ⟨h5, h1, h2, h3, ?_⟩
      rw [← hl, ← List.append_nil (cs.map Val.int), fits_counters_iff]
      exact ⟨h4, rfl⟩
  case queueStatsReq p q => cases q <;> built [buildRec, Rec.Fits, queueReq]
  case queueDescReq p q => cases q <;> built [buildRec, Rec.Fits, queueReq]
  case queueStats => built [buildRec, Rec.Fits, queueStatsFmt, prs_iff]; grind
  case queueDesc => built [buildRec, Rec.Fits, prs_iff]; grind
  case groupStats => built [buildRec, Rec.Fits, groupStatsFmt, pairs_iff]; grind
  case groupDesc => built [buildRec, Rec.Fits, buckets_iff]; grind
  case groupFeatures => built [buildRec, Rec.Fits, built_iff fourInts_bytes fourInts_fits]; grind
  case meterStats m l f p b ds dn bs => cases l <;> built [buildRec, Rec.Fits, meterStatsFmt, packOpt, pairs_iff]; grind
  case meterConfig => built [buildRec, Rec.Fits, bands_iff]; grind
  case flowMonitorReq => built [buildRec, Rec.Fits, match_iff]; grind
  case updateFull => built [buildRec, Rec.Fits, updateFullFmt, match_iff, instrs_iff]; grind
  case port p => exact port_fits p
  case prop p => exact pr_fits p
  all_goals built [buildRec, Rec.Fits]

theorem rec_out (r : Rec) (b : Bytes) (h : buildRec r = .ok b) : b = r.out := by
  cases r
  case flowStats =>
    simp only [buildRec, bind_ok, pyAssert_ok, pack_eq_ok, ok_inj, exists_const, instrs_iff, match_iff] at h
    obtain ⟨_, ⟨_, rfl⟩, _, ⟨_, rfl⟩, _, ⟨_, rfl⟩, _, rfl⟩ := h
    rw [Rec.out, flowStatsFmt]; layout
  case tableDesc =>
    simp only [buildRec, bind_ok, pack_eq_ok, ok_inj, prs_iff] at h
    obtain ⟨_, ⟨_, rfl⟩, _, ⟨_, rfl⟩, rfl⟩ := h
    rw [Rec.out]; layout
  case tableFeatures =>
    simp only [buildRec, bind_ok, pyAssert_ok, pack_eq_ok, ok_inj, exists_const, seq_iff (iff_bytes tfprop_iff) (iff_fits tfprop_iff)] at h
    obtain ⟨_, ⟨_, rfl⟩, _, ⟨_, rfl⟩, _, rfl⟩ := h
    rw [Rec.out, tableFeaturesFmt]; layout
  case portStats l port ds dn cs ps =>
    obtain ⟨_, _, _, hl, _⟩ := (rec_fits _).1 ⟨b, h⟩
    simp only [buildRec, bind_ok, pack_eq_ok, ok_inj, prs_iff] at h
    obtain ⟨_, ⟨_, rfl⟩, _, ⟨_, rfl⟩, rfl⟩ := h
    have e : portStatsFmt = [H, X 2, I, I, I] ++ (List.replicate 8 Q ++ []) := rfl
    rw [Rec.out, e, ← hl]
    have hc := enc_counters cs [] []
    rw [List.append_nil (cs.map Val.int), enc_nil, List.append_nil ((cs.map be64).flatten)] at hc
    simp only [List.cons_append, List.nil_append, List.append_assoc, I, H, X, enc_u2, enc_u4, enc_x, hc]
  case queueStats =>
    simp only [buildRec, bind_ok, pack_eq_ok, ok_inj, prs_iff] at h
    obtain ⟨_, ⟨_, rfl⟩, _, ⟨_, rfl⟩, rfl⟩ := h
    rw [Rec.out, queueStatsFmt]; layout
  case queueDesc =>
    simp only [buildRec, bind_ok, pyAssert_ok, pack_eq_ok, ok_inj, exists_const, prs_iff] at h
    obtain ⟨_, ⟨_, rfl⟩, _, ⟨_, rfl⟩, _, rfl⟩ := h
    rw [Rec.out]; layout
  case meterStats m l f p b' ds dn bs =>
    simp only [buildRec, bind_ok, ok_inj, pairs_iff] at h
    obtain ⟨_, ⟨_, rfl⟩, hd, h2, rfl⟩ := h
    obtain ⟨l, rfl, h3⟩ := packOpt_ok.1 h2
    obtain ⟨_, rfl⟩ := pack_eq_ok.1 h3
    rw [Rec.out, meterStatsFmt]; layout; rfl
  case updateFull =>
    simp only [buildRec, bind_ok, pack_eq_ok, ok_inj, instrs_iff, match_iff] at h
    obtain ⟨_, ⟨_, rfl⟩, _, ⟨_, rfl⟩, _, ⟨_, rfl⟩, rfl⟩ := h
    rw [Rec.out, updateFullFmt]; layout
  case port p => exact port_out p b h
  case prop p => exact pr_out p b h
  all_goals exact rec_bytes _ b (by trivial) h

theorem rec_iff (r : Rec) (b : Bytes) : buildRec r = .ok b ↔ r.Fits ∧ b = r.out := built_iff rec_out rec_fits r b

theorem recAsList_eq (r : Rec) (b : Bytes) : recAsList r = .ok b ↔ r.asList.isSome ∧ b = r.asList.getD [] := by
  unfold recAsList Rec.asList
  split <;> simp [eq_comm]

theorem join_iff (l : List (Elem Rec)) (b : Bytes) :
    join buildRec l = .ok b ↔ (∀ e ∈ l, e.Fits Rec.Fits) ∧ b = (l.map (Elem.bytes Rec.out)).flatten :=
  seq_iff rec_out rec_fits (.items l) b

theorem ok_inj' {a b : Bytes} : (Except.ok a : Py Bytes) = .ok b ↔ b = a := by rw [ok_inj, eq_comm]

theorem reqBody_iff (t : Nat) (b : Body) (bs : Bytes) : reqBody t b = .ok bs ↔ b.FitsReq t ∧ bs = b.outReq t := by
  unfold reqBody Body.FitsReq Body.outReq
  by_cases h1 : t ∈ [0, 3, 7, 8, 11, 13]
  · simp [h1, eq_comm]
  · rw [if_neg h1, if_neg h1, if_neg h1]
    by_cases h2 : t ∈ [1, 2, 4, 5, 6, 9, 10]
    · have h3 : t ≠ 12 := by rintro rfl; simp at h2
      rw [if_pos h2]
      cases b <;> simp only [ok_inj', h2, h3, objBody, rec_iff] <;> simp
    · rw [if_neg h2]
      by_cases h3 : t = 12
      · rw [if_pos h3]
        cases b <;> simp only [ok_inj', h3, join_iff, recAsList_eq] <;> simp
      · rw [if_neg h3]
        cases b <;> simp only [ok_inj', h2, h3] <;> simp

theorem repBody_iff (t : Nat) (b : Body) (bs : Bytes) : repBody t b = .ok bs ↔ b.FitsRep t ∧ bs = b.outRep t := by
  unfold repBody
  by_cases h1 : t ∈ [0, 2, 8, 11]
  · have h2 : t ∉ [1, 3, 4, 5, 6, 7, 9, 10, 12, 13] := by simp at h1 ⊢; omega
    rw [if_pos h1]
    have h3 : t ∈ [0, 2, 8, 11, 0xffff] := by simp at h1 ⊢; omega
    cases b <;> simp only [ok_inj', Body.FitsRep, Body.outRep, h1, h2, h3, objBody, rec_iff] <;> simp
  · rw [if_neg h1]
    by_cases h2 : t ∈ [1, 3, 4, 5, 6, 7, 9, 10, 12, 13]
    · rw [if_pos h2]
      have h3 : t ∉ [0, 2, 8, 11, 0xffff] := by simp at h1 h2 ⊢; omega
      cases b <;> simp only [ok_inj', Body.FitsRep, Body.outRep, h1, h2, h3, join_iff, recAsList_eq] <;> simp
    · rw [if_neg h2]
      by_cases h3 : t = 0xffff
      · rw [if_pos h3]
        cases b <;> simp only [ok_inj', Body.FitsRep, Body.outRep, h3] <;> simp
      · rw [if_neg h3]
        have h4 : t ∉ [0, 2, 8, 11, 0xffff] := by simp at h1 h3 ⊢; omega
        cases b <;> simp only [ok_inj', Body.FitsRep, Body.outRep, h1, h2, h4] <;> simp

end Twink.Of14
