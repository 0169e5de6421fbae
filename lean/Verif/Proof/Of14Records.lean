import Verif.Proof.Of14Actions

/-! The records of multipart messages of the OpenFlow 1.4 codec are parsed as they were built. -/

namespace Twink.Of14
open Fmt Of13 Spec

theorem rt_id (i : IdT) (bs : Bytes) (hp : i.Plain) (h : buildId [0xfffe, 0xffff] i = .ok bs) :
    RT parseId bs i.wire ∧ 0 < bs.length ∧ bs.length = 4 := by
  have hd : (if i.type ∈ [0xfffe, 0xffff] then i.data.getD [] else []) = [] := by
    split
    · rename_i h1; exact hp (by simpa using h1)
    · rfl
  simp only [buildId, hd, bind_ok, pack_eq_ok, ok_inj, List.append_nil] at h
  obtain ⟨_, ⟨hf, rfl⟩, rfl⟩ := h
  have hl : (enc [H, H] [.int i.type, .int (4 + ([] : Bytes).length)]).length = 4 := by simp [enc]
  refine ⟨RT.of_at fun m n hm => ?_, by omega, hl⟩
  rw [parseId, rd_at hm hf (by simp [exact]) (two fun a b => (a, b)) _ rfl, ok_bind, hl]
  have hc : calcsize [H, H] = 4 := rfl
  simp [hc, IdT.wire, slice]

theorem seq_ids {s : Seq IdT} (hs : s.All IdT.Plain) {bs : Bytes} (h : seqBytes (buildId [0xfffe, 0xffff]) s = .ok bs) :
    Parts parseId bs (s.values.map IdT.wire) ∧ bs.length = 4 * s.values.length := by
  have := seq_parts (size := fun _ => 4) rt_id hs h
  rw [sum_const] at this
  exact this

theorem tfProp_ok {t : Option Nat} {ts : List Nat} {ids bs : Bytes} (h : tfProp t ts ids = .ok bs) :
    ∃ ty, t = some ty ∧ ty ∈ ts ∧ fits [H, H] [.int ty, .int (4 + ids.length)] = true ∧
      bs = enc [H, H] [.int ty, .int (4 + ids.length)] ++ ids ++ nul (up8 (4 + ids.length) - (4 + ids.length)) ∧
      bs.length = up8 (4 + ids.length) := by
  cases t with
  | none => simp [tfProp] at h
  | some t =>
    simp only [tfProp, bind_ok, pyAssert_ok, pack_eq_ok, ok_inj, exists_const, align_eq] at h
    obtain ⟨hm, _, ⟨hf, rfl⟩, rfl⟩ := h
    refine ⟨t, rfl, hm, hf, rfl, ?_⟩
    have := up8_ge (4 + ids.length)
    have hl : (enc [H, H] [.int t, .int (4 + ids.length)]).length = 4 := by simp [enc]
    rw [List.length_append, List.length_append, hl, nul_length]; omega

theorem parseTfProp_eq : parseTfProp = peeked parseTfPropOf := rfl

theorem rt_tfProp (p : TfProp) (bs : Bytes) (hp : p.Parseable) (h : buildTfProp p = .ok bs) :
    RT parseTfProp bs p.wire ∧ 0 < bs.length ∧ bs.length = p.size := by
  rw [parseTfProp_eq]
  have hc : calcsize [H, H] = 4 := rfl
  cases p with
  | header t l => exact hp.elim
  | actions t l ids => exact hp.elim
  | experimenter t l x y d => exact hp.elim
  | instructions t l ids =>
    simp only [buildTfProp, bind_ok] at h
    obtain ⟨ib, hib, h⟩ := h
    obtain ⟨hparts, hil⟩ := seq_ids hp hib
    obtain ⟨ty, rfl, hty, hf, rfl, hlen⟩ := tfProp_ok h
    have hge := up8_ge (4 + ib.length)
    refine ⟨RT.of_at fun m n hm => ?_, by omega, by rw [hlen, hil]; rfl⟩
    have hd : parseTfPropOf ty m n = (do
        let ((type, length), o) ← rd [H, H] m n (two fun a b => (a, b))
        let (ids, _) ← listFetch (parseId m) (n + length) o
        .ok (.instructions (some type) (some length) (tups ids), n + align length)) := by
      simp only [List.mem_cons, List.not_mem_nil, or_false] at hty
      rcases hty with rfl | rfl <;> rfl
    rw [hlen, peeked, peek_at hm.left.left hf (fun a b => (a, b)), ok_bind]
    simp only
    rw [hd, rd_at hm.left.left hf (by simp [exact]) (two fun a b => (a, b)) _ rfl, ok_bind]
    simp only [hc]
    rw [listFetch_at hparts (hm.left.right (n + 4) (by simp [enc])) _ (by omega), ok_bind]
    simp only [TfProp.wire, align_eq, hil]
  | tables t l ids =>
    simp only [buildTfProp, bind_ok] at h
    obtain ⟨ib, hib, h⟩ := h
    have hib : ib = [] := by
      cases ids with
      | raw b => have hp : b = [] := hp; subst hp; injection hib with e; exact e.symm
      | strs b => have hp : b = [] := hp; subst hp; injection hib with e; exact e.symm
      | ints b => have hp : b = [] := hp; subst hp; injection hib with e; exact e.symm
      | none => injection hib with e; exact e.symm
      | bad => exact hp.elim
    subst hib
    obtain ⟨ty, rfl, hty, hf, rfl, hlen⟩ := tfProp_ok h
    have h8 : up8 (4 + ([] : Bytes).length) = 8 := rfl
    replace hlen := hlen.trans h8
    refine ⟨RT.of_at fun m n hm => ?_, by rw [hlen]; decide, hlen⟩
    have hd : parseTfPropOf ty m n = (do
        let ((type, length), o) ← rd [H, H] m n (two fun a b => (a, b))
        if length < 4 then .error .structError
        else do
          let (ids, _) ← rd (List.replicate (length - 4) B) m n allInts
          .ok (.tables (some type) (some length) (.ints ids), o + (align length - length))) := by
      simp only [List.mem_cons, List.not_mem_nil, or_false] at hty
      rcases hty with rfl | rfl <;> rfl
    rw [hlen, peeked, peek_at hm.left.left hf (fun a b => (a, b)), ok_bind]
    simp only
    rw [hd, rd_at hm.left.left hf (by simp [exact]) (two fun a b => (a, b)) _ rfl, ok_bind]
    simp only [List.length_nil, Nat.add_zero, Nat.lt_irrefl, if_false, Nat.sub_self, List.replicate_zero]
    have hnil : At m n (enc [] []) := by
      obtain ⟨pre, post, rfl, hn⟩ := hm
      exact ⟨pre, _, show _ = pre ++ ([] ++ _) from by rw [List.nil_append], hn⟩
    rw [rd_at hnil rfl (by simp [exact]) allInts [] rfl, ok_bind]
    rfl
  | oxm t l ids =>
    simp only [buildTfProp, bind_ok] at h
    obtain ⟨ib, hib, h⟩ := h
    have hb : fits (List.replicate ids.values.length I) (ids.values.map .int) = true ∧
        ib = enc (List.replicate ids.values.length I) (ids.values.map .int) := by
      rcases hp with rfl | ⟨l, rfl⟩
      · simp [intsBytes] at hib; subst hib; simp [Ints.values, fits, enc]
      · exact pack_eq_ok.1 hib
    obtain ⟨hfb, hibe⟩ := hb
    have hbl : ib.length = 4 * ids.values.length := by rw [hibe, enc_length _ _ hfb, calcsize_ints]
    obtain ⟨ty, rfl, hty, hf, rfl, hlen⟩ := tfProp_ok h
    have hge := up8_ge (4 + ib.length)
    refine ⟨RT.of_at fun m n hm => ?_, by omega, by rw [hlen, hbl]; rfl⟩
    have hd : parseTfPropOf ty m n = (do
        let ((type, length), o) ← rd [H, H] m n (two fun a b => (a, b))
        if length < 4 then .error .structError
        else do
          let (ids, o) ← rd (List.replicate ((length - 4) / 4) I) m o allInts
          .ok (.oxm (some type) (some length) (.list ids), o + (align length - length))) := by
      simp only [List.mem_cons, List.not_mem_nil, or_false] at hty
      rcases hty with rfl | rfl | rfl | rfl | rfl | rfl <;> rfl
    rw [hlen, peeked, peek_at hm.left.left hf (fun a b => (a, b)), ok_bind]
    simp only
    rw [hd, rd_at hm.left.left hf (by simp [exact]) (two fun a b => (a, b)) _ rfl, ok_bind]
    simp only [hc]
    rw [if_neg (by omega)]
    have hk : (4 + ib.length - 4) / 4 = ids.values.length := by omega
    have h2 := hm.left.right (n + 4) (by simp [enc])
    rw [hibe] at h2
    rw [hk, rd_at h2 hfb (exact_ints _ _) allInts ids.values (allInts_map _), ok_bind]
    rw [hbl] at hge
    simp only [calcsize_ints, TfProp.wire, align_eq, hbl, ok_inj, Prod.mk.injEq, true_and]
    omega

theorem seq_tfProps {s : Seq TfProp} (hs : s.All TfProp.Parseable) {bs : Bytes} (h : seqBytes buildTfProp s = .ok bs) :
    Parts parseTfProp bs (s.values.map TfProp.wire) ∧ bs.length = (s.values.map TfProp.size).sum :=
  seq_parts rt_tfProp hs h

theorem seq_props {P : Pr → Prop} {p : Bytes → Nat → Py (Pr × Nat)}
    (hrt : ∀ a b, P a → buildPr a = .ok b → RT p b a.wire ∧ 0 < b.length ∧ b.length = a.size)
    {s : Seq Pr} (hs : s.All P) {bs : Bytes} (h : seqBytes buildPr s = .ok bs) :
    Parts p bs (s.values.map Pr.wire) ∧ bs.length = propsSize s :=
  seq_parts (w := Pr.wire) (size := Pr.size) hrt hs h

/-- What parses the record. -/
def recParser : Rec → Bytes → Nat → Py (Rec × Nat)
  | .desc .. => parseDesc
  | .flowStatsReq .. => parseFlowStatsReq
  | .flowStats .. => parseFlowStats
  | .aggregateReq .. => parseAggregateReq
  | .aggregate .. => parseAggregate
  | .tableStats .. => parseTableStats
  | .tableDesc .. => parseTableDesc
  | .tableFeatures .. => parseTableFeatures
  | .portStatsReq .. => parsePortStatsReq
  | .portStats .. => parsePortStats
  | .queueStatsReq .. => parseQueueStatsReq
  | .queueStats .. => parseQueueStats
  | .queueDescReq .. => parseQueueDescReq
  | .queueDesc .. => parseQueueDesc
  | .groupStatsReq .. => parseGroupStatsReq
  | .groupStats .. => parseGroupStats
  | .groupDesc .. => parseGroupDesc
  | .groupFeatures .. => parseGroupFeatures
  | .meterReq .. => parseMeterReq
  | .meterStats .. => parseMeterStats
  | .meterConfig .. => parseMeterConfig
  | .meterFeatures .. => parseMeterFeatures
  | .flowMonitorReq .. => parseFlowMonitorReq
  | .updateHeader .. => parseUpdateHeader
  | .updateFull .. => parseUpdateFull
  | .updateAbbrev .. => parseUpdateAbbrev
  | .updatePaused .. => parseUpdatePaused
  | .port .. => parsePortRec
  | .prop .. => parsePortRec
  | .experimenter .. => fun m off => parseExperimenterMp off m off

theorem rt_fixed' {f : Fmt} {vs : List Val} {k : List Val → Option α} {a : α} {c : Nat} (hf : fits f vs = true) (he : exact f vs)
    (hk : k vs = some a) (hc : calcsize f = c) (h0 : 0 < c) :
    RT (fun m off => rd f m off k) (enc f vs) a ∧ 0 < (enc f vs).length ∧ (enc f vs).length = c :=
  ⟨rt_rd hf he hk, by rw [enc_length _ _ hf, hc]; exact h0, by rw [enc_length _ _ hf, hc]⟩

theorem rt_rec (r : Rec) (bs : Bytes) (hp : r.Parseable) (h : buildRec r = .ok bs) :
    RT (recParser r) bs r.wire ∧ 0 < bs.length ∧ bs.length = r.size := by
  cases r with
  | aggregateReq => exact hp.elim
  | tableStats => exact hp.elim
  | tableDesc => exact hp.elim
  | portStats => exact hp.elim
  | queueStats => exact hp.elim
  | updateHeader => exact hp.elim
  | updateFull => exact hp.elim
  | port => exact hp.elim
  | prop => exact hp.elim
  | experimenter => exact hp.elim
  | desc a b c d e =>
    simp only [buildRec, bind_ok, pyAssert_ok, pack_eq_ok, ok_inj, exists_const] at h
    obtain ⟨_, ⟨hf, rfl⟩, hlen, rfl⟩ := h
    refine ⟨RT.of_at fun m n hm => ?_, by omega, hlen⟩
    rw [hlen]
    exact rd_pad hm hf _ _ rfl
  | aggregate a b c =>
    obtain ⟨hf, rfl⟩ := pack_eq_ok.1 h
    exact rt_fixed' hf (by simp [exact]) rfl rfl (by simp [Rec.size])
  | portStatsReq a =>
    obtain ⟨hf, rfl⟩ := pack_eq_ok.1 h
    exact rt_fixed' hf (by simp [exact]) rfl rfl (by simp [Rec.size])
  | queueStatsReq a q =>
    cases q with
    | none => simp [buildRec, queueReq] at h
    | some q =>
      obtain ⟨hf, rfl⟩ := pack_eq_ok.1 h
      exact rt_fixed' hf (by simp [exact]) rfl rfl (by simp [Rec.size])
  | queueDescReq a q =>
    cases q with
    | none => simp [buildRec, queueReq] at h
    | some q =>
      obtain ⟨hf, rfl⟩ := pack_eq_ok.1 h
      exact rt_fixed' hf (by simp [exact]) rfl rfl (by simp [Rec.size])
  | groupStatsReq a =>
    obtain ⟨hf, rfl⟩ := pack_eq_ok.1 h
    exact rt_fixed' hf (by simp [exact]) rfl rfl (by simp [Rec.size])
  | meterReq a =>
    obtain ⟨hf, rfl⟩ := pack_eq_ok.1 h
    exact rt_fixed' hf (by simp [exact]) rfl rfl (by simp [Rec.size])
  | meterFeatures a b c d e =>
    obtain ⟨hf, rfl⟩ := pack_eq_ok.1 h
    exact rt_fixed' hf (by simp [exact]) rfl rfl (by simp [Rec.size])
  | updateAbbrev a b c =>
    obtain ⟨hf, rfl⟩ := pack_eq_ok.1 h
    exact rt_fixed' hf (by simp [exact]) rfl rfl (by simp [Rec.size])
  | updatePaused l e =>
    obtain ⟨hf, rfl⟩ := pack_eq_ok.1 h
    have hlen : (enc [H, H, X 4] [.int 8, .int e]).length = 8 := by simp [enc]
    refine ⟨RT.of_at fun m n hm => ?_, by omega, hlen⟩
    have he : enc [H, H, X 4] [.int 8, .int e] = enc [H, H, I] [.int 8, .int e, .int 0] := by
      simp [enc, encBE, List.replicate]
    have hf' : fits [H, H, I] [.int 8, .int e, .int 0] = true := by simp [fits] at hf ⊢; exact hf
    rw [hlen]
    rw [he] at hm
    rw [recParser, parseUpdatePaused, rd_at hm hf' (by simp [exact]) (three fun a b c => (a, b, c)) _ rfl, ok_bind]
    rfl
  | flowStatsReq t p g c cm mt =>
    simp only [buildRec, bind_ok, pyAssert_ok, pack_eq_ok, ok_inj, exists_const] at h
    obtain ⟨e, he, _, ⟨hf, rfl⟩, hlen, mb, hmb, rfl⟩ := h
    have key : ∃ mt', RT parseMatch mb mt' ∧ wireMatch (anyMatch mt) = .tup mt' ∧ mb.length = matchSize (anyMatch mt) := by
      rcases hp with rfl | ⟨m, rfl⟩
      · simp only [bind_ok, ok_inj] at he
        obtain ⟨b, hb, rfl⟩ := he
        simp [obj] at hmb
        subst hmb
        exact ⟨_, (rt_match hb).1, rfl, (rt_match hb).2⟩
      · simp only [ok_inj] at he
        subst he
        exact ⟨_, (rt_match hmb).1, rfl, (rt_match hmb).2⟩
    obtain ⟨mt', hrt, hw, hml⟩ := key
    refine ⟨RT.of_at fun m n hm => ?_, by simp only [List.length_append]; omega,
      by rw [List.length_append, hlen, hml]; rfl⟩
    rw [recParser, parseFlowStatsReq, rd_at hm.left hf (by simp [exact, flowStatsReqFmt]) (five fun a b c d e => Rec.flowStatsReq a b c d e) _ rfl, ok_bind]
    have hc : calcsize flowStatsReqFmt = 32 := rfl
    simp only [hc]
    rw [hrt.at (hm.right (n + 32) (by omega)), ok_bind]
    simp only [Rec.wire, hw, List.length_append, hlen, Nat.add_assoc]
  | flowMonitorReq a b c d e f mt =>
    obtain ⟨mt, rfl⟩ := hp
    simp only [buildRec, bind_ok, pack_eq_ok, ok_inj] at h
    obtain ⟨_, ⟨hf, rfl⟩, mb, hmb, rfl⟩ := h
    obtain ⟨hmrt, hml⟩ := rt_match hmb
    have hl0 := enc_length _ _ hf
    have hc : calcsize [I, I, I, H, B, B] = 16 := rfl
    rw [hc] at hl0
    refine ⟨RT.of_at fun m n hm => ?_, by simp only [List.length_append]; omega, by rw [List.length_append, hl0, hml]; rfl⟩
    rw [recParser, parseFlowMonitorReq]
    refine (rd_bind hm.left hf (by simp [exact]) (by rfl)).trans ?_
    simp only [hc]
    rw [hmrt.at (hm.right (n + 16) (by omega)), ok_bind]
    simp only [Rec.wire, wireMatch, List.length_append, hl0, Nat.add_assoc]
  | flowStats l t ds dn p i hd f c pc bc mt is =>
    obtain ⟨⟨mt, rfl⟩, his⟩ := hp
    simp only [buildRec, bind_ok, pyAssert_ok, pack_eq_ok, ok_inj, exists_const] at h
    obtain ⟨ib, hib, mb, hmb, _, ⟨hf, rfl⟩, hlen, rfl⟩ := h
    obtain ⟨hmrt, hml⟩ := rt_match hmb
    obtain ⟨hparts, hil⟩ := seq_instrs his hib
    refine ⟨RT.of_at fun m n hm => ?_, by omega, by rw [hlen, hml, hil]; rfl⟩
    have hl0 := enc_length _ _ hf
    have hc : calcsize flowStatsFmt = 48 := rfl
    rw [hc] at hl0
    rw [hlen, recParser, parseFlowStats]
    refine (rd_bind hm.left.left hf (by simp [exact, flowStatsFmt]) (by rfl)).trans ?_
    simp only [hc]
    rw [hmrt.at (hm.left.right (n + 48) (by omega)), ok_bind]
    simp only
    rw [listFetch_at hparts (hm.right (n + 48 + mb.length) (by rw [List.length_append]; omega)) _ (by omega), ok_bind]
    simp only [Rec.wire, wireMatch, matchSize, MatchT.size, ← hml, ← hil]
  | tableFeatures l t nm mm mw c e ps =>
    simp only [buildRec, bind_ok, pyAssert_ok, pack_eq_ok, ok_inj, exists_const] at h
    obtain ⟨pb, hpb, _, ⟨hf, rfl⟩, hlen, rfl⟩ := h
    obtain ⟨hnm, hp⟩ := hp
    obtain ⟨hparts, hpl⟩ := seq_tfProps hp hpb
    refine ⟨RT.of_at fun m n hm => ?_, by omega, by rw [hlen, hpl]; rfl⟩
    have hl0 := enc_length _ _ hf
    have hc : calcsize tableFeaturesFmt = 64 := rfl
    rw [hc] at hl0
    rw [hlen, recParser, parseTableFeatures, rd_pad hm.left hf _
      (64 + pb.length, Rec.tableFeatures (some (64 + pb.length)) t (beforeNul (padTo 32 nm)) mm mw c e) (by rfl), ok_bind]
    simp only [hc]
    rw [whileFetch_at hparts (hm.right (n + 64) (by omega)) _ (by omega), ok_bind]
    simp only [Rec.wire, beforeNul, takeWhile_padTo 32 nm hnm, hpl]
  | queueDesc p q l ps =>
    simp only [buildRec, bind_ok, pyAssert_ok, pack_eq_ok, ok_inj, exists_const] at h
    obtain ⟨pb, hpb, _, ⟨hf, rfl⟩, hlen, rfl⟩ := h
    obtain ⟨hparts, hpl⟩ := seq_props rt_qdProp hp hpb
    refine ⟨RT.of_at fun m n hm => ?_, by rw [List.length_append]; omega, by rw [List.length_append, hlen, hpl]; rfl⟩
    rw [recParser, parseQueueDesc]
    refine (rd_bind hm.left hf (by simp [exact]) (by rfl)).trans ?_
    have hc : calcsize [I, I, H, X 6] = 16 := rfl
    simp only [hc]
    rw [whileFetch_at hparts (hm.right (n + 16) (by omega)) _ (by omega), ok_bind]
    simp only [Rec.wire, List.length_append, hlen, ← hpl]
  | groupStats l g r p b ds dn cs =>
    simp only [buildRec, bind_ok, pack_eq_ok, ok_inj] at h
    obtain ⟨cb, hcb, _, ⟨hf, rfl⟩, rfl⟩ := h
    obtain ⟨hparts, hcl⟩ := seq_pairs hp hcb
    have hl0 := enc_length _ _ hf
    have hc : calcsize groupStatsFmt = 40 := rfl
    rw [hc] at hl0
    refine ⟨RT.of_at fun m n hm => ?_, by rw [List.length_append]; omega, by rw [List.length_append, hl0, hcl]; rfl⟩
    rw [recParser, parseGroupStats]
    refine (rd_bind hm.left hf (by simp [exact, groupStatsFmt]) (by rfl)).trans ?_
    simp only [hc]
    rw [listFetch_at hparts (hm.right (n + 40) (by omega)) _ (by omega), ok_bind]
    simp only [Rec.wire, List.length_append, hl0, ← hcl]
  | groupDesc l t g bk =>
    simp only [buildRec, bind_ok, pack_eq_ok, ok_inj] at h
    obtain ⟨cb, hcb, _, ⟨hf, rfl⟩, rfl⟩ := h
    obtain ⟨hparts, hcl⟩ := seq_buckets hp hcb
    have hl0 := enc_length _ _ hf
    have hc : calcsize [H, B, X 1, I] = 8 := rfl
    rw [hc] at hl0
    refine ⟨RT.of_at fun m n hm => ?_, by rw [List.length_append]; omega, by rw [List.length_append, hl0, hcl]; rfl⟩
    rw [recParser, parseGroupDesc]
    refine (rd_bind hm.left hf (by simp [exact]) (by rfl)).trans ?_
    simp only [hc]
    rw [listFetch_at hparts (hm.right (n + 8) (by omega)) _ (by omega), ok_bind]
    simp only [Rec.wire, List.length_append, hl0, ← hcl]
  | groupFeatures t c ms as =>
    simp only [buildRec, bind_ok, pack_eq_ok, ok_inj] at h
    obtain ⟨mb, hmb, ab, hab, _, ⟨hf, rfl⟩, rfl⟩ := h
    obtain ⟨a1, a2, a3, a4, e1, f1, rfl⟩ := fourInts_ok hp.1 hmb
    obtain ⟨b1, b2, b3, b4, e2, f2, rfl⟩ := fourInts_ok hp.2 hab
    have l0 := enc_length _ _ hf
    have l1 := enc_length _ _ f1
    have l2 := enc_length _ _ f2
    have c0 : calcsize [I, I] = 8 := rfl
    have c1 : calcsize [I, I, I, I] = 16 := rfl
    rw [c0] at l0
    rw [c1] at l1 l2
    refine ⟨RT.of_at fun m n hm => ?_, by simp only [List.length_append]; omega,
      by simp only [List.length_append, l0, l1, l2]; rfl⟩
    rw [recParser, parseGroupFeatures]
    refine (rd_bind hm.left.left hf (by simp [exact]) (by rfl)).trans ?_
    simp only [c0]
    rw [rd_at (hm.left.right (n + 8) (by omega)) f1 (by simp [exact]) fourList _ rfl, ok_bind]
    simp only [c1]
    rw [rd_at (hm.right (n + 8 + 16) (by simp only [List.length_append]; omega)) f2 (by simp [exact]) fourList _ rfl, ok_bind]
    simp only [Rec.wire, e1, e2, List.length_append, l0, l1, l2, c1]
  | meterStats mt l f p b ds dn bds =>
    obtain ⟨hp, rfl⟩ := hp
    simp only [buildRec, bind_ok, packOpt_ok, pack_eq_ok, ok_inj] at h
    obtain ⟨cb, hcb, _, ⟨l, hl, hf, rfl⟩, rfl⟩ := h
    injection hl with hl; subst hl
    obtain ⟨hparts, hcl⟩ := seq_pairs hp hcb
    have hl0 := enc_length _ _ hf
    have hc : calcsize meterStatsFmt = 40 := rfl
    rw [hc] at hl0
    refine ⟨RT.of_at fun m n hm => ?_, by rw [List.length_append]; omega, by rw [List.length_append, hl0, hcl]; rfl⟩
    rw [recParser, parseMeterStats]
    refine (rd_bind hm.left hf (by simp [exact, meterStatsFmt]) (by rfl)).trans ?_
    simp only [hc]
    rw [listFetch_at hparts (hm.right (n + 40) (by omega)) _ (by omega), ok_bind]
    simp only [Rec.wire, List.length_append, hl0, hcl]
  | meterConfig l f mt bds =>
    simp only [buildRec, bind_ok, pack_eq_ok, ok_inj] at h
    obtain ⟨cb, hcb, _, ⟨hf, rfl⟩, rfl⟩ := h
    obtain ⟨hparts, hcl⟩ := seq_bands' hp hcb
    have hl0 := enc_length _ _ hf
    have hc : calcsize [H, H, I] = 8 := rfl
    rw [hc] at hl0
    refine ⟨RT.of_at fun m n hm => ?_, by rw [List.length_append]; omega, by rw [List.length_append, hl0, hcl]; rfl⟩
    rw [recParser, parseMeterConfig]
    refine (rd_bind hm.left hf (by simp [exact]) (by rfl)).trans ?_
    simp only [hc]
    rw [listFetch_at hparts (hm.right (n + 8) (by omega)) _ (by omega), ok_bind]
    simp only [Rec.wire, List.length_append, hl0, ← hcl]

end Twink.Of14
