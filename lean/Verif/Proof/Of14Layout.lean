import Verif.Spec.Of14Layout
import Verif.Proof.Of13Layout
import Verif.Proof.Of14Messages

/-! The OpenFlow 1.4 builders of structures against the wire format of `Spec/Of14Layout`. -/

namespace Twink.Of14
open Fmt Spec Of13

theorem seq_bytes_each {build : α → Py Bytes} {f : α → Bytes} {P : α → Prop} (hf : ∀ a b, P a → build a = .ok b → b = f a)
    {s : Seq α} (hs : s.Each P) {b : Bytes} (h : seqBytes build s = .ok b) : b = s.bytes f := by
  cases s with
  | raw c => simp [seqBytes] at h; exact h.symm
  | items l => exact join_bytes hf hs h
  | none => simp [seqBytes] at h; simp [Seq.bytes, h]
  | bad => simp [seqBytes] at h

theorem packHH_ok {f t l b} (h : packHH f t l = .ok b) : ∃ t' l', t = some t' ∧ l = some l' ∧ pack f [.int t', .int l'] = .ok b := by
  unfold packHH at h
  split at h
  · exact ⟨_, _, rfl, rfl, h⟩
  · cases h

theorem action_bytes (a : Action) (b : Bytes) (h : buildAction a = .ok b) : b = a.bytes := by
  cases a <;> simp only [buildAction, bind_ok, pyAssert_ok, pack_eq_ok, ok_inj, exists_const] at h
  case header t l =>
    obtain ⟨_, _, rfl, rfl, h⟩ := packHH_ok h
    obtain ⟨_, rfl⟩ := pack_eq_ok.1 h; layout; simp [Action.bytes]
  case generic t l =>
    split at h
    · cases h
    · simp only [bind_ok, pyAssert_ok, pack_eq_ok, ok_inj, exists_const] at h
      obtain ⟨_, _, rfl⟩ := h; layout; simp [Action.bytes]
  case push t l e =>
    split at h
    · cases h
    · simp only [bind_ok, pyAssert_ok, pack_eq_ok, ok_inj, exists_const] at h
      obtain ⟨_, _, ⟨_, rfl⟩, _, rfl⟩ := h; layout; simp [Action.bytes]
  case expHeader t l e =>
    split at h
    · obtain ⟨_, rfl⟩ := pack_eq_ok.1 h; layout; simp [Action.bytes]
    · cases h
  case setField =>
    obtain ⟨ht, _, ⟨hf, rfl⟩, rfl⟩ := h; rw [pad8_of 4 hf rfl, ht, Action.bytes]; layout
  case experimenter =>
    obtain ⟨ht, _, ⟨hf, rfl⟩, rfl⟩ := h; rw [pad8_of 8 hf rfl, ht, Action.bytes]; layout
  all_goals
    obtain ⟨ht, _, ⟨_, rfl⟩, _, rfl⟩ := h; rw [ht, Action.bytes]; layout

theorem up8_of_dvd {n : Nat} (h : 8 ∣ n) : up8 (8 + n) = 8 + n := by
  unfold up8; rw [if_pos (by omega)]

theorem instr_bytes (a : Instr) (b : Bytes) (hw : a.Whole) (h : buildInstr a = .ok b) : b = a.bytes := by
  cases a <;> simp only [buildInstr, bind_ok, pyAssert_ok, pack_eq_ok, ok_inj, exists_const] at h
  case header t l =>
    obtain ⟨_, _, rfl, rfl, h⟩ := packHH_ok h
    obtain ⟨_, rfl⟩ := pack_eq_ok.1 h; layout; simp [Instr.bytes]
  case actions t l s =>
    obtain ⟨as, h1, h2⟩ := h
    have := seq_bytes action_bytes h1
    subst this
    split at h2
    · cases h2
    · simp only [bind_ok, pyAssert_ok, pack_eq_ok, ok_inj, exists_const] at h2
      obtain ⟨_, _, ⟨_, rfl⟩, rfl⟩ := h2
      have hw : 8 ∣ (s.bytes Action.bytes).length := hw
      rw [Instr.bytes]; layout; rw [up8_of_dvd hw]; rfl
  case meter => obtain ⟨ht, _, rfl⟩ := h; rw [ht, Instr.bytes]; layout
  case experimenter => obtain ⟨ht, _, ⟨_, rfl⟩, rfl⟩ := h; rw [ht, Instr.bytes]; layout
  all_goals
    obtain ⟨ht, _, ⟨_, rfl⟩, _, rfl⟩ := h; rw [ht, Instr.bytes]; layout

theorem bucket_bytes (a : Bucket) (b : Bytes) (h : buildBucket a = .ok b) : b = a.bytes := by
  simp only [buildBucket, bind_ok, pack_eq_ok, ok_inj] at h
  obtain ⟨as, h1, _, ⟨hf, rfl⟩, rfl⟩ := h
  have := seq_bytes action_bytes h1
  subst this
  rw [pad8_of 16 hf rfl, Bucket.bytes]; layout

theorem exp_bytes {e t : Nat} {d : Option Bytes} {b : Bytes} (h : packExp 0xffff e t (d.getD []) = .ok b) : b = expBytes e t d := by
  simp only [packExp, bind_ok, pack_eq_ok, ok_inj] at h
  obtain ⟨_, ⟨hf, rfl⟩, rfl⟩ := h
  rw [pad8_of 12 hf rfl, expBytes]; layout

theorem expSome_bytes {e t : Nat} {d : Option Bytes} {b : Bytes}
    (h : (match d with | none => .error .typeError | some d => packExp 0xffff e t d : Py Bytes) = .ok b) : b = expBytes e t d := by
  cases d with
  | none => cases h
  | some d => exact exp_bytes h

theorem signed_twos {o : Int} {n : Nat} (h : signed o = .ok n) : n = twos o := by
  unfold signed at h
  split at h
  · injection h with h; exact h.symm
  · cases h

theorem pr_bytes (a : Pr) (b : Bytes) (hr : a.Right) (h : buildPr a = .ok b) : b = a.bytes := by
  cases a <;> simp only [buildPr, bind_ok, pyAssert_ok, pack_eq_ok, ok_inj, exists_const, reduceCtorEq, and_false] at h
  case header t l =>
    obtain ⟨_, _, rfl, rfl, h⟩ := packHH_ok h
    obtain ⟨_, rfl⟩ := pack_eq_ok.1 h; layout; simp [Pr.bytes]
  case qdHeader => exact hr.elim
  case portEthernet => obtain ⟨ht, _, rfl⟩ := h; rw [ht, Pr.bytes, portEthernetFmt]; layout
  case portOptical => obtain ⟨ht, _, rfl⟩ := h; rw [ht, Pr.bytes, portOpticalFmt]; layout
  case eviction t l f =>
    obtain ⟨n, hn, h⟩ := packOpt_ok.1 h
    obtain ⟨_, rfl⟩ := pack_eq_ok.1 h
    have hr : l = some 8 := hr
    rw [hr] at hn; injection hn with hn; subst hn
    rw [Pr.bytes]; layout
  case vacancy => obtain ⟨_, rfl⟩ := h; rw [Pr.bytes]; layout
  case tableExp => exact expSome_bytes h
  case pmEthernet => obtain ⟨_, rfl⟩ := h; rw [Pr.bytes]; layout
  case pmOptical => obtain ⟨n, hn, _, rfl⟩ := h; rw [Pr.bytes, pmOpticalFmt, signed_twos hn]; layout
  case pmExp => exact expSome_bytes h
  case psEthernet => obtain ⟨_, rfl⟩ := h; rw [Pr.bytes, psEthernetFmt]; layout
  case psOptical => obtain ⟨_, rfl⟩ := h; rw [Pr.bytes, psOpticalFmt]; layout
  case psExp t l e et d =>
    obtain ⟨_, ⟨hf, rfl⟩, rfl⟩ := h
    have hr : 8 ∣ 12 + (d.getD []).length := hr
    have := pad8_of (b := d.getD []) 12 hf rfl
    rw [align_eq, show up8 (12 + (d.getD []).length) = 12 + (d.getD []).length from by unfold up8; rw [if_pos (by omega)], Nat.sub_self] at this
    rw [show nul 0 = [] from rfl, List.append_nil] at this
    rw [this, Pr.bytes, expBytes]; layout
  case qsExp => exact expSome_bytes h
  case minRate => obtain ⟨_, rfl⟩ := h; rw [Pr.bytes]; layout
  case maxRate => obtain ⟨_, rfl⟩ := h; rw [Pr.bytes]; layout
  case bundleExp => exact expSome_bytes h
  case reasons t l m =>
    split at h
    · cases h
    · simp only [bind_ok, pyAssert_ok, pack_eq_ok, ok_inj, exists_const] at h
      obtain ⟨_, _, rfl⟩ := h; layout; simp [Pr.bytes]
  case roleExp => exact exp_bytes h

theorem port_bytes (p : PortT) (b : Bytes) (hr : p.properties = .none ∨ p.properties = .items []) (h : buildPort p = .ok b) : b = p.bytes := by
  have hb : p.properties.bytes Pr.bytes = [] ∧ seqBytes buildPr p.properties = .ok [] := by
    rcases hr with hr | hr <;> rw [hr] <;> exact ⟨rfl, rfl⟩
  simp only [buildPort, bind_ok, pyAssert_ok, pack_eq_ok, ok_inj, exists_const, hb.2] at h
  obtain ⟨h6, h16, _, rfl, _, rfl⟩ := h
  rw [PortT.bytes, portFmt, hb.1]
  layout
  simp only [inField, List.append_assoc]
  rw [List.take_of_length_le (by omega), List.take_of_length_le h16, h6]
  simp only [Nat.sub_self, zeros, List.replicate_zero, List.nil_append]

theorem id_bytes {exps : List Nat} (he : ∀ i : IdT, i.type ∈ exps → i.type ≠ 0xffff → i.type = 0xfffe) (hm : 0xffff ∈ exps)
    (a : IdT) (b : Bytes) (hr : a.type = 0xfffe → 0xfffe ∈ exps → a.data.getD [] = []) (h : buildId exps a = .ok b) : b = a.bytes := by
  simp only [buildId, bind_ok, pack_eq_ok, ok_inj] at h
  obtain ⟨_, ⟨_, rfl⟩, rfl⟩ := h
  rw [IdT.bytes]
  by_cases ht : a.type = 0xffff
  · rw [if_pos (by rw [ht]; exact hm), if_pos ht]; layout
  · rw [if_neg ht]
    by_cases hx : a.type ∈ exps
    · have hf := he a hx ht
      have := hr hf (by rw [← hf]; exact hx)
      rw [if_pos hx, this]; layout; rfl
    · rw [if_neg hx]; layout; rfl

theorem tableIds_bytes (a : TableIds) (b : Bytes) (h : tableIdBytes a = .ok b) : b = a.bytes := by
  unfold tableIdBytes at h
  split at h <;> first | (cases h; done) | (injection h with h; subst h; rfl)

theorem tfprop_bytes (a : TfProp) (b : Bytes) (hr : a.Right) (h : buildTfProp a = .ok b) : b = a.bytes := by
  cases a <;> simp only [buildTfProp, bind_ok] at h
  case header t l =>
    obtain ⟨_, _, rfl, rfl, h⟩ := packHH_ok h
    obtain ⟨_, rfl⟩ := pack_eq_ok.1 h; layout; simp [TfProp.bytes]
  case instructions t l s =>
    obtain ⟨_, h1, h2⟩ := h
    have hr : s.Each fun i => i.type = 0xfffe → i.data.getD [] = [] := hr
    rw [tf_bytes h2, seq_bytes_each (f := IdT.bytes)
      (fun a b ha h => id_bytes (by intro i; simp; omega) (by simp) a b (fun h1 _ => ha h1) h) hr h1]; rfl
  case tables =>
    obtain ⟨_, h1, h2⟩ := h; rw [tf_bytes h2, tableIds_bytes _ _ h1]; rfl
  case actions =>
    obtain ⟨_, h1, h2⟩ := h
    rw [tf_bytes h2, seq_bytes (f := IdT.bytes)
      (fun a b h => id_bytes (by intro i; simp; omega) (by simp) a b (fun _ h => by simp at h) h) h1]; rfl
  case oxm =>
    obtain ⟨_, h1, h2⟩ := h; rw [tf_bytes h2, ints_bytes _ _ h1]; rfl
  case experimenter => cases h

theorem queueReq_bytes {p q : Option Nat} {b : Bytes} (h : queueReq p q = .ok b) :
    b = be32 (p.getD 0xffffffff) ++ be32 (q.getD 0xffffffff) := by
  unfold queueReq at h
  split at h
  · cases h
  · obtain ⟨_, rfl⟩ := pack_eq_ok.1 h; layout; rfl

theorem rec_bytes (r : Rec) (b : Bytes) (hr : r.Right) (h : buildRec r = .ok b) : b = r.bytes := by
  cases r <;> simp only [buildRec, bind_ok, pyAssert_ok, pack_eq_ok, ok_inj, exists_const] at h
  case desc => obtain ⟨_, ⟨_, rfl⟩, _, rfl⟩ := h; rw [Rec.bytes]; layout
  case flowStatsReq mt =>
    obtain ⟨e, he, _, ⟨_, rfl⟩, _, m, hm, rfl⟩ := h
    rw [Rec.bytes, flowStatsReqFmt]
    have : m = (mt.getD (.tup ⟨none, none, .none⟩)).bytes MatchT.bytes := by
      cases mt with
      | some e' => simp at he; subst he; exact elem_bytes match_bytes hm
      | none =>
        simp only [bind_ok, ok_inj] at he
        obtain ⟨c, hc, rfl⟩ := he
        simp only [obj, ok_inj] at hm
        rw [← hm, match_bytes _ _ hc]; rfl
    rw [this]; layout
  case flowStats =>
    obtain ⟨is, h1, m, h2, _, ⟨_, rfl⟩, _, rfl⟩ := h
    rw [seq_bytes_each instr_bytes hr h1, elem_bytes match_bytes h2, Rec.bytes, flowStatsFmt]; layout
  case aggregateReq =>
    obtain ⟨_, ⟨_, rfl⟩, h40, _⟩ := h
    rw [enc_length _ _ (by assumption)] at h40
    simp [flowStatsReqFmt, calcsize, Item.width] at h40
  case aggregate => obtain ⟨_, rfl⟩ := h; rw [Rec.bytes]; layout
  case tableStats => obtain ⟨_, ⟨_, rfl⟩, _, rfl⟩ := h; rw [Rec.bytes]; layout
  case tableDesc =>
    obtain ⟨ps, h1, _, ⟨_, rfl⟩, rfl⟩ := h
    rw [seq_bytes_each pr_bytes hr h1, Rec.bytes]; layout
  case tableFeatures =>
    obtain ⟨ps, h1, _, ⟨_, rfl⟩, _, rfl⟩ := h
    rw [seq_bytes_each tfprop_bytes hr h1, Rec.bytes, tableFeaturesFmt]; layout
  case portStatsReq => obtain ⟨_, rfl⟩ := h; rw [Rec.bytes]; layout
  case portStats port ds dn cs ps =>
    obtain ⟨ps, h1, _, ⟨hf, rfl⟩, rfl⟩ := h
    have e : portStatsFmt = [H, X 2, I, I, I] ++ (List.replicate 8 Q ++ []) := rfl
    have hl : cs.length = 8 := by
      rw [e] at hf
      simp only [List.cons_append, List.nil_append, I, H, X, fits, Bool.and_eq_true] at hf
      refine fits_counters (f := []) (vs := []) ?_ rfl (by simp)
      rw [List.append_nil (cs.map Val.int)]
      exact hf.2.2.2.2
    rw [seq_bytes_each pr_bytes hr h1, Rec.bytes, e, ← hl]
    have hc := enc_counters cs [] []
    rw [List.append_nil (cs.map Val.int), enc_nil, List.append_nil ((cs.map be64).flatten)] at hc
    simp only [List.cons_append, List.nil_append, List.append_assoc, I, H, X, enc_u2, enc_u4, enc_x, hc]
  case queueStatsReq p q => exact queueReq_bytes h
  case queueStats =>
    obtain ⟨ps, h1, _, ⟨_, rfl⟩, rfl⟩ := h
    rw [seq_bytes_each pr_bytes hr h1, Rec.bytes, queueStatsFmt]; layout
  case queueDescReq p q => exact queueReq_bytes h
  case queueDesc =>
    obtain ⟨ps, h1, _, ⟨_, rfl⟩, _, rfl⟩ := h
    rw [seq_bytes_each pr_bytes hr h1, Rec.bytes]; layout
  case groupStatsReq => obtain ⟨_, rfl⟩ := h; rw [Rec.bytes]; layout
  case groupStats =>
    obtain ⟨cs, h1, _, ⟨_, rfl⟩, rfl⟩ := h
    rw [seq_bytes pair_bytes h1, Rec.bytes, groupStatsFmt]; layout
  case groupDesc =>
    obtain ⟨cs, h1, _, ⟨_, rfl⟩, rfl⟩ := h
    rw [seq_bytes bucket_bytes h1, Rec.bytes]; layout
  case groupFeatures =>
    obtain ⟨ms, h1, as, h2, _, ⟨_, rfl⟩, rfl⟩ := h
    rw [fourInts_bytes _ _ h1, fourInts_bytes _ _ h2, Rec.bytes]; layout
  case meterReq => obtain ⟨_, rfl⟩ := h; rw [Rec.bytes]; layout
  case meterStats len _ _ _ _ _ bs =>
    obtain ⟨cs, h1, hd, h2, rfl⟩ := h
    obtain ⟨l, hl, h3⟩ := packOpt_ok.1 h2
    obtain ⟨_, rfl⟩ := pack_eq_ok.1 h3
    rw [hl] at hr
    injection hr with hr
    subst hr
    rw [seq_bytes pair_bytes h1, Rec.bytes, meterStatsFmt]; layout
  case meterConfig =>
    obtain ⟨cs, h1, _, ⟨_, rfl⟩, rfl⟩ := h
    rw [seq_bytes band_bytes h1, Rec.bytes]; layout
  case meterFeatures => obtain ⟨_, rfl⟩ := h; rw [Rec.bytes]; layout
  case flowMonitorReq =>
    obtain ⟨_, ⟨_, rfl⟩, m, h1, rfl⟩ := h
    rw [elem_bytes match_bytes h1, Rec.bytes]; layout
  case updateHeader => cases h
  case updateFull => exact hr.elim
  case updateAbbrev => obtain ⟨_, rfl⟩ := h; rw [Rec.bytes]; layout
  case updatePaused => obtain ⟨_, rfl⟩ := h; rw [Rec.bytes]; layout
  case port => exact port_bytes _ _ hr h
  case prop => exact pr_bytes _ _ hr h
  case experimenter => cases h

theorem reqBody_bytes {t : Nat} {b : Body} {bs : Bytes} (hw : (t = 12 → ∀ r, b ≠ .one r) ∧ b.Right) (h : reqBody t b = .ok bs) :
    bs = if t ∈ [0, 3, 7, 8, 11, 13] then [] else b.bytes := by
  unfold reqBody at h
  split at h
  · rename_i hm; simp only [ok_inj] at h; rw [if_pos hm, h]
  · rename_i hm
    rw [if_neg hm]
    obtain ⟨h12, hr⟩ := hw
    split at h
    · cases b with
      | none => simp only [ok_inj] at h; rw [← h]; rfl
      | raw c => simp only [objBody, ok_inj] at h; rw [← h]; rfl
      | one r => exact rec_bytes r bs hr h
      | many l => cases h
      | bad => cases h
    · split at h
      · rename_i ht
        cases b with
        | none => cases h
        | raw c => simp only [ok_inj] at h; rw [← h]; rfl
        | one r => exact (h12 ht r rfl).elim
        | many l => exact join_bytes rec_bytes hr h
        | bad => cases h
      · cases b <;> first | cases h | skip
        rfl

theorem repBody_bytes {t : Nat} {b : Body} {bs : Bytes}
    (hw : (t ∈ [1, 3, 4, 5, 6, 7, 9, 10, 12, 13] → ∀ r, b ≠ .one r) ∧ b.Right) (h : repBody t b = .ok bs) : bs = b.bytes := by
  unfold repBody at h
  obtain ⟨h12, hr⟩ := hw
  split at h
  · cases b with
    | none => simp only [ok_inj] at h; rw [← h]; rfl
    | raw c => simp only [objBody, ok_inj] at h; rw [← h]; rfl
    | one r => exact rec_bytes r bs hr h
    | many l => cases h
    | bad => cases h
  · split at h
    · rename_i ht
      cases b with
      | none => simp only [ok_inj] at h; rw [← h]; rfl
      | raw c => cases h
      | one r => exact (h12 ht r rfl).elim
      | many l => exact join_bytes rec_bytes hr h
      | bad => cases h
    · split at h
      · cases b <;> first | cases h | skip
        rfl
      · cases h

theorem made_layout {bs t x data} (h : Made bs t x data) : bs = ofHeader 5 t (8 + data.length) x ++ data := by
  rw [h.eq, ofHeader_enc]; rfl

/-- The whole of a message that has this body. -/
theorem made_call {c : Call} {bs t x data h} (hm : Made bs t x data) (hd : data = c.body) (ht : t = c.theType h) :
    bs = ofHeader 5 (c.theType h) (8 + c.body.length) x ++ c.body := by
  subst hd ht; exact made_layout hm

end Twink.Of14
