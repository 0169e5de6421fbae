import Verif.Spec.Of13Layout
import Verif.Proof.Of13Messages

/-! The builders of structures against the wire format of `Spec/Of13Layout`. -/

namespace Twink.Of13
open Fmt Spec

theorem nul_zeros (n : Nat) : nul n = zeros n := rfl

theorem enc_nil (vs : List Val) : enc [] vs = [] := by cases vs <;> rfl

theorem enc_u1 (n f vs) : enc (.u 1 :: f) (.int n :: vs) = b8 n ++ enc f vs := by rw [enc, encBE_1]
theorem enc_u2 (n f vs) : enc (.u 2 :: f) (.int n :: vs) = be16 n ++ enc f vs := by rw [enc, encBE_2]
theorem enc_u4 (n f vs) : enc (.u 4 :: f) (.int n :: vs) = be32 n ++ enc f vs := by rw [enc, encBE_4]
theorem enc_u8 (n f vs) : enc (.u 8 :: f) (.int n :: vs) = be64 n ++ enc f vs := by rw [enc, encBE_8]
theorem enc_x (n f vs) : enc (.x n :: f) vs = zeros n ++ enc f vs := by rw [enc]; rfl

theorem enc_s (n b f vs) : enc (.s n :: f) (.str b :: vs) = inField n b ++ enc f vs := by
  rw [enc, inField, padTo]

theorem obj_bytes {build : α → Py Bytes} {f : α → Bytes} {P : α → Prop} (hf : ∀ a b, P a → build a = .ok b → b = f a)
    {e : Elem α} (he : ∀ a, e = .tup a → P a) {b : Bytes} (h : obj build e = .ok b) : b = e.bytes f := by
  cases e with
  | raw c => simp [obj] at h; exact h.symm
  | tup a => exact hf a b (he a rfl) h
  | bad => simp [obj] at h

theorem join_bytes {build : α → Py Bytes} {f : α → Bytes} {P : α → Prop} (hf : ∀ a b, P a → build a = .ok b → b = f a)
    {l : List (Elem α)} (hl : ∀ a, .tup a ∈ l → P a) {b : Bytes} (h : join build l = .ok b) :
    b = (l.map (Elem.bytes f)).flatten := by
  induction l generalizing b with
  | nil => simp [join] at h; simp [← h]
  | cons e es ih =>
    simp only [join, bind_ok, ok_inj] at h
    obtain ⟨x, h1, y, h2, rfl⟩ := h
    rw [obj_bytes hf (fun a ha => hl a (by simp [ha])) h1, ih (fun a ha => hl a (by simp [ha])) h2]
    rfl

theorem seq_bytes {build : α → Py Bytes} {f : α → Bytes} (hf : ∀ a b, build a = .ok b → b = f a)
    {s : Seq α} {b : Bytes} (h : seqBytes build s = .ok b) : b = s.bytes f := by
  cases s with
  | raw c => simp [seqBytes] at h; exact h.symm
  | items l => exact join_bytes (P := fun _ => True) (fun a b _ => hf a b) (fun _ _ => trivial) h
  | none => simp [seqBytes] at h; simp [Seq.bytes, h]
  | bad => simp [seqBytes] at h

theorem elem_bytes {build : α → Py Bytes} {f : α → Bytes} (hf : ∀ a b, build a = .ok b → b = f a)
    {e : Elem α} {b : Bytes} (h : obj build e = .ok b) : b = e.bytes f :=
  obj_bytes (P := fun _ => True) (fun a b _ => hf a b) (fun _ _ => trivial) h

theorem pad8_of (k : Nat) {f : Fmt} {vs : List Val} {b : Bytes} (hf : fits f vs = true) (h : calcsize f = k) :
    enc f vs ++ b ++ nul (align (k + b.length) - (k + b.length)) = pad8 (enc f vs ++ b) := by
  have : (enc f vs ++ b).length = k + b.length := by rw [List.length_append, enc_length _ _ hf, h]
  rw [← this, align_eq, nul_zeros, pad8]

/-- Everything needed to turn the packed bytes into the layout. -/
macro "layout" : tactic => `(tactic|
  simp only [H, I, B, Q, X, S, enc_u1, enc_u2, enc_u4, enc_u8, enc_x, enc_s, enc_nil, List.append_nil, List.append_assoc,
    align_eq, nul_zeros])

theorem match_bytes (m : MatchT) (b : Bytes) (h : buildMatch m = .ok b) : b = m.bytes := by
  obtain ⟨_, rfl⟩ := match_ok h
  have e : ∀ n, List.replicate n (0 : UInt8) = zeros n := fun _ => rfl
  have h4 : 2 + (2 + m.fields.length) = 4 + m.fields.length := by omega
  rw [MatchT.bytes, pad8, fill8]
  layout
  simp only [List.length_append, be16_length, h4, e]

theorem action_bytes (a : Action) (b : Bytes) (h : buildAction a = .ok b) : b = a.bytes := by
  cases a <;> simp only [buildAction, bind_ok, pyAssert_ok, pack_eq_ok, ok_inj, exists_const] at h
  case header t l =>
    split at h
    · obtain ⟨_, rfl⟩ := pack_eq_ok.1 h; layout; simp [Action.bytes]
    · cases h
  case push t l e =>
    split at h
    · cases h
    · simp only [bind_ok, pyAssert_ok, pack_eq_ok, ok_inj, exists_const] at h
      obtain ⟨_, _, ⟨_, rfl⟩, _, rfl⟩ := h; layout; simp [Action.bytes]
  case setField =>
    obtain ⟨ht, _, ⟨hf, rfl⟩, rfl⟩ := h; rw [pad8_of 4 hf rfl, ht, Action.bytes]; layout
  case experimenter =>
    obtain ⟨ht, _, ⟨hf, rfl⟩, rfl⟩ := h; rw [pad8_of 8 hf rfl, ht, Action.bytes]; layout
  all_goals
    obtain ⟨ht, _, ⟨_, rfl⟩, _, rfl⟩ := h; rw [ht, Action.bytes]; layout

theorem instr_bytes (a : Instr) (b : Bytes) (h : buildInstr a = .ok b) : b = a.bytes := by
  cases a <;> simp only [buildInstr, bind_ok, pyAssert_ok, pack_eq_ok, ok_inj, exists_const] at h
  case header t l =>
    split at h
    · obtain ⟨_, rfl⟩ := pack_eq_ok.1 h; layout; simp [Instr.bytes]
    · cases h
  case actions t l s =>
    obtain ⟨as, h1, h2⟩ := h
    have := seq_bytes action_bytes h1
    subst this
    split at h2
    · cases h2
    · simp only [bind_ok, pyAssert_ok, pack_eq_ok, ok_inj, exists_const] at h2
      obtain ⟨_, _, ⟨_, rfl⟩, rfl⟩ := h2; rw [Instr.bytes]; layout; rfl
  case meter => obtain ⟨ht, _, rfl⟩ := h; rw [ht, Instr.bytes]; layout
  case experimenter => obtain ⟨ht, _, ⟨_, rfl⟩, rfl⟩ := h; rw [ht, Instr.bytes]; layout
  all_goals
    obtain ⟨ht, _, ⟨_, rfl⟩, _, rfl⟩ := h; rw [ht, Instr.bytes]; layout

theorem bucket_bytes (a : Bucket) (b : Bytes) (h : buildBucket a = .ok b) : b = a.bytes := by
  simp only [buildBucket, bind_ok, pack_eq_ok, ok_inj] at h
  obtain ⟨as, h1, _, ⟨hf, rfl⟩, rfl⟩ := h
  have := seq_bytes action_bytes h1
  subst this
  rw [pad8_of 16 hf rfl, Bucket.bytes]; layout

theorem band_bytes (a : Band) (b : Bytes) (h : buildBand a = .ok b) : b = a.bytes := by
  cases a <;> simp only [buildBand, bind_ok, pyAssert_ok, pack_eq_ok, ok_inj, exists_const] at h
  case header t l =>
    split at h
    · simp only [bind_ok, pyAssert_ok, pack_eq_ok, ok_inj, exists_const] at h
      obtain ⟨_, ⟨_, rfl⟩, _, rfl⟩ := h; layout; simp [Band.bytes]
    · cases h
  case experimenter => obtain ⟨ht, _, ⟨_, rfl⟩, rfl⟩ := h; rw [ht, Band.bytes]; layout
  all_goals
    obtain ⟨ht, _, ⟨_, rfl⟩, _, rfl⟩ := h; rw [ht, Band.bytes]; layout

theorem port_bytes (p : PortT) (b : Bytes) (h : buildPort p = .ok b) : b = p.bytes := by
  simp only [buildPort, bind_ok, pyAssert_ok, pack_eq_ok, ok_inj, exists_const] at h
  obtain ⟨n, hn, h6, h16, _, ⟨_, rfl⟩, _, rfl⟩ := h
  have hn' : n = p.name.bytes := by
    cases ht : p.name with
    | uni b => simp [ht, encodeName] at hn
    | str b => rw [ht, encodeName] at hn; split at hn <;> simp at hn; simp [Text.bytes, hn]
  subst hn'
  rw [PortT.bytes, portFmt]
  layout
  simp only [inField, List.append_assoc]
  rw [List.take_of_length_le (by omega), List.take_of_length_le h16, h6]
  simp only [Nat.sub_self, zeros, List.replicate_zero, List.nil_append]

theorem qpropHdr_bytes {p l : Option Nat} {b : Bytes} (h : buildQPropHdr p l = .ok b) :
    b = be16 (p.getD 0) ++ be16 (l.getD 8) ++ zeros 4 := by
  simp only [buildQPropHdr, bind_ok, packOpt_ok, pyAssert_ok, ok_inj, exists_const, pack_eq_ok] at h
  obtain ⟨_, ⟨n, rfl, _, rfl⟩, _, rfl⟩ := h
  layout; rfl

theorem qprop__bytes {h : PropHdr} {d : Bytes} {t : Nat} {b : Bytes} (hb : buildQProp_ h d t = .ok b) :
    b = be16 t ++ be16 (8 + d.length) ++ zeros 4 ++ d := by
  simp only [buildQProp_, bind_ok, ok_inj] at hb
  obtain ⟨p, hp, _, h1, rfl⟩ := hb
  have : p = some t := by
    cases h with
    | raw c =>
      simp only [bind_ok] at hp
      obtain ⟨vs, _, h3⟩ := hp
      split at h3
      · simp only [bind_ok, pyAssert_ok, ok_inj, exists_const] at h3; rw [← h3.2, h3.1]
      · cases h3
    | tup q l =>
      cases q with
      | none => simp at hp; exact hp.symm
      | some q => simp only [bind_ok, pyAssert_ok, ok_inj, exists_const] at hp; rw [← hp.2, hp.1]
    | none => simp at hp; exact hp.symm
    | bad => simp at hp
  subst this
  rw [qpropHdr_bytes h1]
  simp [Nat.add_comm]

theorem qprop_bytes (a : QProp) (b : Bytes) (h : buildQProp a = .ok b) : b = a.bytes := by
  cases a <;> simp only [buildQProp, bind_ok, pyAssert_ok, pack_eq_ok, ok_inj, exists_const] at h
  case header => rw [qpropHdr_bytes h]; rfl
  case experimenter =>
    obtain ⟨_, ⟨_, rfl⟩, h⟩ := h
    rw [qprop__bytes h, QProp.bytes]; layout; simp
    simp only [← Nat.add_assoc]
  all_goals
    obtain ⟨_, ⟨_, rfl⟩, _, h, _, rfl⟩ := h
    rw [qprop__bytes h, QProp.bytes]; layout; rfl

theorem queue_bytes (a : Queue) (b : Bytes) (h : buildQueue a = .ok b) : b = a.bytes := by
  simp only [buildQueue, bind_ok, pack_eq_ok, ok_inj, pyAssert_ok, exists_const] at h
  obtain ⟨as, h1, _, ⟨hf, rfl⟩, _, rfl⟩ := h
  have := seq_bytes qprop_bytes h1
  subst this
  rw [Queue.bytes]; layout

theorem bitmap_bytes (l : List Nat) (b : Bytes) (h : bitmapList l = .ok b) : b = (l.map be32).flatten := by
  induction l generalizing b with
  | nil => simp [bitmapList] at h; simp [h]
  | cons n l ih =>
    simp only [bitmapList, bind_ok, pack_eq_ok, ok_inj] at h
    obtain ⟨_, ⟨_, rfl⟩, c, h1, rfl⟩ := h
    rw [ih c h1]; layout; simp

theorem helloElem_bytes (a : HelloElem) (b : Bytes) (h : buildHelloElem a = .ok b) : b = a.bytes := by
  cases a <;> simp only [buildHelloElem, bind_ok, pyAssert_ok, pack_eq_ok, ok_inj, exists_const] at h
  case header t l =>
    split at h
    · obtain ⟨_, rfl⟩ := pack_eq_ok.1 h; layout; simp [HelloElem.bytes]
    · cases h
  case versionBitmap t l bm =>
    obtain ⟨ht, bs, h1, _, ⟨hf, rfl⟩, rfl⟩ := h
    have : bs = bm.bytes := by
      cases bm with
      | list l => exact bitmap_bytes l bs h1
      | raw c => simp [bitmapBytes] at h1; exact h1.symm
      | none => simp [bitmapBytes] at h1; simp [Ints.bytes, h1]
      | bad => simp [bitmapBytes] at h1
    subst this
    rw [pad8_of 4 hf rfl, ht, HelloElem.bytes]; layout

theorem ints_pack (l : List Nat) : enc (List.replicate l.length I) (l.map .int) = (l.map be32).flatten := by
  induction l with
  | nil => simp [enc]
  | cons n l ih =>
    rw [List.length_cons, List.replicate_succ, List.map_cons]
    simp only [I, enc_u4]
    rw [show (Item.u 4) = I from rfl, ih]; simp

theorem ints_bytes (i : Ints) (b : Bytes) (h : intsBytes i = .ok b) : b = i.bytes := by
  cases i with
  | list l => simp only [intsBytes, pack_eq_ok] at h; rw [h.2, ints_pack]; rfl
  | raw c => simp [intsBytes] at h; exact h.symm
  | none => simp [intsBytes] at h; simp [Ints.bytes, h]
  | bad => simp [intsBytes] at h

theorem tf_bytes {t : Option Nat} {ts : List Nat} {i b : Bytes} (h : tfProp t ts i = .ok b) :
    b = pad8 (be16 (t.getD 0) ++ be16 (4 + i.length) ++ i) := by
  unfold tfProp at h
  split at h
  · cases h
  · simp only [bind_ok, pyAssert_ok, pack_eq_ok, ok_inj, exists_const] at h
    obtain ⟨_, _, ⟨hf, rfl⟩, rfl⟩ := h
    rw [pad8_of 4 hf rfl]; layout; rfl

theorem noTuple_bytes (a : Unit) (b : Bytes) (h : noTuple a = .ok b) : b = [] := by simp [noTuple] at h

theorem tfprop_bytes (a : TfProp) (b : Bytes) (h : buildTfProp a = .ok b) : b = a.bytes := by
  cases a <;> simp only [buildTfProp, bind_ok] at h
  case header t l =>
    split at h
    · obtain ⟨_, rfl⟩ := pack_eq_ok.1 h; layout; simp [TfProp.bytes]
    · cases h
  case instructions =>
    obtain ⟨_, h1, h2⟩ := h; rw [tf_bytes h2, seq_bytes instr_bytes h1]; rfl
  case nextTables =>
    obtain ⟨_, h1, h2⟩ := h; rw [tf_bytes h2, seq_bytes noTuple_bytes h1]; rfl
  case actions =>
    obtain ⟨_, h1, h2⟩ := h; rw [tf_bytes h2, seq_bytes action_bytes h1]; rfl
  case oxm =>
    obtain ⟨_, h1, h2⟩ := h; rw [tf_bytes h2, ints_bytes _ _ h1]; rfl
  case experimenter => cases h

theorem fourInts_bytes (i : Ints) (b : Bytes) (h : fourInts i = .ok b) : b = i.bytes4 := by
  cases i with
  | list l =>
    simp only [fourInts, pack_eq_ok] at h
    have hl : l.length = 4 := by
      have := h.1
      match l, this with
      | [_, _, _, _], _ => rfl
      | [], h => simp [fits, I] at h
      | [_], h => simp [fits, I] at h
      | [_, _], h => simp [fits, I] at h
      | [_, _, _], h => simp [fits, I] at h
      | _ :: _ :: _ :: _ :: _ :: _, h => simp [fits, I] at h
    rw [h.2, show ([I, I, I, I] : Fmt) = List.replicate l.length I from by rw [hl]; rfl, ints_pack]; rfl
  | raw c => simp [fourInts, bind_ok, pyAssert_ok] at h; exact h.2.symm
  | none => simp [fourInts] at h; simp [Ints.bytes4, ← h, nul_zeros]
  | bad => simp [fourInts] at h

theorem pair_bytes (p : Nat × Nat) (b : Bytes) (h : buildPair p = .ok b) : b = pairBytes p := by
  simp only [buildPair, pack_eq_ok] at h
  rw [h.2, pairBytes]; layout

theorem fits_counters {cs : List Nat} {n : Nat} {f : Fmt} {vs : List Val}
    (h : fits (List.replicate n Q ++ f) (cs.map .int ++ vs) = true) (hl : vs.length = f.length) (hi : ∀ i ∈ f, i = I) :
    cs.length = n := by
  induction n generalizing cs with
  | zero =>
    cases cs with
    | nil => rfl
    | cons c cs =>
      exfalso
      have : ∀ (f : Fmt) (vs : List Val), (∀ i ∈ f, i = I) → f.length < vs.length → fits f vs = false := by
        intro f
        induction f with
        | nil => intro vs _ h; cases vs <;> simp [fits] at h ⊢
        | cons i f ih =>
          intro vs hi h
          rw [hi i (by simp)]
          cases vs with
          | nil => simp at h
          | cons v vs =>
            cases v
            · simp only [I, fits, ih vs (fun i hi' => hi i (by simp [hi'])) (by simpa using h)]; simp
            · simp [I, fits]
      rw [List.replicate_zero, List.nil_append, this f _ hi (by simp; omega)] at h
      cases h
  | succ n ih =>
    cases cs with
    | nil =>
      exfalso
      have : ∀ (f : Fmt) (vs : List Val), (∀ i ∈ f, ∃ w, i = .u w) → vs.length < f.length → fits f vs = false := by
        intro f
        induction f with
        | nil => intro vs _ h; simp at h
        | cons i f ih =>
          intro vs hi h
          obtain ⟨w, rfl⟩ := hi i (by simp)
          cases vs with
          | nil => simp [fits]
          | cons v vs =>
            cases v
            · simp only [fits, ih vs (fun i hi' => hi i (by simp [hi'])) (by simpa using h)]; simp
            · simp [fits]
      rw [this _ _ _ (by simp; omega)] at h
      · cases h
      · intro i hm
        rcases List.mem_append.1 hm with hm | hm
        · exact ⟨8, (List.mem_replicate.1 hm).2⟩
        · exact ⟨4, hi i hm⟩
    | cons c cs =>
      rw [List.replicate_succ, List.map_cons, List.cons_append, List.cons_append] at h
      simp only [Q, fits, Bool.and_eq_true] at h
      rw [List.length_cons, ih h.2]

theorem enc_counters (cs : List Nat) (f : Fmt) (vs : List Val) :
    enc (List.replicate cs.length Q ++ f) (cs.map .int ++ vs) = (cs.map be64).flatten ++ enc f vs := by
  induction cs with
  | nil => rfl
  | cons c cs ih =>
    rw [List.length_cons, List.replicate_succ, List.map_cons, List.cons_append, List.cons_append]
    simp only [Q, enc_u8]
    rw [show (Item.u 8) = Q from rfl, ih]; simp

theorem rec_bytes (r : Rec) (b : Bytes) (hr : r.RightLen) (h : buildRec r = .ok b) : b = r.bytes := by
  cases r <;> simp only [buildRec, bind_ok, pyAssert_ok, pack_eq_ok, ok_inj, exists_const] at h
  case desc => obtain ⟨_, ⟨_, rfl⟩, _, rfl⟩ := h; rw [Rec.bytes]; layout
  case flowStatsReq mt =>
    obtain ⟨e, he, _, ⟨_, rfl⟩, _, m, hm, rfl⟩ := h
    rw [Rec.bytes, flowStatsReqFmt]
    have : m = (mt.getD (.tup ⟨none, none, .none⟩)).bytes MatchT.bytes := by
      cases mt with
      | some e' => simp at he; subst he; exact elem_bytes match_bytes hm
      | none =>
        simp only [bind_ok, ok_inj] at he
        obtain ⟨c, hc, rfl⟩ := he
        simp only [obj, ok_inj] at hm
        rw [← hm, match_bytes _ _ hc]; rfl
    rw [this]; layout
  case flowStats =>
    obtain ⟨is, h1, m, h2, _, ⟨_, rfl⟩, _, rfl⟩ := h
    rw [seq_bytes instr_bytes h1, elem_bytes match_bytes h2, Rec.bytes, flowStatsFmt]; layout
  case aggregateReq =>
    obtain ⟨_, ⟨_, rfl⟩, h40, _⟩ := h
    rw [enc_length _ _ (by assumption)] at h40
    simp [flowStatsReqFmt, calcsize, Item.width] at h40
  case aggregate => obtain ⟨_, rfl⟩ := h; rw [Rec.bytes]; layout
  case tableStats => obtain ⟨_, ⟨_, rfl⟩, _, rfl⟩ := h; rw [Rec.bytes]; layout
  case tableFeatures =>
    obtain ⟨ps, h1, _, ⟨_, rfl⟩, _, rfl⟩ := h
    rw [seq_bytes tfprop_bytes h1, Rec.bytes, tableFeaturesFmt]; layout
  case portStatsReq => obtain ⟨_, rfl⟩ := h; rw [Rec.bytes]; layout
  case portStats port cs ds dn =>
    obtain ⟨hf, rfl⟩ := h
    have hl : cs.length = 12 := by
      simp only [portStatsFmt, List.cons_append, List.nil_append, List.append_assoc, I, X, fits, Bool.and_eq_true] at hf
      exact fits_counters hf.2 rfl (by simp [I])
    rw [Rec.bytes, portStatsFmt, ← hl]
    simp only [List.cons_append, List.nil_append, List.append_assoc, I, X, enc_u4, enc_x, enc_counters, enc_nil,
      List.append_nil]
  case queueStatsReq p q =>
    split at h
    · cases h
    · obtain ⟨_, rfl⟩ := pack_eq_ok.1 h; rw [Rec.bytes]; layout; rfl
  case queueStats => obtain ⟨_, rfl⟩ := h; rw [Rec.bytes]; layout
  case groupStatsReq => obtain ⟨_, rfl⟩ := h; rw [Rec.bytes]; layout
  case groupStats =>
    obtain ⟨cs, h1, _, ⟨_, rfl⟩, rfl⟩ := h
    rw [seq_bytes pair_bytes h1, Rec.bytes, groupStatsFmt]; layout
  case groupDesc =>
    obtain ⟨cs, h1, _, ⟨_, rfl⟩, rfl⟩ := h
    rw [seq_bytes bucket_bytes h1, Rec.bytes]; layout
  case groupFeatures =>
    obtain ⟨ms, h1, as, h2, _, ⟨_, rfl⟩, rfl⟩ := h
    rw [fourInts_bytes _ _ h1, fourInts_bytes _ _ h2, Rec.bytes]; layout
  case meterReq => obtain ⟨_, rfl⟩ := h; rw [Rec.bytes]; layout
  case meterStats len _ _ _ _ _ bs =>
    obtain ⟨cs, h1, hd, h2, rfl⟩ := h
    obtain ⟨l, hl, h3⟩ := packOpt_ok.1 h2
    obtain ⟨_, rfl⟩ := pack_eq_ok.1 h3
    rw [hl] at hr
    injection hr with hr
    subst hr
    rw [seq_bytes pair_bytes h1, Rec.bytes, meterStatsFmt]; layout
  case meterConfig =>
    obtain ⟨cs, h1, _, ⟨_, rfl⟩, rfl⟩ := h
    rw [seq_bytes band_bytes h1, Rec.bytes]; layout
  case meterFeatures => obtain ⟨_, rfl⟩ := h; rw [Rec.bytes]; layout
  case port => exact port_bytes _ _ h
  case experimenter => cases h

end Twink.Of13
