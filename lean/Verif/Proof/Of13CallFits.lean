import Verif.Proof.Of13Fits
import Verif.Props.Of13Layout
import Verif.Props.Server

/-! The message builders succeed exactly on the arguments of `Spec/Of13Fits`. -/

namespace Twink.Of13
open Fmt Spec

theorem unpack_hdr (b : Bytes) :
    unpackFrom hdrFmt b 0 =
      if 8 ≤ b.length then .ok [.int (u8 b 0), .int (u8 b 1), .int (u16 b 2), .int (u32 b 4)] else .error .structError := by
  rw [unpackFrom]
  by_cases h : 8 ≤ b.length
  · rw [if_pos (by simp [calcsize, hdrFmt, Item.width]; omega), if_pos h]
    simp only [hdrFmt, dec, decBE_u8 b 0 (by omega), List.drop_drop, decBE_u8 b 1 (by omega), decBE_u16 b 2 (by omega),
      decBE_u32 b 4 (by omega), B, H, I, Nat.reduceAdd]
  · rw [if_neg (by simp [calcsize, hdrFmt, Item.width]; omega), if_neg h]

theorem ofp_hdr (rnd : Nat) (v x : Option Nat) (ty : Nat) (d : Bytes) (ht : ty < 256) :
    (∃ b, (do let h ← ofpHeader rnd v (some ty) (some (8 + d.length)) x; .ok (h ++ d)) = (.ok b : Py Bytes)) ↔
      isType v 4 ∧ x.getD rnd < 4294967296 ∧ 8 + d.length < 65536 := by
  simp only [bind_ok, ok_inj, ofpHeader, pyAssert_ok, packOpt, pack_eq_ok, exists_const, ← isType_iff]
  constructor
  · rintro ⟨_, _, ⟨h1, h2, _⟩, _⟩
    simp [fits, hdrFmt] at h2
    exact ⟨h1, h2.2.2.2, h2.2.2.1⟩
  · rintro ⟨h1, h2, h3⟩
    refine ⟨_, _, ⟨h1, ?_, rfl⟩, rfl⟩
    simp [fits, hdrFmt, h1, h2, h3, ht]

theorem ofp_one_fits (rnd : Nat) (h : HdrArg) (d : Bytes) (ty : Nat) (ht : ty < 256) :
    (∃ b, ofp_ rnd h d (.one ty) = .ok b) ↔ h.Fits [ty] rnd ∧ 8 + d.length < 65536 := by
  cases h with
  | none => simpa [ofp_, hdrFields, ok_bind, HdrArg.Fits, isType] using ofp_hdr rnd (some 4) (some rnd) ty d ht
  | bad => simp [ofp_, hdrFields, HdrArg.Fits, bind, Except.bind]
  | tup v t l x =>
    cases t with
    | none => simpa [ofp_, hdrFields, ok_bind, HdrArg.Fits, isAmong, and_assoc] using ofp_hdr rnd v x ty d ht
    | some t =>
      by_cases h : t = ty
      · subst h
        simpa [ofp_, hdrFields, ok_bind, HdrArg.Fits, pyAssert, isAmong, and_assoc] using ofp_hdr rnd v x t d ht
      · simp [ofp_, hdrFields, HdrArg.Fits, pyAssert, isAmong, h, bind, Except.bind]
  | raw b =>
    simp only [ofp_, hdrFields, unpack_hdr, HdrArg.Fits]
    by_cases hb : 8 ≤ b.length
    · rw [if_pos hb]
      by_cases hp : u8 b 1 = ty
      · have := ofp_hdr rnd (some (u8 b 0)) (some (u32 b 4)) ty d ht
        have h3 : u32 b 4 < 4294967296 := u32_lt b 4
        simpa [hb, hp, pyAssert, ok_bind, isType, h3] using this
      · simp [hp, pyAssert, bind, Except.bind]
    · rw [if_neg hb]
      simp [hb, bind, Except.bind]

theorem ofp_among_fits (rnd : Nat) (h : HdrArg) (d : Bytes) (ts : List Nat) (ht : ∀ t ∈ ts, t < 256) (hn : ts.length ≠ 1) :
    (∃ b, ofp_ rnd h d (.among ts) = .ok b) ↔ h.Fits ts rnd ∧ 8 + d.length < 65536 := by
  cases h with
  | none => simp [ofp_, hdrFields, HdrArg.Fits, hn, bind, Except.bind]
  | bad => simp [ofp_, hdrFields, HdrArg.Fits, bind, Except.bind]
  | tup v t l x =>
    cases t with
    | none => simp [ofp_, hdrFields, HdrArg.Fits, hn, isAmong, bind, Except.bind]
    | some t =>
      by_cases h : t ∈ ts
      · simpa [ofp_, hdrFields, ok_bind, HdrArg.Fits, pyAssert, isAmong, and_assoc, h] using ofp_hdr rnd v x t d (ht t h)
      · simp [ofp_, hdrFields, HdrArg.Fits, pyAssert, isAmong, h, bind, Except.bind]
  | raw b =>
    simp only [ofp_, hdrFields, unpack_hdr, HdrArg.Fits]
    by_cases hb : 8 ≤ b.length
    · rw [if_pos hb]
      by_cases hp : u8 b 1 ∈ ts
      · have := ofp_hdr rnd (some (u8 b 0)) (some (u32 b 4)) (u8 b 1) d (ht _ hp)
        have h3 : u32 b 4 < 4294967296 := u32_lt b 4
        simpa [hb, hp, pyAssert, ok_bind, isType, h3] using this
      · simp [hp, pyAssert, bind, Except.bind]
    · rw [if_neg hb]
      simp [hb, bind, Except.bind]

theorem ofp_one_iff (rnd : Nat) (h : HdrArg) (d : Bytes) (ty : Nat) (b : Bytes) (ht : ty < 256 := by decide) :
    ofp_ rnd h d (.one ty) = .ok b ↔
      (h.Fits [ty] rnd ∧ 8 + d.length < 65536) ∧ b = ofHeader 4 ty (8 + d.length) (h.xid rnd) ++ d :=
  built_iff (build := fun d => ofp_ rnd h d (.one ty)) (f := fun d => ofHeader 4 ty (8 + d.length) (h.xid rnd) ++ d)
    (fun d b hb => by
      have := one_layout hb
      rw [this]; congr 2; rw [this]; simp [Nat.add_comm])
    (fun d => ofp_one_fits rnd h d ty ht) d b

theorem ofp_among_iff (rnd : Nat) (h : HdrArg) (d : Bytes) (ts : List Nat) (b : Bytes) (ht : ∀ t ∈ ts, t < 256 := by decide)
    (hn : ts.length ≠ 1 := by decide) : ofp_ rnd h d (.among ts) = .ok b ↔
      (h.Fits ts rnd ∧ 8 + d.length < 65536) ∧ b = ofHeader 4 (h.type 0) (8 + d.length) (h.xid rnd) ++ d :=
  built_iff (build := fun d => ofp_ rnd h d (.among ts)) (f := fun d => ofHeader 4 (h.type 0) (8 + d.length) (h.xid rnd) ++ d)
    (fun d b hb => by
      have := among_layout hb
      rw [this]; congr 2; rw [this]; simp [Nat.add_comm])
    (fun d => ofp_among_fits rnd h d ts ht hn) d b

theorem rec_length (r : Rec) (b : Bytes) (h : buildRec r = .ok b) : b.length = r.bytes.length := by
  cases r
  case meterStats m len f p by' ds dn bs =>
    simp only [buildRec, bind_ok, ok_inj] at h
    obtain ⟨cs, h1, hd, h2, rfl⟩ := h
    obtain ⟨l, hl, h3⟩ := packOpt_ok.1 h2
    obtain ⟨_, rfl⟩ := pack_eq_ok.1 h3
    rw [seq_bytes pair_bytes h1, Rec.bytes, meterStatsFmt]; layout; simp
  all_goals exact congrArg _ (rec_bytes _ b (by trivial) h)

theorem recs_length (l : List (Elem Rec)) (b : Bytes) (h : join buildRec l = .ok b) :
    b.length = (l.map (Elem.bytes Rec.bytes)).flatten.length := by
  induction l generalizing b with
  | nil => simp [join] at h; simp [← h]
  | cons e es ih =>
    simp only [join, bind_ok, ok_inj] at h
    obtain ⟨x, h1, y, h2, rfl⟩ := h
    rw [List.length_append, ih y h2, List.map_cons, List.flatten_cons, List.length_append]
    congr 1
    cases e with
    | raw c => simp [obj] at h1; simp [Elem.bytes, h1]
    | tup r => exact rec_length r x h1
    | bad => simp [obj] at h1

theorem recAsList_iff (r : Rec) : (∃ b, recAsList r = .ok b) ↔ r.asList.isSome := by
  unfold recAsList Rec.asList
  split <;> simp

theorem recAsList_length (r : Rec) (b : Bytes) (h : recAsList r = .ok b) : b.length = r.asList.getD 0 := by
  unfold recAsList at h
  split at h
  · simp at h; subst h; simp [Rec.asList]; omega
  · cases h

/-- The size of the body of a request. -/
def reqSize (t : Nat) (b : Body) : Nat :=
  if t ∈ [0, 3, 7, 8, 11, 13] then 0
  else match b with
    | .one r => if t = 12 then r.asList.getD 0 else r.bytes.length
    | b => b.bytes.length

/-- The size of the body of a reply. -/
def repSize (t : Nat) (b : Body) : Nat :=
  match b with
  | .one r => if t ∈ [1, 3, 4, 5, 6, 7, 9, 10, 12, 13] then r.asList.getD 0 else r.bytes.length
  | b => b.bytes.length

theorem reqBody_fits (t : Nat) (b : Body) : (∃ bs, reqBody t b = .ok bs) ↔ b.FitsReq t := by
  unfold reqBody Body.FitsReq
  by_cases h1 : t ∈ [0, 3, 7, 8, 11, 13]
  · simp [h1]
  · rw [if_neg h1, if_neg h1]
    by_cases h2 : t ∈ [1, 2, 4, 5, 6, 9, 10]
    · have h3 : t ≠ 12 := by rintro rfl; simp at h2
      rw [if_pos h2]
      cases b <;> simp only [h2, h3, objBody, rec_fits] <;> simp
    · rw [if_neg h2]
      by_cases h3 : t = 12
      · rw [if_pos h3]
        cases b <;> simp only [h3, join_fits rec_fits, recAsList_iff] <;> simp
      · rw [if_neg h3]
        cases b <;> simp only [h2, h3] <;> simp

theorem reqBody_length (t : Nat) (b : Body) (bs : Bytes) (h : reqBody t b = .ok bs) : bs.length = reqSize t b := by
  unfold reqBody at h
  unfold reqSize
  split at h
  · rename_i h1; simp at h; simp [h1, ← h]
  · rename_i h1
    rw [if_neg h1]
    split at h
    · rename_i h2
      have h3 : t ≠ 12 := by rintro rfl; simp at h2
      cases b <;> simp only [objBody, ok_inj] at h <;> try cases h
      · rfl
      · simp [Body.bytes]
      · simp only [h3, if_false]; exact rec_length _ _ h
    · split at h
      · rename_i h3
        cases b <;> simp only [ok_inj] at h <;> try cases h
        · simp [Body.bytes]
        · simp only [h3, if_true]; exact recAsList_length _ _ h
        · exact recs_length _ _ h
      · cases b <;> simp only [ok_inj] at h <;> try cases h
        simp [Body.bytes]

theorem repBody_fits (t : Nat) (b : Body) : (∃ bs, repBody t b = .ok bs) ↔ b.FitsRep t := by
  unfold repBody
  by_cases h1 : t ∈ [0, 2, 8, 11]
  · have h2 : t ∉ [1, 3, 4, 5, 6, 7, 9, 10, 12, 13] := by simp at h1 ⊢; omega
    rw [if_pos h1]
    cases b <;> simp only [Body.FitsRep, h1, h2, objBody, rec_fits] <;> simp
    simp at h1; omega
  · rw [if_neg h1]
    by_cases h2 : t ∈ [1, 3, 4, 5, 6, 7, 9, 10, 12, 13]
    · rw [if_pos h2]
      cases b <;> simp only [Body.FitsRep, h1, h2, join_fits rec_fits, recAsList_iff] <;> simp
      simp at h1 h2; omega
    · rw [if_neg h2]
      by_cases h3 : t = 0xffff
      · rw [if_pos h3]
        cases b <;> simp only [Body.FitsRep, h3] <;> simp
      · rw [if_neg h3]
        cases b <;> simp only [Body.FitsRep, h1, h2] <;> simp
        simp at h1; omega

theorem repBody_length (t : Nat) (b : Body) (bs : Bytes) (h : repBody t b = .ok bs) : bs.length = repSize t b := by
  unfold repBody at h
  unfold repSize
  split at h
  · rename_i h1
    have h2 : t ∉ [1, 3, 4, 5, 6, 7, 9, 10, 12, 13] := by simp at h1 ⊢; omega
    cases b <;> simp only [objBody, ok_inj] at h <;> try cases h
    · rfl
    · simp [Body.bytes]
    · simp only [h2, if_false]; exact rec_length _ _ h
  · split at h
    · rename_i h2
      cases b <;> simp only [ok_inj] at h <;> try cases h
      · rfl
      · simp only [h2, if_true]; exact recAsList_length _ _ h
      · exact recs_length _ _ h
    · split at h
      · cases b <;> simp only [ok_inj] at h <;> try cases h
        simp [Body.bytes]
      · cases h

theorem reqSize_eq (t f : Nat) (b : Body) : (Call.mpRequest t f b).size = 8 + reqSize t b := by
  by_cases h : t = 12
  · subst h
    cases b <;> simp [Call.size, reqSize, Call.body, Body.bytes] <;> omega
  · have : (Call.mpRequest t f b).size = (Call.mpRequest t f b).body.length := by
      cases b
      case one r => unfold Call.size; split <;> simp_all
      all_goals simp [Call.size]
    rw [this, Call.body]
    unfold reqSize
    by_cases h1 : t ∈ [0, 3, 7, 8, 11, 13]
    · simp only [h1, if_true]; simp
    · simp only [h1, if_false]
      cases b <;> simp [Body.bytes, h] <;> omega

theorem repSize_eq (t f : Nat) (b : Body) : (Call.mpReply t f b).size = 8 + repSize t b := by
  cases b
  case one r =>
    simp only [Call.size, repSize]
    split
    · rfl
    · simp [Call.body, Body.bytes]; omega
  all_goals simp [Call.size, repSize, Call.body, Body.bytes] <;> omega

theorem fits_six (l : List Nat) : fits [I, I, I, I, I, I] (l.map .int) = true ↔ l.length = 6 ∧ ∀ n ∈ l, n < 4294967296 := by
  constructor
  · intro h
    have h6 := six_ints h
    rw [show ([I, I, I, I, I, I] : Fmt) = List.replicate l.length I from by rw [h6]; rfl] at h
    exact ⟨h6, (fits_ints l).1 h⟩
  · rintro ⟨h6, h⟩
    rw [show ([I, I, I, I, I, I] : Fmt) = List.replicate l.length I from by rw [h6]; rfl]
    exact (fits_ints l).2 h

theorem be32s_length (l : List Nat) : (l.map be32).flatten.length = 4 * l.length := by
  induction l with
  | nil => rfl
  | cons n l ih => rw [List.map_cons, List.flatten_cons, List.length_append, ih]; simp; omega

theorem call_fits (rnd : Nat) (h : HdrArg) (c : Call) :
    (∃ b, c.run rnd h = .ok b) ↔ h.Fits c.types rnd ∧ c.FitsBody ∧ 8 + c.size < 65536 := by
  have key : ∀ (body : Py Bytes) (P : Prop) (n t f ty : Nat), ty < 256 → ((∃ b, body = .ok b) ↔ P) → (∀ b, body = .ok b → b.length = n) →
      ((∃ b, (do let b ← body; let d ← pack [H, H, X 4] [.int t, .int f]; ofp_ rnd h (d ++ b) (.one ty)) = .ok b) ↔
        h.Fits [ty] rnd ∧ (t < 65536 ∧ f < 65536 ∧ P) ∧ 8 + (8 + n) < 65536) := by
    intro body P n t f ty hty hP hn
    have hl : (enc [H, H, X 4] [.int t, .int f]).length = 8 := by simp [enc]
    simp only [bind_ok, pack_eq_ok, ofp_one_iff (ty := ty) (ht := hty), List.length_append]
    constructor
    · rintro ⟨_, b, hb, _, ⟨hf, rfl⟩, ⟨hh, hs⟩, _⟩
      simp [fits] at hf
      rw [hl, hn b hb] at hs
      exact ⟨hh, ⟨hf.1, hf.2, hP.1 ⟨b, hb⟩⟩, hs⟩
    · rintro ⟨hh, ⟨ht, hf, hp⟩, hs⟩
      obtain ⟨b, hb⟩ := hP.2 hp
      refine ⟨_, b, hb, _, ⟨by simp [fits, ht, hf], rfl⟩, ⟨hh, ?_⟩, rfl⟩
      rw [hl, hn b hb]; exact hs
  cases c
  case mpRequest t f b =>
    rw [reqSize_eq]
    exact key _ _ _ t f 18 (by decide) (reqBody_fits t b) (reqBody_length t b)
  case mpReply t f b =>
    rw [repSize_eq]
    refine (key _ _ _ t f 19 (by decide) (repBody_fits t b) (repBody_length t b)).trans ?_
    have : b.FitsRep t → t < 65536 := by
      intro hb
      cases b <;> simp [Body.FitsRep] at hb <;> omega
    constructor
    · rintro ⟨h1, ⟨_, h3, h4⟩, h5⟩; exact ⟨h1, ⟨h3, h4⟩, h5⟩
    · rintro ⟨h1, ⟨h3, h4⟩, h5⟩; exact ⟨h1, ⟨this h4, h3, h4⟩, h5⟩
  case async a b c =>
    simp only [Call.run, buildAsync, bind_ok, pack_eq_ok, ofp_among_iff (ts := [27, 28]) (ht := by decide) (hn := by decide), fits_six]
    have hl : fits [I, I, I, I, I, I] ((a ++ b ++ c).map .int) = true → (enc [I, I, I, I, I, I] ((a ++ b ++ c).map .int)).length = 24 := 
      fun hf => by rw [enc_length _ _ hf]; rfl
    have hs : (Call.async a b c).size = 4 * (a ++ b ++ c).length := by
      simp only [Call.size, Call.body, List.length_append, be32s_length]; omega
    rw [hs]
    constructor
    · rintro ⟨_, _, ⟨h6, rfl⟩, ⟨hh, _⟩, _⟩
      exact ⟨hh, h6, by rw [h6.1]; decide⟩
    · rintro ⟨hh, h6, _⟩
      exact ⟨_, _, ⟨h6, rfl⟩, ⟨hh, by rw [hl ((fits_six _).2 h6)]; decide⟩, rfl⟩
  case config f m =>
    have : HdrArg.Fits [9, 8] rnd h ↔ HdrArg.Fits [8, 9] rnd h := by
      cases h <;> simp [HdrArg.Fits, isAmong, or_comm]
    built [Call.run, buildConfig, ofp_among_iff, Call.FitsBody, Call.size, Call.body, Call.types, this]
    grind
  all_goals
    built [Call.run, Call.FitsBody, Call.size, Call.body, Call.types, ofp_one_iff, ofp_among_iff, match_iff, port_iff, actions_iff,
      instrs_iff, bands_iff, buckets_iff, seq_iff helloElem_bytes helloElem_fits, seq_iff queue_bytes queue_fits, flowModFmt,
      flowRemovedFmt, portModFmt, inField, padTo, buildHello, buildError, buildFeatures, buildPacketIn, buildFlowRemoved, buildPortStatus,
      buildPacketOut, buildFlowMod, buildGroupMod, buildPortMod, buildTableMod, buildQueueReq, buildQueueRep, buildRole, buildMeterMod,
      buildExperimenter]
  all_goals grind

end Twink.Of13
