import Verif.Model.Of14Obj
import Verif.Spec.Of14Again
import Verif.Proof.Of13Again
import Verif.Props.Of14

/-!
# Building twice, OpenFlow 1.4: helper lemmas for C86
-/

namespace Twink.Of14
open Fmt Of13 Spec

theorem again_action {a : Action} {b : Bytes} (hp : a.Parseable) (h : buildAction a = .ok b) : buildAction a.wire = .ok b := by
  cases a with
  | header t l => exact h
  | generic t l => exact h
  | expHeader t l x => exact h
  | push t l e => exact h
  | setField t l f =>
    simp only [buildAction, bind_ok, pyAssert_ok, exists_const] at h
    obtain ⟨ht, x, h1, h2⟩ := h
    obtain ⟨e1, e2⟩ := fill8_again 4 f
    simp only [Action.wire, buildAction, Option.getD_some, e1, e2, bind_ok, pyAssert_ok, exists_const, true_and]
    rw [ht, align_eq] at h1
    refine ⟨x, h1, ?_⟩
    rw [ok_inj] at h2 ⊢
    rw [← h2, List.append_assoc x, List.append_assoc x, fill8_eq]
    simp [nul]
  | experimenter t l x d =>
    simp only [buildAction, bind_ok, pyAssert_ok, exists_const] at h
    obtain ⟨ht, x, h1, h2⟩ := h
    obtain ⟨e1, e2⟩ := fill8_again 8 d
    simp only [Action.wire, buildAction, Option.getD_some, e1, e2, bind_ok, pyAssert_ok, exists_const, true_and]
    rw [ht, align_eq] at h1
    refine ⟨x, h1, ?_⟩
    rw [ok_inj] at h2 ⊢
    rw [← h2, List.append_assoc x, List.append_assoc x, fill8_eq]
    simp [nul]
  | _ =>
    simp only [buildAction, bind_ok, pyAssert_ok, exists_const] at h
    obtain ⟨ht, x, h1, h2⟩ := h
    rw [ht] at h1
    simp only [Action.wire, buildAction, Option.getD_some, bind_ok, pyAssert_ok, exists_const, true_and]
    exact ⟨x, h1, h2⟩

theorem again_actions {s : Seq Action} {b : Bytes} (hs : s.All Action.Parseable) (h : seqBytes buildAction s = .ok b) :
    seqBytes buildAction (wireActions s) = .ok b :=
  again_seq (P := Action.Parseable) (fun _ _ hp h => again_action hp h) hs h

theorem again_instr {i : Instr} {b : Bytes} (hp : i.Parseable) (h : buildInstr i = .ok b) : buildInstr i.wire = .ok b := by
  cases i with
  | header t l => exact h
  | actions t l s =>
    simp only [buildInstr, bind_ok] at h
    obtain ⟨x, h1, h2⟩ := h
    simp only [Instr.wire, buildInstr, bind_ok]
    exact ⟨x, again_actions hp h1, h2⟩
  | meter t l n =>
    simp only [buildInstr, bind_ok, pyAssert_ok, exists_const] at h
    obtain ⟨ht, h1⟩ := h
    rw [ht] at h1
    simp only [Instr.wire, buildInstr, Option.getD_some, bind_ok, pyAssert_ok, exists_const, true_and]
    exact h1
  | _ =>
    simp only [buildInstr, bind_ok, pyAssert_ok, exists_const] at h
    obtain ⟨ht, x, h1, h2⟩ := h
    rw [ht] at h1
    simp only [Instr.wire, buildInstr, Option.getD_some, bind_ok, pyAssert_ok, exists_const, true_and]
    exact ⟨x, h1, h2⟩

theorem again_instrs {s : Seq Instr} {b : Bytes} (hs : s.All Instr.Parseable) (h : seqBytes buildInstr s = .ok b) :
    seqBytes buildInstr (tups (s.values.map Instr.wire)) = .ok b :=
  again_seq (fun _ _ hp h => again_instr hp h) hs h

theorem again_bucket {k : Bucket} {b : Bytes} (hp : k.Parseable) (h : buildBucket k = .ok b) : buildBucket k.wire = .ok b := by
  simp only [buildBucket, bind_ok] at h
  obtain ⟨x, h1, h2⟩ := h
  simp only [Bucket.wire, buildBucket, bind_ok]
  exact ⟨x, again_actions hp h1, h2⟩

theorem again_buckets {s : Seq Bucket} {b : Bytes} (hs : s.All Bucket.Parseable) (h : seqBytes buildBucket s = .ok b) :
    seqBytes buildBucket (tups (s.values.map Bucket.wire)) = .ok b :=
  again_seq (fun _ _ hp h => again_bucket hp h) hs h

theorem again_reasons {s : Seq Pr} {b : Bytes} (hs : s.All Pr.ForAsync) (h : seqBytes buildPr s = .ok b) :
    seqBytes buildPr (tups (s.values.map Pr.wire)) = .ok b :=
  again_seq (P := Pr.ForAsync) (fun p b hp h => by cases p <;> first | exact h | exact hp.elim) hs h

/-- The records that can be built again. -/
def Twice (r : Rec) : Prop := ∃ t, t ∈ [0, 1, 6, 7, 8, 9, 10, 11] ∧ r.replyType = some t ∨ t ∈ [1, 4, 5, 6] ∧ r.requestType = some t

theorem objRec_wire {r : Rec} (ht : Twice r) : objRec r.wire = buildRec r.wire := by
  obtain ⟨t, ⟨ht, h⟩ | ⟨ht, h⟩⟩ := ht <;>
    cases r <;> first | rfl | (simp only [Rec.replyType, Rec.requestType, Option.some.injEq, reduceCtorEq] at h; try subst h; try simp at ht)

theorem again_rec {r : Rec} {b : Bytes} (hp : r.Parseable) (ht : Twice r) (h : buildRec r = .ok b) : objRec r.wire = .ok b := by
  rw [objRec_wire ht]
  cases r with
  | flowStatsReq t p g c cm mt =>
    simp only [buildRec, bind_ok, pyAssert_ok, exists_const] at h
    obtain ⟨e, h0, d, h1, hl, m, h2, h3⟩ := h
    simp only [Rec.wire, buildRec, bind_ok, pyAssert_ok, exists_const, Option.getD_some, ok_inj, exists_eq_left']
    refine ⟨d, h1, hl, m, ?_, by simpa using h3⟩
    rcases hp with rfl | ⟨mt, rfl⟩
    · simp only [bind_ok, ok_inj] at h0
      obtain ⟨x, h4, rfl⟩ := h0
      simp only [obj, ok_inj] at h2
      subst h2
      exact again_match (m := ⟨none, none, .none⟩) h4
    · simp only [ok_inj] at h0
      subst h0
      exact again_match h2
  | flowStats l t ds dn p i hd f c pc bc mt is =>
    obtain ⟨⟨mt, rfl⟩, hp⟩ := hp
    simp only [buildRec, bind_ok] at h
    obtain ⟨x, h1, y, h2, h3⟩ := h
    simp only [Rec.wire, buildRec, bind_ok]
    exact ⟨x, again_instrs hp h1, y, again_match h2, h3⟩
  | groupStats l g rc p bc ds dn cs =>
    simp only [buildRec, bind_ok] at h
    obtain ⟨x, h1, h3⟩ := h
    simp only [Rec.wire, buildRec, bind_ok]
    have := again_seq (w := id) (fun a b _ h => h) hp h1
    rw [List.map_id] at this
    exact ⟨x, this, h3⟩
  | groupDesc l t g bs =>
    simp only [buildRec, bind_ok] at h
    obtain ⟨x, h1, h3⟩ := h
    simp only [Rec.wire, buildRec, bind_ok]
    exact ⟨x, again_buckets hp h1, h3⟩
  | groupFeatures t c ms as =>
    simp only [buildRec, bind_ok] at h
    obtain ⟨x, h1, y, h2, h3⟩ := h
    simp only [Rec.wire, buildRec, bind_ok]
    exact ⟨x, four_again hp.1 h1, y, four_again hp.2 h2, h3⟩
  | meterStats m l f p bc ds dn bs =>
    simp only [buildRec, bind_ok] at h
    obtain ⟨x, h1, h3⟩ := h
    simp only [Rec.wire, buildRec, bind_ok]
    have := again_seq (w := id) (fun a b _ h => h) hp.1 h1
    rw [List.map_id] at this
    rw [hp.2] at h3
    exact ⟨x, this, h3⟩
  | meterConfig l f m bs =>
    simp only [buildRec, bind_ok] at h
    obtain ⟨x, h1, h3⟩ := h
    simp only [Rec.wire, buildRec, bind_ok]
    exact ⟨x, again_bands hp h1, h3⟩
  | desc a b c d e =>
    simp only [Rec.wire, buildRec, Option.getD_some] at h ⊢
    simp only [bind_ok, pack_eq_ok] at h ⊢
    obtain ⟨x, ⟨hf, rfl⟩, h2⟩ := h
    refine ⟨_, ⟨?_, rfl⟩, ?_⟩
    · simp [fits]
    · simp only [enc, enc_inField] at h2 ⊢
      exact h2
  | tableFeatures => obtain ⟨t, ⟨ht, h⟩ | ⟨ht, h⟩⟩ := ht <;> simp [Rec.replyType, Rec.requestType] at h; subst h; simp at ht
  | queueDesc => obtain ⟨t, ⟨ht, h⟩ | ⟨ht, h⟩⟩ := ht <;> simp [Rec.replyType, Rec.requestType] at h; subst h; simp at ht
  | flowMonitorReq => obtain ⟨t, ⟨ht, h⟩ | ⟨ht, h⟩⟩ := ht <;> simp [Rec.replyType, Rec.requestType] at h; subst h; simp at ht
  | _ => first | exact h | exact hp.elim

theorem again_recs {l : List Rec} {b : Bytes} (hl : ∀ r ∈ l, r.Parseable ∧ Twice r) (h : join buildRec (l.map .tup) = .ok b) :
    join objRec ((l.map Rec.wire).map .tup) = .ok b := by
  induction l generalizing b with
  | nil => exact h
  | cons r l ih =>
    simp only [List.map_cons] at h ⊢
    rw [join_ok_cons] at h ⊢
    obtain ⟨x, y, h1, h2, rfl⟩ := h
    obtain ⟨hp, ht⟩ := hl r (by simp)
    exact ⟨x, y, again_rec hp ht h1, ih (fun r hr => hl r (by simp [hr])) h2, rfl⟩

/-! ### headers -/

/-- The header tuple made by the parser gives the same header. -/
theorem Made.one {rnd : Nat} {bs d : Bytes} {t x n : Nat} (hb : Made bs t x d) : ofp_ rnd (Hdr.arg ⟨5, t, n, x⟩) d (.one t) = .ok bs := by
  rw [hb.eq]
  simp only [ofp_, Hdr.arg, hdrFields, ofpHeader, packOpt, Option.getD_some, pyAssert_true, ok_bind, pack, hb.fits, if_true]

theorem Made.among {rnd : Nat} {bs d : Bytes} {t x n : Nat} {ts : List Nat} (hb : Made bs t x d) (ht : t ∈ ts) :
    ofp_ rnd (Hdr.arg ⟨5, t, n, x⟩) d (.among ts) = .ok bs := by
  rw [hb.eq]
  simp only [ofp_, Hdr.arg, hdrFields, ofpHeader, packOpt, Option.getD_some, pyAssert_true, pyAssert_true ht, ok_bind, pack, hb.fits, if_true]

theorem Made.any {rnd : Nat} {bs d : Bytes} {t x n : Nat} (hb : Made bs t x d) : ofp_ rnd (Hdr.arg ⟨5, t, n, x⟩) d .any = .ok bs := by
  rw [hb.eq]
  simp only [ofp_, Hdr.arg, hdrFields, ofpHeader, packOpt, Option.getD_some, pyAssert_true, ok_bind, pack, hb.fits, if_true]

/-- Parsed, and built again. -/
def Redone (bs : Bytes) : Prop := ∃ msg size, Ok bs msg size ∧ ∀ rnd, objMsg rnd msg = .ok bs

theorem redone_call {c : Call} {rnd : Nat} {h : HdrArg} {bs : Bytes} (hp : c.Parseable h) (hb : c.run rnd h = .ok bs)
    (ho : ∀ rnd', objMsg rnd' (c.wire rnd h) = .ok bs) : Redone bs :=
  ⟨_, _, call_ok c rnd h bs hp hb, ho⟩

theorem redone_other {bs d : Bytes} {t x : Nat} (hb : Made bs t x d) (ht : t = 24 ∨ t = 25) : Redone bs :=
  ⟨_, _, made_other hb (by omega) (by omega) (fun m n => parseOf_other (.inr ht) m n), fun _ => hb.any⟩

theorem again_mpRequest {rnd : Nat} {h : HdrArg} {t f n : Nat} {body body' : Body} {bs : Bytes}
    (hb : buildMpRequest rnd h t f body = .ok bs) (hr : ∀ b, reqBody t body = .ok b → objReqBody t body' = .ok b) (rnd' : Nat) :
    objMsg rnd' (.mpRequest ⟨5, 18, n, h.xid rnd⟩ t f body') = .ok bs := by
  simp only [buildMpRequest, bind_ok] at hb
  obtain ⟨b, h1, d, h2, h3⟩ := hb
  simp only [objMsg, bind_ok]
  exact ⟨b, hr b h1, d, h2, (made_one h3).one⟩

theorem again_mpReply {rnd : Nat} {h : HdrArg} {t f n : Nat} {body body' : Body} {bs : Bytes}
    (hb : buildMpReply rnd h t f body = .ok bs) (hr : ∀ b, repBody t body = .ok b → objRepBody t body' = .ok b) (rnd' : Nat) :
    objMsg rnd' (.mpReply ⟨5, 19, n, h.xid rnd⟩ t f body') = .ok bs := by
  simp only [buildMpReply, bind_ok] at hb
  obtain ⟨b, h1, d, h2, h3⟩ := hb
  simp only [objMsg, bind_ok]
  exact ⟨b, hr b h1, d, h2, (made_one h3).one⟩

theorem objReqBody_one {t : Nat} {r : Rec} (ht : t ∈ [1, 4, 5, 6]) : objReqBody t (.one r) = objRec r := by
  simp only [List.mem_cons, List.not_mem_nil, or_false] at ht
  rcases ht with rfl | rfl | rfl | rfl <;> rfl

theorem requestType_mem {t : Nat} {r : Rec} (hr : r.requestType = some t) (hp : r.Parseable) (h : t ∉ [15, 16]) : t ∈ [1, 4, 5, 6] := by
  cases r <;> simp [Rec.requestType] at hr <;> first | exact hp.elim | (subst hr; simp at h ⊢)

end Twink.Of14
