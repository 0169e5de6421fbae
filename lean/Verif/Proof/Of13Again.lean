import Verif.Model.Of13Obj
import Verif.Props.Of13

/-!
# Building twice: helper lemmas for C60
-/

namespace Twink.Of13
open Fmt Spec

theorem fill8_again (x : Nat) (b : Bytes) : (x + (fill8 x b).length) = up8 (x + b.length) ∧ align (up8 (x + b.length)) = up8 (x + b.length) := by
  refine ⟨fill8_length x b, ?_⟩
  rw [align_eq, up8_of_mod (up8_mod _)]

theorem again_action {a : Action} {b : Bytes} (h : buildAction a = .ok b) : buildAction a.wire = .ok b := by
  cases a with
  | header t l => exact h
  | push t l e => exact h
  | setField t l f =>
    simp only [buildAction, bind_ok, pyAssert_ok, exists_const] at h
    obtain ⟨ht, x, h1, h2⟩ := h
    obtain ⟨e1, e2⟩ := fill8_again 4 f
    simp only [Action.wire, buildAction, Option.getD_some, e1, e2, bind_ok, pyAssert_ok, exists_const, true_and]
    rw [ht, align_eq] at h1
    refine ⟨x, h1, ?_⟩
    rw [ok_inj] at h2 ⊢
    rw [← h2, List.append_assoc x, List.append_assoc x, fill8_eq]
    simp [nul]
  | experimenter t l x d =>
    simp only [buildAction, bind_ok, pyAssert_ok, exists_const] at h
    obtain ⟨ht, x, h1, h2⟩ := h
    obtain ⟨e1, e2⟩ := fill8_again 8 d
    simp only [Action.wire, buildAction, Option.getD_some, e1, e2, bind_ok, pyAssert_ok, exists_const, true_and]
    rw [ht, align_eq] at h1
    refine ⟨x, h1, ?_⟩
    rw [ok_inj] at h2 ⊢
    rw [← h2, List.append_assoc x, List.append_assoc x, fill8_eq]
    simp [nul]
  | _ =>
    simp only [buildAction, bind_ok, pyAssert_ok, exists_const] at h
    obtain ⟨ht, x, h1, h2⟩ := h
    rw [ht] at h1
    simp only [Action.wire, buildAction, Option.getD_some, bind_ok, pyAssert_ok, exists_const, true_and]
    exact ⟨x, h1, h2⟩

/-- If every element gives the same bytes again, so does the sequence. -/
theorem again_seq {build : α → Py Bytes} {w : α → α} {P : α → Prop} (hw : ∀ a b, P a → build a = .ok b → build (w a) = .ok b)
    {s : Seq α} {b : Bytes} (hs : s.All P) (h : seqBytes build s = .ok b) : seqBytes build (tups (s.values.map w)) = .ok b := by
  cases s with
  | raw x => exact hs.elim
  | bad => exact hs.elim
  | none => exact h
  | items l =>
    simp only [seqBytes, tups, Seq.values] at h ⊢
    induction l generalizing b with
    | nil => exact h
    | cons e l ih =>
      obtain ⟨a, rfl, ha⟩ := hs e (by simp)
      rw [join_ok_cons] at h
      obtain ⟨x, y, h1, h2, rfl⟩ := h
      have h3 := ih (fun e he => hs e (by simp [he])) h2
      simp only [List.filterMap_cons, List.map_cons]
      rw [join_ok_cons]
      exact ⟨x, y, hw a x ha h1, h3, rfl⟩

theorem again_actions {s : Seq Action} {b : Bytes} (hs : s.All Action.Parseable) (h : seqBytes buildAction s = .ok b) :
    seqBytes buildAction (wireActions s) = .ok b :=
  again_seq (P := Action.Parseable) (fun _ _ _ h => again_action h) hs h

theorem again_instr {i : Instr} {b : Bytes} (hp : i.Parseable) (h : buildInstr i = .ok b) : buildInstr i.wire = .ok b := by
  cases i with
  | header t l => exact h
  | actions t l s =>
    simp only [buildInstr, bind_ok] at h
    obtain ⟨x, h1, h2⟩ := h
    simp only [Instr.wire, buildInstr, bind_ok]
    exact ⟨x, again_actions hp h1, h2⟩
  | meter t l n =>
    simp only [buildInstr, bind_ok, pyAssert_ok, exists_const] at h
    obtain ⟨ht, h1⟩ := h
    rw [ht] at h1
    simp only [Instr.wire, buildInstr, Option.getD_some, bind_ok, pyAssert_ok, exists_const, true_and]
    exact h1
  | _ =>
    simp only [buildInstr, bind_ok, pyAssert_ok, exists_const] at h
    obtain ⟨ht, x, h1, h2⟩ := h
    rw [ht] at h1
    simp only [Instr.wire, buildInstr, Option.getD_some, bind_ok, pyAssert_ok, exists_const, true_and]
    exact ⟨x, h1, h2⟩

theorem again_instrs {s : Seq Instr} {b : Bytes} (hs : s.All Instr.Parseable) (h : seqBytes buildInstr s = .ok b) :
    seqBytes buildInstr (tups (s.values.map Instr.wire)) = .ok b :=
  again_seq (fun _ _ hp h => again_instr hp h) hs h

theorem again_match {m : MatchT} {b : Bytes} (h : buildMatch m = .ok b) : buildMatch (m.wire m.fields) = .ok b := by
  obtain ⟨hf, rfl⟩ := match_ok h
  simp only [buildMatch, MatchT.wire, seqBytes, ok_bind, Option.getD_some, pack, hf, if_true]
  rw [List.append_assoc, fill8_eq, pyAssert_true, ok_bind]
  rw [List.length_append, enc_length _ _ hf]
  show (4 + (fill8 4 m.fields).length) % 8 = 0
  rw [fill8_length]; exact up8_mod _

theorem again_bucket {k : Bucket} {b : Bytes} (hp : k.Parseable) (h : buildBucket k = .ok b) : buildBucket k.wire = .ok b := by
  simp only [buildBucket, bind_ok] at h
  obtain ⟨x, h1, h2⟩ := h
  simp only [Bucket.wire, buildBucket, bind_ok]
  exact ⟨x, again_actions hp h1, h2⟩

theorem again_buckets {s : Seq Bucket} {b : Bytes} (hs : s.All Bucket.Parseable) (h : seqBytes buildBucket s = .ok b) :
    seqBytes buildBucket (tups (s.values.map Bucket.wire)) = .ok b :=
  again_seq (fun _ _ hp h => again_bucket hp h) hs h

theorem again_band {k : Band} {b : Bytes} (h : buildBand k = .ok b) : buildBand k.wire = .ok b := by
  cases k with
  | header => exact h
  | _ =>
    simp only [buildBand, bind_ok, pyAssert_ok, exists_const] at h
    obtain ⟨ht, x, h1, h2⟩ := h
    rw [ht] at h1
    simp only [Band.wire, buildBand, Option.getD_some, bind_ok, pyAssert_ok, exists_const, true_and]
    exact ⟨x, h1, h2⟩

theorem again_bands {s : Seq Band} {b : Bytes} (hs : s.All Band.Parseable) (h : seqBytes buildBand s = .ok b) :
    seqBytes buildBand (tups (s.values.map Band.wire)) = .ok b :=
  again_seq (P := Band.Parseable) (fun _ _ _ h => again_band h) hs h

theorem again_queue {q : Queue} {b : Bytes} (hp : q.Parseable) (h : buildQueue q = .ok b) : buildQueue q.wire = .ok b := by
  simp only [buildQueue, bind_ok] at h
  obtain ⟨x, h1, h2⟩ := h
  simp only [Queue.wire, buildQueue, bind_ok]
  refine ⟨x, ?_, h2⟩
  rcases hp with hp | hp <;> rw [hp] at h1 <;> exact h1

theorem again_hello {e : HelloElem} {b : Bytes} (hp : e.Parseable) (h : buildHelloElem e = .ok b) : buildHelloElem e.wire = .ok b := by
  cases e with
  | header => exact h
  | versionBitmap t l bm =>
    simp only [buildHelloElem, bind_ok, pyAssert_ok, exists_const] at h
    obtain ⟨ht, x, h1, h2⟩ := h
    simp only [HelloElem.wire, buildHelloElem, Option.getD_some, bind_ok, pyAssert_ok, exists_const, true_and]
    rw [ht] at h2
    refine ⟨x, ?_, h2⟩
    rcases hp with rfl | ⟨l, rfl⟩ <;> exact h1

/-- The header tuple made by the parser gives the same header. -/
theorem again_one {rnd rnd' : Nat} {h : HdrArg} {d bs : Bytes} {t : Nat} (n : Nat) (hb : ofp_ rnd h d (.one t) = .ok bs) :
    ofp_ rnd' (Hdr.arg ⟨4, t, n, h.xid rnd⟩) d (.one t) = .ok bs := by
  obtain ⟨hf, rfl⟩ := ofp_one hb
  simp only [ofp_, Hdr.arg, hdrFields, ofpHeader, packOpt, Option.getD_some, pyAssert_true, ok_bind, pack, hf, if_true]

theorem again_among {rnd rnd' : Nat} {h : HdrArg} {d bs : Bytes} {ts : List Nat} (n : Nat) (hb : ofp_ rnd h d (.among ts) = .ok bs) :
    ofp_ rnd' (Hdr.arg ⟨4, h.type 0, n, h.xid rnd⟩) d (.among ts) = .ok bs := by
  obtain ⟨hm, hf, rfl⟩ := ofp_among hb 0
  simp only [ofp_, Hdr.arg, hdrFields, ofpHeader, packOpt, Option.getD_some, pyAssert_true, pyAssert_true hm, ok_bind, pack, hf, if_true]

theorem again_any {rnd rnd' : Nat} {h : HdrArg} {d bs : Bytes} {ts : List Nat} (n : Nat) (hb : ofp_ rnd h d (.among ts) = .ok bs) :
    ofp_ rnd' (Hdr.arg ⟨4, h.type 0, n, h.xid rnd⟩) d .any = .ok bs := by
  obtain ⟨hm, hf, rfl⟩ := ofp_among hb 0
  simp only [ofp_, Hdr.arg, hdrFields, ofpHeader, packOpt, Option.getD_some, pyAssert_true, ok_bind, pack, hf, if_true]

theorem four_again {i : Ints} {b : Bytes} (hi : i = .none ∨ ∃ l, i = .list l) (h : fourInts i = .ok b) : fourInts i.four = .ok b := by
  rcases hi with rfl | ⟨l, rfl⟩
  · exact h
  · exact h

theorem enc_inField (n : Nat) (b : Bytes) : padTo n (inField n b) = padTo n b := by
  rcases Nat.le_total n b.length with h | h
  · simp [padTo, inField, h, Nat.sub_eq_zero_of_le h, List.take_take]
  · simp [padTo, inField, List.take_append, h, List.take_of_length_le h]

theorem again_rec {r : Rec} {b : Bytes} (hp : r.Parseable) (hn : ∀ p, r ≠ .port p) (h : buildRec r = .ok b) : buildRec r.wire = .ok b := by
  cases r with
  | flowStatsReq t p g c cm mt =>
    simp only [buildRec, bind_ok, pyAssert_ok, exists_const] at h
    obtain ⟨e, h0, d, h1, hl, m, h2, h3⟩ := h
    simp only [Rec.wire, buildRec, bind_ok, pyAssert_ok, exists_const, Option.getD_some, ok_inj, exists_eq_left']
    refine ⟨d, h1, hl, m, ?_, by simpa using h3⟩
    rcases hp with rfl | ⟨mt, rfl⟩
    · simp only [bind_ok, ok_inj] at h0
      obtain ⟨x, h4, rfl⟩ := h0
      simp only [obj, ok_inj] at h2
      subst h2
      exact again_match (m := ⟨none, none, .none⟩) h4
    · simp only [ok_inj] at h0
      subst h0
      exact again_match h2
  | flowStats l t ds dn p i hd f c pc bc mt is =>
    obtain ⟨⟨mt, rfl⟩, hp⟩ := hp
    simp only [buildRec, bind_ok] at h
    obtain ⟨x, h1, y, h2, h3⟩ := h
    simp only [Rec.wire, buildRec, bind_ok]
    exact ⟨x, again_instrs hp h1, y, again_match h2, h3⟩
  | groupStats l g rc p bc ds dn cs =>
    simp only [buildRec, bind_ok] at h
    obtain ⟨x, h1, h3⟩ := h
    simp only [Rec.wire, buildRec, bind_ok]
    have := again_seq (w := id) (fun a b _ h => h) hp h1
    rw [List.map_id] at this
    exact ⟨x, this, h3⟩
  | groupDesc l t g bs =>
    simp only [buildRec, bind_ok] at h
    obtain ⟨x, h1, h3⟩ := h
    simp only [Rec.wire, buildRec, bind_ok]
    exact ⟨x, again_buckets hp h1, h3⟩
  | groupFeatures t c ms as =>
    simp only [buildRec, bind_ok] at h
    obtain ⟨x, h1, y, h2, h3⟩ := h
    simp only [Rec.wire, buildRec, bind_ok]
    exact ⟨x, four_again hp.1 h1, y, four_again hp.2 h2, h3⟩
  | meterStats m l f p bc ds dn bs =>
    simp only [buildRec, bind_ok] at h
    obtain ⟨x, h1, h3⟩ := h
    simp only [Rec.wire, buildRec, bind_ok]
    have := again_seq (w := id) (fun a b _ h => h) hp.1 h1
    rw [List.map_id] at this
    rw [hp.2] at h3
    exact ⟨x, this, h3⟩
  | meterConfig l f m bs =>
    simp only [buildRec, bind_ok] at h
    obtain ⟨x, h1, h3⟩ := h
    simp only [Rec.wire, buildRec, bind_ok]
    exact ⟨x, again_bands hp h1, h3⟩
  | desc a b c d e =>
    simp only [Rec.wire, buildRec, Option.getD_some] at h ⊢
    simp only [bind_ok, pack_eq_ok] at h ⊢
    obtain ⟨x, ⟨hf, rfl⟩, h2⟩ := h
    refine ⟨_, ⟨?_, rfl⟩, ?_⟩
    · simp [fits]
    · simp only [enc, enc_inField] at h2 ⊢
      exact h2
  | port p => exact (hn p rfl).elim
  | portStatsReq p => exact h
  | queueStatsReq p q => exact h
  | groupStatsReq g => exact h
  | _ => exact h

end Twink.Of13
