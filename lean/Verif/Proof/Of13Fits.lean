import Verif.Spec.Of13Fits
import Verif.Proof.Of13Layout
import Verif.Proof.Fields

/-! The builders of structures succeed exactly on the arguments of `Spec/Of13Fits`. -/

namespace Twink.Of13
open Fmt Spec

theorem isType_iff {t : Option Nat} {n : Nat} : t.getD n = n ↔ isType t n := by
  cases t <;> simp [isType]

/-- Success and contents in one. -/
theorem built_iff {build : α → Py Bytes} {f : α → Bytes} {P : α → Prop} (hb : ∀ a b, build a = .ok b → b = f a)
    (h : ∀ a, (∃ b, build a = .ok b) ↔ P a) (a : α) (b : Bytes) : build a = .ok b ↔ P a ∧ b = f a := by
  constructor
  · exact fun e => ⟨(h a).1 ⟨b, e⟩, hb a b e⟩
  · rintro ⟨hp, rfl⟩
    obtain ⟨c, hc⟩ := (h a).2 hp
    rw [hc, hb a c hc]

theorem obj_fits {build : α → Py Bytes} {P : α → Prop} (h : ∀ a, (∃ b, build a = .ok b) ↔ P a) (e : Elem α) :
    (∃ b, obj build e = .ok b) ↔ e.Fits P := by
  cases e <;> simp [obj, Elem.Fits, h]

theorem join_fits {build : α → Py Bytes} {P : α → Prop} (h : ∀ a, (∃ b, build a = .ok b) ↔ P a) (l : List (Elem α)) :
    (∃ b, join build l = .ok b) ↔ ∀ e ∈ l, e.Fits P := by
  induction l with
  | nil => simp [join]
  | cons e es ih =>
    rw [List.forall_mem_cons, ← ih, ← obj_fits h]
    simp only [join, bind_ok, ok_inj]
    constructor
    · rintro ⟨_, x, hx, y, hy, _⟩; exact ⟨⟨x, hx⟩, y, hy⟩
    · rintro ⟨⟨x, hx⟩, y, hy⟩; exact ⟨_, x, hx, y, hy, rfl⟩

theorem seq_fits {build : α → Py Bytes} {P : α → Prop} (h : ∀ a, (∃ b, build a = .ok b) ↔ P a) (s : Seq α) :
    (∃ b, seqBytes build s = .ok b) ↔ s.Fits P := by
  cases s with
  | items l => exact join_fits h l
  | _ => simp [seqBytes, Seq.Fits]

theorem seq_iff {build : α → Py Bytes} {f : α → Bytes} {P : α → Prop} (hb : ∀ a b, build a = .ok b → b = f a)
    (h : ∀ a, (∃ b, build a = .ok b) ↔ P a) (s : Seq α) (b : Bytes) : seqBytes build s = .ok b ↔ s.Fits P ∧ b = s.bytes f :=
  built_iff (f := Seq.bytes f) (fun _ _ e => seq_bytes hb e) (seq_fits h) s b

theorem elem_iff {build : α → Py Bytes} {f : α → Bytes} {P : α → Prop} (hb : ∀ a b, build a = .ok b → b = f a)
    (h : ∀ a, (∃ b, build a = .ok b) ↔ P a) (e : Elem α) (b : Bytes) : obj build e = .ok b ↔ e.Fits P ∧ b = e.bytes f :=
  built_iff (f := Elem.bytes f) (fun _ _ e => elem_bytes hb e) (obj_fits h) e b

theorem encBE_len (w n : Nat) : (encBE w n).length = w := by simp

/-- Success of straight-line builders. -/
macro "built" "[" ts:Lean.Parser.Tactic.simpLemma,* "]" : tactic => `(tactic|
  simp [bind_ok, pyAssert_ok, pack_eq_ok, ok_inj, isType_iff, fits, enc, H, I, B, Q, X, S, align_eq, given16, isAmong, $ts,*])

theorem action_fits (a : Action) : (∃ b, buildAction a = .ok b) ↔ a.Fits := by
  cases a
  case header t l => cases t <;> cases l <;> built [buildAction, Action.Fits]
  case push t l e => cases t <;> built [buildAction, Action.Fits]; omega
  all_goals
    built [buildAction, Action.Fits]
  all_goals rintro h; simp [isType_iff.2 h]
  all_goals grind

theorem actions_iff (s : Seq Action) (b : Bytes) : seqBytes buildAction s = .ok b ↔ s.Fits Action.Fits ∧ b = s.bytes Action.bytes :=
  seq_iff action_bytes action_fits s b

theorem instr_fits (a : Instr) : (∃ b, buildInstr a = .ok b) ↔ a.Fits := by
  cases a
  case header t l => cases t <;> cases l <;> built [buildInstr, Instr.Fits]
  case actions t l s => cases t <;> built [buildInstr, Instr.Fits, actions_iff]; grind
  all_goals
    built [buildInstr, Instr.Fits]
  all_goals rintro h; simp [isType_iff.2 h]
  all_goals grind

theorem instrs_iff (s : Seq Instr) (b : Bytes) : seqBytes buildInstr s = .ok b ↔ s.Fits Instr.Fits ∧ b = s.bytes Instr.bytes :=
  seq_iff instr_bytes instr_fits s b

theorem bucket_fits (a : Bucket) : (∃ b, buildBucket a = .ok b) ↔ a.Fits := by
  built [buildBucket, Bucket.Fits, actions_iff]; grind

theorem buckets_iff (s : Seq Bucket) (b : Bytes) : seqBytes buildBucket s = .ok b ↔ s.Fits Bucket.Fits ∧ b = s.bytes Bucket.bytes :=
  seq_iff bucket_bytes bucket_fits s b

theorem band_fits (a : Band) : (∃ b, buildBand a = .ok b) ↔ a.Fits := by
  cases a
  case header t l _ _ => cases t <;> cases l <;> built [buildBand, Band.Fits]
  all_goals
    built [buildBand, Band.Fits]
  all_goals rintro h; simp [isType_iff.2 h]
  all_goals grind

theorem bands_iff (s : Seq Band) (b : Bytes) : seqBytes buildBand s = .ok b ↔ s.Fits Band.Fits ∧ b = s.bytes Band.bytes :=
  seq_iff band_bytes band_fits s b

theorem noTuple_fits (a : Unit) : (∃ b, noTuple a = .ok b) ↔ False := by simp [noTuple]

theorem raws_iff (s : Seq Unit) (b : Bytes) : seqBytes noTuple s = .ok b ↔ s.Fits (fun _ => False) ∧ b = s.bytes fun _ => [] :=
  seq_iff noTuple_bytes noTuple_fits s b

theorem match_fits (m : MatchT) : (∃ b, buildMatch m = .ok b) ↔ m.Fits := by
  constructor
  · rintro ⟨b, h⟩
    obtain ⟨hf, _⟩ := match_ok h
    simp only [buildMatch, bind_ok] at h
    obtain ⟨fs, h1, _⟩ := h
    simp [fits] at hf
    refine ⟨hf.1, ?_, hf.2⟩
    split at h1
    · cases h1
    · exact ((raws_iff _ _).1 h1).1
  · rintro ⟨h1, h2, h3⟩
    have h4 : seqBytes noTuple m.oxm = .ok (m.oxm.bytes fun _ => []) := (raws_iff _ _).2 ⟨h2, rfl⟩
    have h5 : (m.oxm.bytes fun _ => []) = m.fields := by
      unfold MatchT.fields
      cases m.oxm <;> simp only [Seq.bytes]
      congr 1; apply List.map_congr_left; intro e _; cases e <;> rfl
    rw [h5] at h4
    have h6 : buildMatch m = .ok m.bytes := by
      simp only [buildMatch, bind_ok, pyAssert_ok, pack_eq_ok, ok_inj, exists_const]
      refine ⟨m.fields, ?_, _, ⟨?_, rfl⟩, ?_, ?_⟩
      · split
        · rename_i h; rw [h] at h2; exact h2.elim
        · exact h4
      · simp [fits, h1, h3]
      · simp [enc, align_eq, nul_length]
        have := up8_mod (4 + m.fields.length)
        have := up8_ge (4 + m.fields.length)
        omega
      · rw [MatchT.bytes, pad8]
        layout
        simp only [List.length_append, be16_length]
        simp [← Nat.add_assoc]
    exact ⟨_, h6⟩

theorem match_iff (e : Elem MatchT) (b : Bytes) : obj buildMatch e = .ok b ↔ e.Fits MatchT.Fits ∧ b = e.bytes MatchT.bytes :=
  elem_iff match_bytes match_fits e b

theorem port_fits (p : PortT) : (∃ b, buildPort p = .ok b) ↔ p.Fits := by
  obtain ⟨_, _, name, _, _, _, _, _, _, _, _⟩ := p
  cases name with
  | uni b => built [buildPort, PortT.Fits, Text.Fits, encodeName]
  | str b =>
    by_cases hb : ∀ c ∈ b, c < 128
    · have : b.all (· < 128) = true := by simpa using hb
      built [buildPort, PortT.Fits, Text.Fits, encodeName, this, portFmt, padTo]
      grind
    · have : b.all (· < 128) = false := by simpa using hb
      simp only [buildPort, PortT.Fits, Text.Fits, encodeName, this]
      simp [hb, bind, Except.bind]

theorem port_iff (e : Elem PortT) (b : Bytes) : obj buildPort e = .ok b ↔ e.Fits PortT.Fits ∧ b = e.bytes PortT.bytes :=
  elem_iff port_bytes port_fits e b

theorem qpropHdr_fits (p l : Option Nat) : (∃ b, buildQPropHdr p l = .ok b) ↔ given16 p ∧ l.getD 8 < 65536 := by
  cases p <;> built [buildQPropHdr, packOpt]

theorem unpack_HH (b : Bytes) :
    unpackFrom [H, H] b 0 = if 4 ≤ b.length then .ok [.int (u16 b 0), .int (u16 b 2)] else .error .structError := by
  rw [unpackFrom]
  by_cases h : 4 ≤ b.length
  · rw [if_pos (by simp [calcsize, Item.width]; omega), if_pos h]
    simp only [dec, decBE_u16 b 0 (by omega), List.drop_drop, decBE_u16 b 2 (by omega)]
  · rw [if_neg (by simp [calcsize, Item.width]; omega), if_neg h]

theorem qpropOf_fits (h : PropHdr) (d : Bytes) (t : Nat) (ht : t < 65536) :
    (∃ b, buildQProp_ h d t = .ok b) ↔ h.Fits t ∧ d.length + 8 < 65536 := by
  have key : ∀ n, n < 65536 → ((∃ b, (do let hd ← buildQPropHdr (some n) (some (d.length + 8)); .ok (hd ++ d)) = (.ok b : Py Bytes)) ↔
      d.length + 8 < 65536) := by
    intro n hn
    have := qpropHdr_fits (some n) (some (d.length + 8))
    simp only [bind_ok, ok_inj]
    constructor
    · rintro ⟨_, x, hx, _⟩; exact (this.1 ⟨x, hx⟩).2
    · intro hd
      obtain ⟨x, hx⟩ := this.2 ⟨⟨n, hn, rfl⟩, hd⟩
      exact ⟨_, x, hx, rfl⟩
  cases h with
  | none => simpa [PropHdr.Fits, buildQProp_, ok_bind] using key t ht
  | bad => simp [buildQProp_, PropHdr.Fits, bind, Except.bind]
  | tup p l =>
    cases p with
    | none => simpa [PropHdr.Fits, isType, buildQProp_, ok_bind] using key t ht
    | some p =>
      by_cases hp : p = t
      · subst hp
        simpa [PropHdr.Fits, isType, buildQProp_, pyAssert, ok_bind] using key p ht
      · simp [buildQProp_, PropHdr.Fits, isType, pyAssert, hp, bind, Except.bind]
  | raw b =>
    simp only [buildQProp_, unpack_HH, PropHdr.Fits]
    by_cases hb : 4 ≤ b.length
    · rw [if_pos hb]
      by_cases hp : u16 b 0 = t
      · simpa [hb, hp, pyAssert, ok_bind] using key t ht
      · simp [hp, pyAssert, bind, Except.bind]
    · rw [if_neg hb]
      simp [hb, bind, Except.bind]

theorem qprop_fits (a : QProp) : (∃ b, buildQProp a = .ok b) ↔ a.Fits := by
  have key : ∀ (h : PropHdr) (r t : Nat), t < 65536 → ((∃ b, (do
      let msg ← buildQProp_ h (← pack [H, X 6] [.int r]) t
      pyAssert (msg.length = 16)
      .ok msg) = (.ok b : Py Bytes)) ↔ h.Fits t ∧ r < 65536) := by
    intro h r t ht
    have hl : (enc [H, X 6] [.int r]).length = 8 := by simp [enc]
    have := qpropOf_fits h (enc [H, X 6] [.int r]) t ht
    rw [hl] at this
    simp only [bind_ok, pack_eq_ok, ok_inj, pyAssert_ok, exists_const]
    constructor
    · rintro ⟨_, _, ⟨hf, rfl⟩, m, hm, _⟩
      exact ⟨(this.1 ⟨m, hm⟩).1, by simpa [fits] using hf⟩
    · rintro ⟨hh, hr⟩
      obtain ⟨m, hm⟩ := this.2 ⟨hh, by decide⟩
      refine ⟨m, _, ⟨by simpa [fits] using hr, rfl⟩, m, hm, ?_, rfl⟩
      rw [qprop__bytes hm]; simp [hl]
  cases a with
  | header p l => exact qpropHdr_fits p l
  | minRate h r => exact key h r 1 (by decide)
  | maxRate h r => exact key h r 2 (by decide)
  | experimenter h e d =>
    simp only [buildQProp, QProp.Fits, bind_ok, pack_eq_ok]
    have hl : (enc [I, X 4] [.int e] ++ d).length = 8 + d.length := by simp [enc]; omega
    have := qpropOf_fits h (enc [I, X 4] [.int e] ++ d) 0xffff (by decide)
    rw [hl] at this
    constructor
    · rintro ⟨b, _, ⟨hf, rfl⟩, hb⟩
      have h2 := this.1 ⟨b, hb⟩
      exact ⟨h2.1, by simpa [fits] using hf, by omega⟩
    · rintro ⟨hh, he, hd⟩
      obtain ⟨b, hb⟩ := this.2 ⟨hh, by omega⟩
      exact ⟨b, _, ⟨by simpa [fits] using he, rfl⟩, hb⟩

theorem queue_fits (a : Queue) : (∃ b, buildQueue a = .ok b) ↔ a.Fits := by
  built [buildQueue, Queue.Fits, seq_iff qprop_bytes qprop_fits]
  grind

theorem bitmap_fits (l : List Nat) : (∃ b, bitmapList l = .ok b) ↔ ∀ n ∈ l, n < 4294967296 := by
  induction l with
  | nil => simp [bitmapList]
  | cons n l ih =>
    rw [List.forall_mem_cons, ← ih]
    built [bitmapList]

theorem bitmaps_fits (i : Ints) : (∃ b, bitmapBytes i = .ok b) ↔ i.Fits := by
  cases i with
  | list l => exact bitmap_fits l
  | _ => simp [bitmapBytes, Ints.Fits]

theorem bitmaps_bytes (i : Ints) (b : Bytes) (h : bitmapBytes i = .ok b) : b = i.bytes := by
  cases i with
  | list l => exact bitmap_bytes l b h
  | raw c => simp [bitmapBytes] at h; exact h.symm
  | none => simp [bitmapBytes] at h; simp [Ints.bytes, h]
  | bad => simp [bitmapBytes] at h

theorem helloElem_fits (a : HelloElem) : (∃ b, buildHelloElem a = .ok b) ↔ a.Fits := by
  cases a with
  | header t l => cases t <;> cases l <;> built [buildHelloElem, HelloElem.Fits]
  | versionBitmap t l b =>
    built [buildHelloElem, HelloElem.Fits, built_iff bitmaps_bytes bitmaps_fits]
    intro h; simp [isType_iff.2 h]

theorem fits_ints (l : List Nat) : fits (List.replicate l.length I) (l.map .int) = true ↔ ∀ n ∈ l, n < 4294967296 := by
  induction l with
  | nil => simp [fits]
  | cons n l ih =>
    rw [List.length_cons, List.replicate_succ, List.map_cons, List.forall_mem_cons, ← ih]
    simp [fits, I]

theorem ints_fits (i : Ints) : (∃ b, intsBytes i = .ok b) ↔ i.Fits := by
  cases i with
  | list l => simp only [intsBytes, pack_eq_ok, fits_ints]; simp [Ints.Fits]
  | _ => simp [intsBytes, Ints.Fits]

theorem fourInts_fits (i : Ints) : (∃ b, fourInts i = .ok b) ↔ i.Fits4 := by
  cases i with
  | list l =>
    match l with
    | [_, _, _, _] => built [fourInts, Ints.Fits4]
    | [] => built [fourInts, Ints.Fits4]
    | [_] => built [fourInts, Ints.Fits4]
    | [_, _] => built [fourInts, Ints.Fits4]
    | [_, _, _] => built [fourInts, Ints.Fits4]
    | _ :: _ :: _ :: _ :: _ :: _ => built [fourInts, Ints.Fits4]
  | _ => built [fourInts, Ints.Fits4]

theorem tf_fits (t : Option Nat) (ts : List Nat) (i : Bytes) (hts : ∀ n ∈ ts, n < 65536) :
    (∃ b, tfProp t ts i = .ok b) ↔ isAmong t ts ∧ 4 + i.length < 65536 := by
  cases t with
  | none => simp [tfProp, isAmong]
  | some t =>
    built [tfProp]
    grind

theorem tfprop_fits (a : TfProp) : (∃ b, buildTfProp a = .ok b) ↔ a.Fits := by
  have key : ∀ (build : Py Bytes) (t : Option Nat) (ts : List Nat) (P : Prop) (i : Bytes), (∀ n ∈ ts, n < 65536) →
      (∀ b, build = .ok b ↔ P ∧ b = i) →
      ((∃ b, (do tfProp t ts (← build)) = .ok b) ↔ isAmong t ts ∧ P ∧ 4 + i.length < 65536) := by
    intro build t ts P i hts hb
    simp only [bind_ok, hb]
    have := tf_fits t ts i hts
    constructor
    · rintro ⟨b, _, ⟨hp, rfl⟩, h⟩
      have := this.1 ⟨b, h⟩
      exact ⟨this.1, hp, this.2⟩
    · rintro ⟨h1, hp, h2⟩
      obtain ⟨b, h⟩ := this.2 ⟨h1, h2⟩
      exact ⟨b, _, ⟨hp, rfl⟩, h⟩
  cases a with
  | header t l => cases t <;> cases l <;> built [buildTfProp, TfProp.Fits]
  | instructions t l s => exact key _ _ _ _ _ (by simp) (instrs_iff s)
  | nextTables t l s => exact key _ _ _ _ _ (by simp) (raws_iff s)
  | actions t l s => exact key _ _ _ _ _ (by simp) (actions_iff s)
  | oxm t l i => exact key _ _ _ _ _ (by simp) (built_iff ints_bytes ints_fits i)
  | experimenter => simp [buildTfProp, TfProp.Fits]

theorem pair_fits (p : Nat × Nat) : (∃ b, buildPair p = .ok b) ↔ pairFits p := by
  built [buildPair, pairFits]

theorem pairs_iff (s : Seq (Nat × Nat)) (b : Bytes) : seqBytes buildPair s = .ok b ↔ s.Fits pairFits ∧ b = s.bytes pairBytes :=
  seq_iff pair_bytes pair_fits s b

theorem fits_counters_iff (cs : List Nat) (f : Fmt) (vs : List Val) :
    fits (List.replicate cs.length Q ++ f) (cs.map .int ++ vs) = true ↔ (∀ c ∈ cs, c < 2 ^ 64) ∧ fits f vs = true := by
  induction cs with
  | nil => simp
  | cons c cs ih =>
    rw [List.length_cons, List.replicate_succ, List.map_cons, List.forall_mem_cons, List.cons_append, List.cons_append]
    simp only [Q, fits, Bool.and_eq_true, decide_eq_true_eq]
    rw [show (Item.u 8) = Q from rfl, ih, and_assoc]
    exact Iff.rfl

theorem rec_fits (r : Rec) : (∃ b, buildRec r = .ok b) ↔ r.Fits := by
  cases r
  case desc => built [buildRec, Rec.Fits, padTo]; omega
  case flowStatsReq t p g c cm mt =>
    have h0 : buildMatch ⟨none, none, .items []⟩ = .ok ((⟨none, none, .none⟩ : MatchT).bytes) := rfl
    cases mt with
    | none =>
      simp only [buildRec, h0, ok_bind]
      built [Rec.Fits, flowStatsReqFmt, obj, Elem.Fits, MatchT.Fits, Seq.Fits, MatchT.fields]
    | some e => built [buildRec, Rec.Fits, flowStatsReqFmt, match_iff]; grind
  case flowStats => built [buildRec, Rec.Fits, flowStatsFmt, match_iff, instrs_iff]; grind
  case aggregateReq => built [buildRec, Rec.Fits, flowStatsReqFmt]
  case tableFeatures =>
    built [buildRec, Rec.Fits, tableFeaturesFmt, seq_iff tfprop_bytes tfprop_fits, padTo]; grind
  case portStats port cs ds dn =>
    simp only [buildRec, Rec.Fits, pack_eq_ok]
    constructor
    · rintro ⟨_, hf, _⟩
      simp only [portStatsFmt, List.cons_append, List.nil_append, I, X, fits, Bool.and_eq_true] at hf
      have hl := fits_counters hf.2 rfl (by simp [I])
      rw [← hl, fits_counters_iff] at hf
      simp [fits] at hf
      exact ⟨hf.1, hl, hf.2.1, hf.2.2⟩
    · rintro ⟨hp, hl, hc, hd, hn⟩
      refine ⟨_, ?_, rfl⟩
      simp only [portStatsFmt, List.cons_append, List.nil_append, I, X, fits, Bool.and_eq_true]
      rw [← hl, fits_counters_iff]
      simp [fits, hp, hd, hn]
      exact hc
  case queueStatsReq p q => cases q <;> built [buildRec, Rec.Fits]
  case groupStats => built [buildRec, Rec.Fits, groupStatsFmt, pairs_iff]; grind
  case groupDesc => built [buildRec, Rec.Fits, buckets_iff]; grind
  case groupFeatures => built [buildRec, Rec.Fits, built_iff fourInts_bytes fourInts_fits]; grind
  case meterStats m l f p b ds dn bs => cases l <;> built [buildRec, Rec.Fits, meterStatsFmt, packOpt, pairs_iff]; grind
  case meterConfig => built [buildRec, Rec.Fits, bands_iff]; grind
  case port p => exact port_fits p
  all_goals built [buildRec, Rec.Fits]

end Twink.Of13
