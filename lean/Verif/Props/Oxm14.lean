import Verif.Model.Oxm14
import Verif.Spec.Oxm14
import Verif.Props.Oxm
import Verif.Props.Consts

/-!
# C79: OXM match fields of OpenFlow 1.4
-/

namespace Twink.Oxm14
open Fmt Spec
open Oxm (isBytes InRange valBytes enc_dec fits_val calcsize_item unpack_at stdWidths)

/-- The two fields of the standard that the package gets wrong: IPV6_FLABEL and MPLS_LABEL. -/
def Odd (field : Nat) : Prop := field = 28 ∨ field = 34

theorem stdWidth_lt {field w : Nat} (h : stdWidth field = some w) : field < 42 := by
  unfold stdWidth at h
  split at h
  · omega
  · have := (List.getElem?_eq_some_iff.1 h).1
    have : field < 40 := by simpa [stdWidths] using this
    omega

theorem bits_std (field w : Nat) (h : stdWidth field = some w) (ho : ¬ Odd field) :
    bits field = if isBytes field then S w else .u w := by
  have key : ∀ f < 42, ¬ (f = 28 ∨ f = 34) → ∀ w, stdWidth f = some w → bits f = if isBytes f then S w else .u w := by
    have : ∀ f < 42, ¬ (f = 28 ∨ f = 34) → (stdWidth f).isSome → bits f = if isBytes f then S ((stdWidth f).getD 0) else .u ((stdWidth f).getD 0) := by
      decide
    intro f hf ho w hw
    have := this f hf ho (by rw [hw]; rfl)
    rw [this, hw]; rfl
  exact key field (stdWidth_lt h) ho w h

theorem width_pos (field w : Nat) (h : stdWidth field = some w) : 0 < w ∧ w ≤ 16 ∧ field < 42 := by
  have hf := stdWidth_lt h
  have key : ∀ f < 42, (stdWidth f).isSome → 0 < (stdWidth f).getD 0 ∧ (stdWidth f).getD 0 ≤ 16 := by decide
  have := key field hf (by rw [h]; rfl)
  rw [h] at this
  exact ⟨this.1, this.2, hf⟩

/-- What parsing gives for a field. -/
def Field.tlv (f : Field) : Tlv :=
  ⟨0x8000, f.field, if f.mask.isSome then 1 else 0, f.payload.length, f.value, f.mask⟩

/-- C79. A field of the standard, other than IPV6_FLABEL and MPLS_LABEL, is built with the layout of the standard:
class, field number and mask flag, number of payload bytes, value and mask. -/
theorem C79_layout_partial (cls : Option Nat) (f : Field) (hasmask : Bool) (hg : f.Good) (ho : ¬ Odd f.field)
    (hc : cls.getD 0x8000 = 0x8000) (hm : hasmask = true → f.mask.isSome) :
    build cls f.field hasmask f.value f.mask = .ok f.bytes := by
  obtain ⟨w, hw, hv, hmask⟩ := hg
  have hb := bits_std f.field w hw ho
  have hwd : (stdWidth f.field).getD 0 = w := by simp [hw]
  obtain ⟨_, hle, hlt⟩ := width_pos f.field w hw
  cases hk : f.mask with
  | none =>
    have hm' : hasmask = false := by
      cases hasmask with
      | false => rfl
      | true => have := hm rfl; simp [hk] at this
    subst hm'
    obtain ⟨e1, e2, _, e4⟩ := fits_val [] [] hv
    have hf : fits [H, B, B, bits f.field] [.int 0x8000, .int (2 * f.field), .int (calcsize [bits f.field]), f.value] = true := by
      simp only [H, B, fits, hb, e1, calcsize_item]
      simp [calcsize]; omega
    simp only [build, hc, ne_eq, not_true_eq_false, if_false]
    simp only [maskArg, Bool.false_eq_true, if_false]
    rw [pack, if_pos hf]
    simp only [H, B, Of13.enc_u2, Of13.enc_u1, hb, e2, calcsize_item]
    simp [Field.bytes, Field.payload, hk, hwd, e4, calcsize, Of13.enc_nil]
  | some m =>
    have hvm := hmask m hk
    obtain ⟨e1, e2, _, e4⟩ := fits_val ([if isBytes f.field then S w else .u w]) [m] hv
    obtain ⟨g1, g2, _, g4⟩ := fits_val [] [] hvm
    have hf : fits [H, B, B, bits f.field, bits f.field] [.int 0x8000, .int (2 * f.field + 1),
        .int (calcsize [bits f.field, bits f.field]), f.value, m] = true := by
      simp only [H, B, fits, hb, e1, g1, calcsize_item]
      simp [calcsize]; omega
    simp only [build, hc, ne_eq, not_true_eq_false, if_false]
    simp only [maskArg]
    rw [pack, if_pos hf]
    simp only [H, B, Of13.enc_u2, Of13.enc_u1, hb, e2, g2, calcsize_item]
    simp [Field.bytes, Field.payload, hk, hwd, e4, g4, calcsize, Of13.enc_nil]

theorem parse_at (f : Field) (hg : f.Good) (ho : ¬ Odd f.field) (pre post : Bytes) :
    parse (pre ++ (f.bytes ++ post)) pre.length = .ok f.tlv := by
  obtain ⟨w, hw, hv, hmask⟩ := hg
  have hb := bits_std f.field w hw ho
  have hwd : (stdWidth f.field).getD 0 = w := by simp [hw]
  obtain ⟨_, hle, hlt⟩ := width_pos f.field w hw
  have hpl : f.payload.length ≤ 32 ∧ f.payload.length = w + (if f.mask.isSome then w else 0) := by
    have e4 := (fits_val [] [] hv).2.2.2
    cases hk : f.mask with
    | none => simp [Field.payload, hwd, hk, e4]; omega
    | some m => simp [Field.payload, hwd, hk, e4, (fits_val [] [] (hmask m hk)).2.2.2]; omega
  have h1 : unpackFrom [H, B, B] (pre ++ (f.bytes ++ post)) pre.length =
      .ok [.int 0x8000, .int (2 * f.field + (if f.mask.isSome then 1 else 0)), .int f.payload.length] := by
    have : f.bytes ++ post = enc [H, B, B] [.int 0x8000, .int (2 * f.field + (if f.mask.isSome then 1 else 0)),
        .int f.payload.length] ++ (f.payload ++ post) := by
      simp only [H, B, Of13.enc_u2, Of13.enc_u1, Of13.enc_nil, Field.bytes, List.append_assoc, List.append_nil]
    rw [this]
    refine unpackFrom_enc' _ _ _ _ _ rfl ?_ (by simp [exact, H, B])
    simp only [H, B, fits]
    simp; split <;> omega
  have hd : (2 * f.field + (if f.mask.isSome then 1 else 0)) / 2 = f.field ∧
      (2 * f.field + (if f.mask.isSome then 1 else 0)) % 2 = if f.mask.isSome then 1 else 0 := by split <;> omega
  have hsplit : pre ++ (f.bytes ++ post) = (pre ++ (be16 0x8000 ++ b8 (2 * f.field + (if f.mask.isSome then 1 else 0)) ++
      b8 f.payload.length)) ++ (f.payload ++ post) := by simp [Field.bytes]
  simp only [parse, h1, hd, ne_eq, not_true_eq_false, if_false]
  rw [hsplit]
  cases hk : f.mask with
  | none =>
    obtain ⟨e1, e2, e3, e4⟩ := fits_val [] [] hv
    rw [hk] at hpl
    have hpay : f.payload = enc [bits f.field] [f.value] := by
      rw [hb, e2, Field.payload, hwd, hk, Of13.enc_nil]
    simp only [values, Option.isSome_none, Bool.false_eq_true, if_false, Nat.zero_ne_one]
    rw [if_pos (by rw [hpl.2, hb, calcsize_item]; simp [calcsize])]
    rw [unpack_at hpay (by simp) (by rw [hb, e1]; rfl) (by rw [hb, e3]; trivial)]
    simp [Field.tlv, hk]
  | some m =>
    have hvm := hmask m hk
    obtain ⟨e1, e2, e3, e4⟩ := fits_val ([if isBytes f.field then S w else .u w]) [m] hv
    obtain ⟨g1, g2, g3, g4⟩ := fits_val [] [] hvm
    rw [hk] at hpl
    have hpay : f.payload = enc [bits f.field, bits f.field] [f.value, m] := by
      rw [hb, e2, g2, Field.payload, hwd, hk, Of13.enc_nil, List.append_nil]
    simp only [values, Option.isSome_some, if_true]
    rw [if_pos (by rw [hpl.2, hb, calcsize_item, calcsize_item]; simp [calcsize])]
    rw [unpack_at hpay (by simp) (by rw [hb, e1, g1]; rfl) (by rw [hb, e3, g3]; trivial)]
    simp [Field.tlv, hk]

theorem tlv_bytes_length (f : Field) : f.bytes.length = 4 + f.payload.length := by
  simp [Field.bytes]; omega

theorem loop_at (l : List Field) (hl : ∀ f ∈ l, f.Good ∧ ¬ Odd f.field) (pre : Bytes) (fuel : Nat)
    (hf : (l.map Field.bytes).flatten.length < fuel) :
    parseLoop (pre ++ (l.map Field.bytes).flatten) fuel pre.length = .ok (l.map Field.tlv) := by
  induction l generalizing pre fuel with
  | nil =>
    cases fuel with
    | zero => simp at hf
    | succ n => simp [parseLoop]
  | cons f l ih =>
    cases fuel with
    | zero => simp at hf
    | succ n =>
      have hb := tlv_bytes_length f
      obtain ⟨hg, ho⟩ := hl f (by simp)
      rw [List.map_cons, List.flatten_cons, parseLoop, if_pos (by simp; omega)]
      rw [parse_at f hg ho, Of13.ok_bind]
      simp only [Field.tlv]
      have e : pre ++ (f.bytes ++ (l.map Field.bytes).flatten) = (pre ++ f.bytes) ++ (l.map Field.bytes).flatten := by simp
      have e2 : pre.length + 4 + f.payload.length = (pre ++ f.bytes).length := by simp [hb]; omega
      rw [e, e2, ih (fun g hg => hl g (by simp [hg])) (pre ++ f.bytes) n (by rw [List.map_cons, List.flatten_cons, List.length_append] at hf; omega)]
      rfl

/-- C79. Parsing any list of built fields of the standard, other than IPV6_FLABEL and MPLS_LABEL, with values in
range gives back their numbers, values and masks; the length field is the number of payload bytes. -/
theorem C79_round_trip_partial (l : List Field) (hl : ∀ f ∈ l, f.Good ∧ ¬ Odd f.field) :
    ∃ parts, l.mapM (fun f => build none f.field f.mask.isSome f.value f.mask) = .ok parts ∧
      parseList parts.flatten 0 = .ok (l.map Field.tlv) := by
  refine ⟨l.map Field.bytes, ?_, ?_⟩
  · induction l with
    | nil => rfl
    | cons f l ih =>
      obtain ⟨hg, ho⟩ := hl f (by simp)
      rw [List.mapM_cons, C79_layout_partial none f f.mask.isSome hg ho rfl (fun h => h), Of13.ok_bind,
        ih (fun g hg => hl g (by simp [hg])), Of13.ok_bind]
      rfl
  · have := loop_at l hl [] ((l.map Field.bytes).flatten.length + 1) (Nat.lt_succ_self _)
    rw [List.nil_append] at this
    exact this

/-- The hypotheses of `C79_round_trip_partial` are met by a masked Ethernet address, a port and a masked address. -/
example : ∀ f ∈ [Field.mk 3 (.str [1, 0, 0, 0, 0, 0]) (some (.str [1, 0, 0, 0, 0, 0])), ⟨0, .int 7, none⟩,
    ⟨11, .str [10, 0, 0, 1], some (.str [255, 0, 0, 0])⟩], f.Good ∧ ¬ Odd f.field := by
  intro f hf
  simp at hf
  rcases hf with rfl | rfl | rfl
  · exact ⟨⟨6, rfl, ⟨rfl, rfl⟩, fun m h => by injection h with h; subst h; exact ⟨rfl, rfl⟩⟩, by simp [Odd]⟩
  · exact ⟨⟨4, rfl, ⟨rfl, by decide⟩, fun m h => by cases h⟩, by simp [Odd]⟩
  · exact ⟨⟨4, rfl, ⟨rfl, rfl⟩, fun m h => by injection h with h; subst h; exact ⟨rfl, rfl⟩⟩, by simp [Odd]⟩

/-- C79 does not hold of IPV6_FLABEL (20 bits) and MPLS_LABEL (20 bits): `_bits` knows neither, and takes them for one byte
(ofp5/oxm.py L61).  Labels above 255 cannot be built; what is built is no field of the standard; a field of the standard is
refused by the parser. -/
theorem C79_labels_refuted (field : Nat) (hf : field = 28 ∨ field = 34) :
    (∀ n, 256 ≤ n → build none field false (.int n) none = .error .structError) ∧
    (∀ n < 256, ∃ bs, build none field false (.int n) none = .ok bs ∧ bs ≠ (Field.mk field (.int n) none).bytes) ∧
    (∀ n < 2 ^ 20, parse (Field.mk field (.int n) none).bytes 0 = .error .assertion) := by
  have hb : bits field = B := by rcases hf with rfl | rfl <;> rfl
  have hw : stdWidth field = some 4 := by rcases hf with rfl | rfl <;> rfl
  refine ⟨fun n hn => ?_, fun n hn => ?_, fun n hn => ?_⟩
  · simp only [build, maskArg, hb]
    have : fits [H, B, B, B] [.int 0x8000, .int (2 * field), .int (calcsize [B]), .int n] = false := by
      simp [H, B, fits]; omega
    simp [pack, this]
  · have hfit : fits [H, B, B, B] [.int 0x8000, .int (2 * field), .int (calcsize [B]), .int n] = true := by
      simp [H, B, fits, calcsize, Item.width]; omega
    refine ⟨_, by simp [build, maskArg, hb, pack, hfit]; rfl, fun e => ?_⟩
    have e' := congrArg List.length e
    rw [enc_length _ _ hfit] at e'
    simp [Field.bytes, Field.payload, hw, valBytes, calcsize, Item.width] at e'
  · rcases hf with rfl | rfl
    · simp only [Field.bytes, Field.payload, hw, valBytes, Option.getD_some, Of13.enc_nil]
      have : unpackFrom [H, B, B] (be16 32768 ++ b8 (2 * 28 + if (none : Option Val).isSome = true then 1 else 0) ++
          b8 (encBE 4 n ++ []).length ++ (encBE 4 n ++ [])) 0 = .ok [.int 0x8000, .int 56, .int 4] := by
        have h2 : be16 32768 ++ b8 (2 * 28 + if (none : Option Val).isSome = true then 1 else 0) ++
          b8 (encBE 4 n ++ []).length ++ (encBE 4 n ++ []) = [] ++ (enc [H, B, B] [.int 0x8000, .int 56, .int 4] ++ (encBE 4 n)) := by
          simp [enc, encBE_1, encBE_2]
        rw [h2]; exact unpackFrom_enc' _ _ _ _ _ rfl rfl (by simp [exact])
      simp only [parse, this]; rfl
    · simp only [Field.bytes, Field.payload, hw, valBytes, Option.getD_some, Of13.enc_nil]
      have : unpackFrom [H, B, B] (be16 32768 ++ b8 (2 * 34 + if (none : Option Val).isSome = true then 1 else 0) ++
          b8 (encBE 4 n ++ []).length ++ (encBE 4 n ++ [])) 0 = .ok [.int 0x8000, .int 68, .int 4] := by
        have h2 : be16 32768 ++ b8 (2 * 34 + if (none : Option Val).isSome = true then 1 else 0) ++
          b8 (encBE 4 n ++ []).length ++ (encBE 4 n ++ []) = [] ++ (enc [H, B, B] [.int 0x8000, .int 68, .int 4] ++ (encBE 4 n)) := by
          simp [enc, encBE_1, encBE_2]
        rw [h2]; exact unpackFrom_enc' _ _ _ _ _ rfl rfl (by simp [exact])
      simp only [parse, this]; rfl

theorem values_ok {c f k l : Nat} {m : Bytes} {o : Nat} {t : Tlv} (hk : k < 2) (h : values c f k l m o = .ok t) :
    o + l ≤ m.length ∧ ((k = 1 ∧ l = calcsize [bits f, bits f] ∧ ∃ v w, t = ⟨c, f, k, l, v, some w⟩ ∧
      dec [bits f, bits f] (m.drop o) = [v, w]) ∨
      (k = 0 ∧ l = calcsize [bits f] ∧ ∃ v, t = ⟨c, f, k, l, v, none⟩ ∧ dec [bits f] (m.drop o) = [v])) := by
  unfold values at h
  split at h
  · rename_i h1
    split at h
    · rename_i h2
      unfold unpackFrom at h
      split at h
      · rename_i v w heq
        split at heq
        · rename_i hle
          simp only [Of13.ok_inj] at h heq
          exact ⟨by omega, .inl ⟨h1, h2, v, w, h.symm, heq⟩⟩
        · cases heq
      · cases h
      · cases h
    · cases h
  · rename_i h1
    split at h
    · rename_i h2
      unfold unpackFrom at h
      split at h
      · rename_i v heq
        split at heq
        · rename_i hle
          simp only [Of13.ok_inj] at h heq
          exact ⟨by omega, .inr ⟨by omega, h2, v, h.symm, heq⟩⟩
        · cases heq
      · cases h
      · cases h
    · cases h

theorem bits_no_pad (f : Nat) (n : Nat) : bits f ≠ .x n := by
  unfold bits
  repeat' split
  all_goals simp [I, Q, S, H, B]

/-- A parsed field as arguments of `build`. -/
def Tlv.rebuild (t : Tlv) : Py Bytes := build (some t.cls) t.field (t.hasmask = 1) t.value t.mask

theorem parse_cls {m : Bytes} {o : Nat} {t : Tlv} (h : parse m o = .ok t) :
    ∃ c p l, unpackFrom [H, B, B] m o = .ok [.int c, .int p, .int l] ∧ c = 0x8000 ∧
      values c (p / 2) (p % 2) l m (o + 4) = .ok t := by
  unfold parse at h
  split at h
  · rename_i c p l heq
    refine ⟨c, p, l, heq, ?_⟩
    split at h
    · cases h
    · rename_i hc; exact ⟨by omega, h⟩
  · cases h
  · cases h

theorem parse_rebuild {m : Bytes} {o : Nat} {t : Tlv} (h : parse m o = .ok t) :
    o + 4 + t.length ≤ m.length ∧ t.rebuild = .ok (slice m o (o + 4 + t.length)) := by
  obtain ⟨c, p, l, h1, hc, h2⟩ := parse_cls h
  obtain ⟨hlen, hcase⟩ := values_ok (Nat.mod_lt _ (by decide)) h2
  have hd : dec [H, B, B] (m.drop o) = [.int c, .int p, .int l] := by
    unfold unpackFrom at h1; split at h1
    · simpa using h1
    · cases h1
  have hcons : ∀ (f : Fmt), dec (H :: B :: B :: f) (m.drop o) = [.int c, .int p, .int l] ++ dec f (m.drop (o + 4)) := by
    intro f
    have : dec (H :: B :: B :: f) (m.drop o) = dec [H, B, B] (m.drop o) ++ dec f (m.drop (o + 4)) := by
      simp [dec, H, B, List.drop_drop]
    rw [this, hd]
  have hsz : ∀ (f : Fmt), calcsize (H :: B :: B :: f) = 4 + calcsize f := by
    intro f; simp [calcsize, Item.width, H, B]; omega
  subst hc
  have hnp : ∀ n, bits (p / 2) ≠ .x n := bits_no_pad (p / 2)
  rcases hcase with ⟨hk, hl, v, w, rfl, hv⟩ | ⟨hk, hl, v, rfl, hv⟩
  · refine ⟨hlen, ?_⟩
    have := enc_dec [H, B, B, bits (p / 2), bits (p / 2)] (by
      intro i hi n; simp at hi; rcases hi with rfl | rfl | rfl
      · simp [H]
      · simp [B]
      · exact hnp n) (m.drop o) (by rw [hsz, ← hl, List.length_drop]; omega)
    rw [hcons, hv, hsz, ← hl] at this
    have hp : 2 * (p / 2) + 1 = p := by omega
    simp only [Tlv.rebuild, build, maskArg, Option.getD_some, ne_eq, not_true_eq_false, if_false]
    simp only [List.cons_append, List.nil_append] at this
    rw [hp, ← hl, pack, if_pos this.1, this.2, slice]; congr 2; omega
  · refine ⟨hlen, ?_⟩
    have := enc_dec [H, B, B, bits (p / 2)] (by
      intro i hi n; simp at hi; rcases hi with rfl | rfl | rfl
      · simp [H]
      · simp [B]
      · exact hnp n) (m.drop o) (by rw [hsz, ← hl, List.length_drop]; omega)
    rw [hcons, hv, hsz, ← hl] at this
    have hp : 2 * (p / 2) = p := by omega
    simp only [Tlv.rebuild, build, maskArg, hk, Option.getD_some, Nat.zero_ne_one, decide_false, ne_eq, not_true_eq_false,
      Bool.false_eq_true, if_false]
    simp only [List.cons_append, List.nil_append] at this
    rw [hp, ← hl, pack, if_pos this.1, this.2, slice]; congr 2; omega

theorem loop_rebuild {m : Bytes} {fuel o : Nat} {ts : List Tlv} (h : parseLoop m fuel o = .ok ts) (ho : o ≤ m.length) : ∃ parts, ts.mapM Tlv.rebuild = .ok parts ∧ parts.flatten = m.drop o := by
  induction fuel generalizing o ts with
  | zero => cases h
  | succ n ih =>
    rw [parseLoop] at h
    split at h
    · simp only [Of13.bind_ok, Of13.ok_inj] at h
      obtain ⟨t, h1, ts', h3, rfl⟩ := h
      obtain ⟨e2, e3⟩ := parse_rebuild h1
      obtain ⟨parts, g1, g2⟩ := ih h3 e2
      refine ⟨slice m o (o + 4 + t.length) :: parts, ?_, ?_⟩
      · rw [List.mapM_cons, e3, Of13.ok_bind, g1, Of13.ok_bind]; rfl
      · rw [List.flatten_cons, g2, slice]
        rw [show o + 4 + t.length - o = 4 + t.length from by omega, Nat.add_assoc, ← List.drop_drop, List.take_append_drop]
    · simp only [Of13.ok_inj] at h
      subst h
      refine ⟨[], rfl, ?_⟩
      rw [List.drop_eq_nil_of_le (by omega)]; rfl

/-- C79, the other way round: building the fields parsed from any bytes gives these bytes back, to the last one. -/
theorem C79_rebuild (m : Bytes) (ts : List Tlv) (h : parseList m 0 = .ok ts) :
    ∃ parts, ts.mapM Tlv.rebuild = .ok parts ∧ parts.flatten = m := by
  have := loop_rebuild h (Nat.zero_le _)
  simpa using this

theorem parse_not_div (m : Bytes) (o : Nat) : parse m o ≠ .error .diverges := by
  have hu : ∀ f m o, unpackFrom f m o ≠ .error .diverges := by
    intro f m o; unfold unpackFrom; split <;> simp
  have hfix : ∀ c f k l m o, values c f k l m o ≠ .error .diverges := by
    intro c f k l m o h
    unfold values at h
    repeat' (split at h)
    all_goals first
      | (rename_i heq; simp only [Except.error.injEq] at h; subst h; exact hu _ _ _ heq)
      | simp at h
  intro h
  unfold parse at h
  repeat' (split at h)
  all_goals first
    | exact hfix _ _ _ _ _ _ h
    | (rename_i heq; simp only [Except.error.injEq] at h; subst h; exact hu _ _ _ heq)
    | simp at h

/-- C79. Parsing a list of fields ends, whatever the bytes. -/
theorem C79_terminates (m : Bytes) (off : Nat) : parseList m off ≠ .error .diverges := by
  have key : ∀ fuel off, m.length < fuel + off → 0 < fuel → parseLoop m fuel off ≠ .error .diverges := by
    intro fuel
    induction fuel with
    | zero => intro off _ h; omega
    | succ n ih =>
      intro off h1 _ h
      rw [parseLoop] at h
      split at h
      · cases hp : parse m off with
        | error e =>
          rw [hp] at h
          simp only [bind, Except.bind, Except.error.injEq] at h
          subst h; exact parse_not_div m off hp
        | ok t =>
          rw [hp, Of13.ok_bind] at h
          cases hr : parseLoop m n (off + 4 + t.length) with
          | error e =>
            rw [hr] at h
            simp only [bind, Except.bind, Except.error.injEq] at h
            subst h
            exact ih (off + 4 + t.length) (by omega) (by omega) hr
          | ok ts => rw [hr, Of13.ok_bind] at h; cases h
      · cases h
  exact key _ _ (by omega) (by omega)

/-- C79. A field of any class other than OPENFLOW_BASIC, in a list of fields after any fields that are understood, makes the
parser raise ValueError; one cannot be built either. -/
theorem C79_other_class (l : List Field) (hl : ∀ f ∈ l, f.Good ∧ ¬ Odd f.field) (c p n : Nat) (hc : c < 65536) (hp : p < 256)
    (hn : n < 256) (hne : c ≠ 0x8000) (post : Bytes) :
    parseList ((l.map Field.bytes).flatten ++ (be16 c ++ b8 p ++ b8 n ++ post)) 0 = .error .valueError ∧
    ∀ field hasmask value mask, build (some c) field hasmask value mask = .error .assertion := by
  have key : ∀ (l : List Field) (_ : ∀ f ∈ l, f.Good ∧ ¬ Odd f.field) (pre : Bytes) (fuel : Nat),
      (l.map Field.bytes).flatten.length < fuel →
      parseLoop (pre ++ ((l.map Field.bytes).flatten ++ (be16 c ++ b8 p ++ b8 n ++ post))) fuel pre.length = .error .valueError := by
    intro l
    induction l with
    | nil =>
      intro _ pre fuel hf
      cases fuel with
      | zero => simp at hf
      | succ k =>
        have h1 : unpackFrom [H, B, B] (pre ++ (be16 c ++ b8 p ++ b8 n ++ post)) pre.length = .ok [.int c, .int p, .int n] := by
          have : be16 c ++ b8 p ++ b8 n ++ post = enc [H, B, B] [.int c, .int p, .int n] ++ post := by
            simp only [H, B, Of13.enc_u2, Of13.enc_u1, Of13.enc_nil, List.append_assoc, List.append_nil]
          rw [this]
          refine unpackFrom_enc' _ _ _ _ _ rfl ?_ (by simp [exact, H, B])
          simp only [H, B, fits]
          simp; omega
        rw [List.map_nil, List.flatten_nil, List.nil_append, parseLoop, if_pos (by simp [be16])]
        rw [parse, h1]
        simp only [if_pos hne]
        rfl
    | cons f l ih =>
      intro hl pre fuel hf
      cases fuel with
      | zero => simp at hf
      | succ k =>
        have hb := tlv_bytes_length f
        obtain ⟨hg, ho⟩ := hl f (by simp)
        rw [List.map_cons, List.flatten_cons, List.append_assoc, parseLoop, if_pos (by simp; omega)]
        rw [parse_at f hg ho, Of13.ok_bind]
        simp only [Field.tlv]
        rw [← List.append_assoc pre]
        have e2 : pre.length + 4 + f.payload.length = (pre ++ f.bytes).length := by simp [hb]; omega
        rw [e2, ih (fun g hg => hl g (by simp [hg])) (pre ++ f.bytes) k (by rw [List.map_cons, List.flatten_cons, List.length_append] at hf; omega)]
        rfl
  refine ⟨?_, fun field hasmask value mask => ?_⟩
  · refine key l hl [] _ ?_
    rw [List.length_append]; omega
  · rw [build, if_pos (by exact hne)]

/-- The fields of a version of the standard under the names of the package. -/
def named (std : List (Enum.Name × Nat)) : List (Enum.Name × Nat) :=
  std.filterMap fun p => if (txt! "OFPXMT_OFB_").isPrefixOf p.1 then some (txt! "OXM_OF_" ++ p.1.drop 11, p.2) else none

theorem mem_named {std : List (Enum.Name × Nat)} {n : Enum.Name} {v : Nat} (h : (txt! "OFPXMT_OFB_" ++ n, v) ∈ std) :
    (txt! "OXM_OF_" ++ n, v) ∈ named std := by
  refine List.mem_filterMap.2 ⟨_, h, ?_⟩
  rw [if_pos (List.isPrefixOf_iff_prefix.2 (List.prefix_append _ _))]
  rfl

/-- C47. `ofp4/oxm.py` numbers all fields of OpenFlow 1.3 as the standard does. -/
theorem C47_field_numbers (scope : Enum.Scope) (es : List Enum.Enum) (h : List.Forall₂ Enum.Reorder Enum.oxm4Enums es)
    (n : Enum.Name) (v : Nat) (hn : (txt! "OFPXMT_OFB_" ++ n, v) ∈ Enum.Std.of13) :
    Enum.defineAll scope es (txt! "OXM_OF_" ++ n) = some v :=
  (Enum.table_ok (wrong := []) (missing := []) (by decide +kernel) (by decide +kernel) h (mem_named hn)).2.2 (by simp) (by simp)

/-- C79. `ofp5/oxm.py` numbers all fields of OpenFlow 1.4 as the standard does, with the exception of PBB_UCA. -/
theorem C79_field_numbers_partial (scope : Enum.Scope) (es : List Enum.Enum) (h : List.Forall₂ Enum.Reorder Enum.oxm5Enums es)
    (n : Enum.Name) (v : Nat) (hn : (txt! "OFPXMT_OFB_" ++ n, v) ∈ Enum.Std.of14) (hne : n ≠ txt! "PBB_UCA") :
    Enum.defineAll scope es (txt! "OXM_OF_" ++ n) = some v :=
  (Enum.table_ok (wrong := [(txt! "OXM_OF_" ++ txt! "PBB_UCA", 40)]) (missing := []) (by decide +kernel) (by decide +kernel) h (mem_named hn)).2.2
    (by
      intro w hw
      simp only [List.mem_singleton, Prod.mk.injEq] at hw
      exact hne (List.append_cancel_left hw.1))
    (by simp)

/-- IPV6_EXTHDR is one such field, in both versions. -/
example : (txt! "OFPXMT_OFB_" ++ txt! "IPV6_EXTHDR", 39) ∈ Enum.Std.of14 ∧ (txt! "OFPXMT_OFB_" ++ txt! "IPV6_EXTHDR", 39) ∈ Enum.Std.of13 := by
  decide +kernel

/-- C79 is false of PBB_UCA: the package's constant for it is 40, reserved in the standard, instead of 41, so that what is built
with the constant is never the field of the standard. -/
theorem C79_pbb_uca_refuted (scope : Enum.Scope) (es : List Enum.Enum) (h : List.Forall₂ Enum.Reorder Enum.oxm5Enums es) :
    ∃ k, Enum.defineAll scope es (txt! "OXM_OF_PBB_UCA") = some k ∧ stdWidth k = none ∧
      (txt! "OFPXMT_OFB_PBB_UCA", 41) ∈ Enum.Std.of14 ∧ stdWidth 41 = some 1 ∧
      ∀ (v : Nat) (bs : Bytes), build none k false (.int v) none = .ok bs → bs ≠ (Field.mk 41 (.int v) none).bytes := by
  refine ⟨40, ?_, by decide, by decide +kernel, by decide, fun v bs hb e => ?_⟩
  · exact ((Enum.table_ok (std := [(txt! "OXM_OF_PBB_UCA", 41)]) (wrong := [(txt! "OXM_OF_PBB_UCA", 40)]) (missing := [])
      (by decide +kernel) (by decide +kernel) h (List.mem_singleton.2 rfl)).1 40 (List.mem_singleton.2 rfl)).1
  · simp only [build, maskArg, Option.getD_none, ne_eq, not_true_eq_false, if_false, Bool.false_eq_true, pack] at hb
    split at hb
    · simp only [Of13.ok_inj] at hb
      subst hb
      have := congrArg (fun l => l[2]?) e
      simp [H, B, enc, Field.bytes, be16, b8, encBE_1, encBE_2] at this
    · cases hb

end Twink.Oxm14
