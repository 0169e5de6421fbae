import Verif.Model.Oxm
import Verif.Spec.Oxm
import Verif.PyLemmas
import Verif.Proof.Of13Layout

/-!
# C47, C57: OXM match fields
-/

namespace Twink.Oxm
open Fmt Spec

/-- The two fields of the standard that the package gets wrong: IPV6_FLABEL and MPLS_LABEL. -/
def Odd (field : Nat) : Prop := field = 28 ∨ field = 34

theorem bits_std (field w : Nat) (h : stdWidths[field]? = some w) (ho : ¬ Odd field) :
    bits field = if isBytes field then S w else .u w := by
  have hf : field < 40 := by
    have := (List.getElem?_eq_some_iff.1 h).1
    simpa [stdWidths] using this
  have key : ∀ f < 40, ¬ (f = 28 ∨ f = 34) → bits f = if isBytes f then S ((stdWidths[f]?).getD 0) else .u ((stdWidths[f]?).getD 0) := by
    decide
  rw [key field hf ho, h]; rfl

theorem width_pos (field w : Nat) (h : stdWidths[field]? = some w) : 0 < w ∧ w ≤ 16 ∧ field < 40 := by
  have hf : field < 40 := by
    have := (List.getElem?_eq_some_iff.1 h).1
    simpa [stdWidths] using this
  have key : ∀ f < 40, 0 < (stdWidths[f]?).getD 0 ∧ (stdWidths[f]?).getD 0 ≤ 16 := by decide
  have := key field hf
  rw [h] at this
  exact ⟨this.1, this.2, hf⟩

theorem fits_val {field w : Nat} {v : Val} (f : Fmt) (vs : List Val) (h : InRange field w v) :
    fits ((if isBytes field then S w else .u w) :: f) (v :: vs) = fits f vs ∧
    enc ((if isBytes field then S w else .u w) :: f) (v :: vs) = valBytes w v ++ enc f vs ∧
    (exact ((if isBytes field then S w else .u w) :: f) (v :: vs) ↔ exact f vs) ∧ (valBytes w v).length = w := by
  cases v with
  | int n =>
    obtain ⟨h1, h2⟩ := h
    simp [h1, fits, enc, exact, valBytes, h2]
  | str b =>
    obtain ⟨h1, h2⟩ := h
    simp [h1, fits, enc, exact, valBytes, h2, S, padTo_eq]

theorem calcsize_item (field w : Nat) (f : Fmt) :
    calcsize ((if isBytes field then S w else .u w) :: f) = w + calcsize f := by
  cases isBytes field <;> simp [calcsize, Item.width, S]

/-- What parsing gives for a field. -/
def Field.tlv (f : Field) : Tlv :=
  .oxm 0x8000 f.field (if f.mask.isSome then 1 else 0) f.payload.length f.value f.mask

/-- C47. A field of the standard, other than IPV6_FLABEL and MPLS_LABEL, is built with the layout of the standard:
class, field number and mask flag, number of payload bytes, value and mask. -/
theorem C47_layout_partial (cls : Option Nat) (f : Field) (hasmask : Bool) (hg : f.Good) (ho : ¬ Odd f.field)
    (hc : cls.getD 0x8000 = 0x8000) (hm : hasmask = true → f.mask.isSome) :
    build cls f.field hasmask f.value f.mask = .ok f.bytes := by
  obtain ⟨w, hw, hv, hmask⟩ := hg
  have hb := bits_std f.field w hw ho
  have hwd : width f.field = w := by simp [width, hw]
  obtain ⟨_, hle, hlt⟩ := width_pos f.field w hw
  cases hk : f.mask with
  | none =>
    have hm' : hasmask = false := by
      cases hasmask with
      | false => rfl
      | true => have := hm rfl; simp [hk] at this
    subst hm'
    obtain ⟨e1, e2, _, e4⟩ := fits_val [] [] hv
    have hf : fits [H, B, B, bits f.field] [.int 0x8000, .int (2 * f.field), .int (calcsize [bits f.field]), f.value] = true := by
      simp only [H, B, fits, hb, e1, calcsize_item]
      simp [calcsize]; omega
    simp only [build, hc]
    have : (if (none : Option Val).isNone = true then (if (false = true) then some (Val.int 0) else none) else none : Option Val) = none := rfl
    simp only [this]
    rw [pack, if_pos hf]
    simp only [H, B, Of13.enc_u2, Of13.enc_u1, hb, e2, calcsize_item]
    simp [Field.bytes, Field.payload, hk, hwd, e4, calcsize, Of13.enc_nil]
  | some m =>
    have hvm := hmask m hk
    obtain ⟨e1, e2, _, e4⟩ := fits_val ([if isBytes f.field then S w else .u w]) [m] hv
    obtain ⟨g1, g2, _, g4⟩ := fits_val [] [] hvm
    have hf : fits [H, B, B, bits f.field, bits f.field] [.int 0x8000, .int (2 * f.field + 1),
        .int (calcsize [bits f.field, bits f.field]), f.value, m] = true := by
      simp only [H, B, fits, hb, e1, g1, calcsize_item]
      simp [calcsize]; omega
    simp only [build, hc]
    have : (if (some m).isNone = true then (if (hasmask = true) then some (Val.int 0) else none) else some m : Option Val) = some m := rfl
    simp only [this]
    rw [pack, if_pos hf]
    simp only [H, B, Of13.enc_u2, Of13.enc_u1, hb, e2, g2, calcsize_item]
    simp [Field.bytes, Field.payload, hk, hwd, e4, g4, calcsize, Of13.enc_nil]

theorem unpack_at {f : Fmt} {vs : List Val} {pre post mid : Bytes} {n : Nat} (hm : mid = enc f vs) (hn : n = pre.length)
    (h : fits f vs = true) (he : exact f vs) : unpackFrom f (pre ++ (mid ++ post)) n = .ok vs := by
  rw [hm]; exact unpackFrom_enc' f vs pre post n hn h he

theorem parse_at (f : Field) (hg : f.Good) (ho : ¬ Odd f.field) (pre post : Bytes) :
    parse (pre ++ (f.bytes ++ post)) pre.length = .ok f.tlv := by
  obtain ⟨w, hw, hv, hmask⟩ := hg
  have hb := bits_std f.field w hw ho
  have hwd : width f.field = w := by simp [width, hw]
  obtain ⟨_, hle, hlt⟩ := width_pos f.field w hw
  have hpl : f.payload.length ≤ 32 ∧ f.payload.length = w + (if f.mask.isSome then w else 0) := by
    have e4 := (fits_val [] [] hv).2.2.2
    cases hk : f.mask with
    | none => simp [Field.payload, hwd, hk, e4]; omega
    | some m => simp [Field.payload, hwd, hk, e4, (fits_val [] [] (hmask m hk)).2.2.2]; omega
  have h1 : unpackFrom [H, B, B] (pre ++ (f.bytes ++ post)) pre.length =
      .ok [.int 0x8000, .int (2 * f.field + (if f.mask.isSome then 1 else 0)), .int f.payload.length] := by
    have : f.bytes ++ post = enc [H, B, B] [.int 0x8000, .int (2 * f.field + (if f.mask.isSome then 1 else 0)),
        .int f.payload.length] ++ (f.payload ++ post) := by
      simp only [H, B, Of13.enc_u2, Of13.enc_u1, Of13.enc_nil, Field.bytes, List.append_assoc, List.append_nil]
    rw [this]
    refine unpackFrom_enc' _ _ _ _ _ rfl ?_ (by simp [exact, H, B])
    simp only [H, B, fits]
    simp; split <;> omega
  have hd : (2 * f.field + (if f.mask.isSome then 1 else 0)) / 2 = f.field ∧
      (2 * f.field + (if f.mask.isSome then 1 else 0)) % 2 = if f.mask.isSome then 1 else 0 := by split <;> omega
  have hsplit : pre ++ (f.bytes ++ post) = (pre ++ (be16 0x8000 ++ b8 (2 * f.field + (if f.mask.isSome then 1 else 0)) ++
      b8 f.payload.length)) ++ (f.payload ++ post) := by simp [Field.bytes]
  simp only [parse, h1, hd, if_true]
  rw [hsplit]
  cases hk : f.mask with
  | none =>
    obtain ⟨e1, e2, e3, e4⟩ := fits_val [] [] hv
    rw [hk] at hpl
    have hpay : f.payload = enc [bits f.field] [f.value] := by
      rw [hb, e2, Field.payload, hwd, hk, Of13.enc_nil]
    simp only [fixed, Option.isSome_none, Bool.false_eq_true, if_false, Nat.zero_ne_one]
    rw [if_pos (by rw [hpl.2, hb, calcsize_item]; simp [calcsize])]
    rw [unpack_at hpay (by simp) (by rw [hb, e1]; rfl) (by rw [hb, e3]; trivial)]
    simp [Field.tlv, hk]
  | some m =>
    have hvm := hmask m hk
    obtain ⟨e1, e2, e3, e4⟩ := fits_val ([if isBytes f.field then S w else .u w]) [m] hv
    obtain ⟨g1, g2, g3, g4⟩ := fits_val [] [] hvm
    rw [hk] at hpl
    have hpay : f.payload = enc [bits f.field, bits f.field] [f.value, m] := by
      rw [hb, e2, g2, Field.payload, hwd, hk, Of13.enc_nil, List.append_nil]
    simp only [fixed, Option.isSome_some, if_true]
    rw [if_pos (by rw [hpl.2, hb, calcsize_item, calcsize_item]; simp [calcsize])]
    rw [unpack_at hpay (by simp) (by rw [hb, e1, g1]; rfl) (by rw [hb, e3, g3]; trivial)]
    simp [Field.tlv, hk]

theorem tlv_bytes_length (f : Field) : f.bytes.length = 4 + f.payload.length := by
  simp [Field.bytes]; omega

theorem loop_at (l : List Field) (hl : ∀ f ∈ l, f.Good ∧ ¬ Odd f.field) (pre : Bytes) (fuel : Nat)
    (hf : (l.map Field.bytes).flatten.length < fuel) :
    parseLoop (pre ++ (l.map Field.bytes).flatten) fuel pre.length = .ok (l.map Field.tlv) := by
  induction l generalizing pre fuel with
  | nil =>
    cases fuel with
    | zero => simp at hf
    | succ n => simp [parseLoop]
  | cons f l ih =>
    cases fuel with
    | zero => simp at hf
    | succ n =>
      have hb := tlv_bytes_length f
      obtain ⟨hg, ho⟩ := hl f (by simp)
      rw [List.map_cons, List.flatten_cons, parseLoop, if_pos (by simp; omega)]
      rw [parse_at f hg ho, Of13.ok_bind]
      simp only [Field.tlv, Tlv.oxmLength, Of13.ok_bind]
      have e : pre ++ (f.bytes ++ (l.map Field.bytes).flatten) = (pre ++ f.bytes) ++ (l.map Field.bytes).flatten := by simp
      have e2 : pre.length + 4 + f.payload.length = (pre ++ f.bytes).length := by simp [hb]; omega
      rw [e, e2, ih (fun g hg => hl g (by simp [hg])) (pre ++ f.bytes) n (by rw [List.map_cons, List.flatten_cons, List.length_append] at hf; omega)]
      rfl

/-- C47. Parsing any list of built fields of the standard, other than IPV6_FLABEL and MPLS_LABEL, with values in
range gives back their numbers, values and masks; the length field is the number of payload bytes. -/
theorem C47_round_trip_partial (l : List Field) (hl : ∀ f ∈ l, f.Good ∧ ¬ Odd f.field) :
    ∃ parts, l.mapM (fun f => build none f.field f.mask.isSome f.value f.mask) = .ok parts ∧
      parseList parts.flatten 0 = .ok (l.map Field.tlv) := by
  refine ⟨l.map Field.bytes, ?_, ?_⟩
  · induction l with
    | nil => rfl
    | cons f l ih =>
      obtain ⟨hg, ho⟩ := hl f (by simp)
      rw [List.mapM_cons, C47_layout_partial none f f.mask.isSome hg ho rfl (fun h => h), Of13.ok_bind,
        ih (fun g hg => hl g (by simp [hg])), Of13.ok_bind]
      rfl
  · have := loop_at l hl [] ((l.map Field.bytes).flatten.length + 1) (Nat.lt_succ_self _)
    rw [List.nil_append] at this
    exact this

/-- The hypotheses of `C47_round_trip_partial` are met by a masked Ethernet address, a port and a masked address. -/
example : ∀ f ∈ [Field.mk 3 (.str [1, 0, 0, 0, 0, 0]) (some (.str [1, 0, 0, 0, 0, 0])), ⟨0, .int 7, none⟩,
    ⟨11, .str [10, 0, 0, 1], some (.str [255, 0, 0, 0])⟩], f.Good ∧ ¬ Odd f.field := by
  intro f hf
  simp at hf
  rcases hf with rfl | rfl | rfl
  · exact ⟨⟨6, rfl, ⟨rfl, rfl⟩, fun m h => by injection h with h; subst h; exact ⟨rfl, rfl⟩⟩, by simp [Odd]⟩
  · exact ⟨⟨4, rfl, ⟨rfl, by decide⟩, fun m h => by cases h⟩, by simp [Odd]⟩
  · exact ⟨⟨4, rfl, ⟨rfl, rfl⟩, fun m h => by injection h with h; subst h; exact ⟨rfl, rfl⟩⟩, by simp [Odd]⟩

/-- C47 does not hold of IPV6_FLABEL (20 bits) and MPLS_LABEL (20 bits): `_bits` knows neither, and takes them for one byte
(oxm.py L112).  Labels above 255 cannot be built; what is built is no field of the standard; a field of the standard is
refused by the parser. -/
theorem C47_labels_refuted (field : Nat) (hf : field = 28 ∨ field = 34) :
    (∀ n, 256 ≤ n → build none field false (.int n) none = .error .structError) ∧
    (∀ n < 256, ∃ bs, build none field false (.int n) none = .ok bs ∧ bs ≠ (Field.mk field (.int n) none).bytes) ∧
    (∀ n < 2 ^ 20, parse (Field.mk field (.int n) none).bytes 0 = .error .assertion) := by
  have hb : bits field = B := by rcases hf with rfl | rfl <;> rfl
  have hw : stdWidths[field]? = some 4 := by rcases hf with rfl | rfl <;> rfl
  refine ⟨fun n hn => ?_, fun n hn => ?_, fun n hn => ?_⟩
  · simp only [build, hb]
    have : fits [H, B, B, B] [.int 0x8000, .int (2 * field), .int (calcsize [B]), .int n] = false := by
      simp [H, B, fits]; omega
    simp [pack, this]
  · have hfit : fits [H, B, B, B] [.int 0x8000, .int (2 * field), .int (calcsize [B]), .int n] = true := by
      simp [H, B, fits, calcsize, Item.width]; omega
    refine ⟨_, by simp [build, hb, pack, hfit]; rfl, fun e => ?_⟩
    have e' := congrArg List.length e
    rw [enc_length _ _ hfit] at e'
    simp [Field.bytes, Field.payload, width, hw, valBytes, calcsize, Item.width] at e'
  · rcases hf with rfl | rfl
    · simp only [Field.bytes, Field.payload, width, hw, valBytes, Option.getD_some, Of13.enc_nil]
      have : unpackFrom [H, B, B] (be16 32768 ++ b8 (2 * 28 + if (none : Option Val).isSome = true then 1 else 0) ++
          b8 (encBE 4 n ++ []).length ++ (encBE 4 n ++ [])) 0 = .ok [.int 0x8000, .int 56, .int 4] := by
        have h2 : be16 32768 ++ b8 (2 * 28 + if (none : Option Val).isSome = true then 1 else 0) ++
          b8 (encBE 4 n ++ []).length ++ (encBE 4 n ++ []) = [] ++ (enc [H, B, B] [.int 0x8000, .int 56, .int 4] ++ (encBE 4 n)) := by
          simp [enc, encBE_1, encBE_2]
        rw [h2]; exact unpackFrom_enc' _ _ _ _ _ rfl rfl (by simp [exact])
      simp only [parse, this]; rfl
    · simp only [Field.bytes, Field.payload, width, hw, valBytes, Option.getD_some, Of13.enc_nil]
      have : unpackFrom [H, B, B] (be16 32768 ++ b8 (2 * 34 + if (none : Option Val).isSome = true then 1 else 0) ++
          b8 (encBE 4 n ++ []).length ++ (encBE 4 n ++ [])) 0 = .ok [.int 0x8000, .int 68, .int 4] := by
        have h2 : be16 32768 ++ b8 (2 * 34 + if (none : Option Val).isSome = true then 1 else 0) ++
          b8 (encBE 4 n ++ []).length ++ (encBE 4 n ++ []) = [] ++ (enc [H, B, B] [.int 0x8000, .int 68, .int 4] ++ (encBE 4 n)) := by
          simp [enc, encBE_1, encBE_2]
        rw [h2]; exact unpackFrom_enc' _ _ _ _ _ rfl rfl (by simp [exact])
      simp only [parse, this]; rfl

theorem fixed_ok {mk : Val → Option Val → Tlv} {b : Item} {k l : Nat} {m : Bytes} {o : Nat} {t : Tlv} (hk : k < 2)
    (h : fixed mk b k l m o = .ok t) :
    o + l ≤ m.length ∧ ((k = 1 ∧ l = calcsize [b, b] ∧ ∃ v w, t = mk v (some w) ∧ dec [b, b] (m.drop o) = [v, w]) ∨
      (k = 0 ∧ l = calcsize [b] ∧ ∃ v, t = mk v none ∧ dec [b] (m.drop o) = [v])) := by
  unfold fixed at h
  split at h
  · rename_i h1
    split at h
    · rename_i h2
      unfold unpackFrom at h
      split at h
      · rename_i v w heq
        split at heq
        · rename_i hle
          simp only [Of13.ok_inj] at h heq
          exact ⟨by omega, .inl ⟨h1, h2, v, w, h.symm, heq⟩⟩
        · cases heq
      · cases h
      · cases h
    · cases h
  · rename_i h1
    split at h
    · rename_i h2
      unfold unpackFrom at h
      split at h
      · rename_i v heq
        split at heq
        · rename_i hle
          simp only [Of13.ok_inj] at h heq
          exact ⟨by omega, .inr ⟨by omega, h2, v, h.symm, heq⟩⟩
        · cases heq
      · cases h
      · cases h
    · cases h

/-- Packing unpacked values gives the bytes back. -/
theorem enc_dec (f : Fmt) (hx : ∀ i ∈ f, ∀ n, i ≠ .x n) (b : Bytes) (h : calcsize f ≤ b.length) :
    fits f (dec f b) = true ∧ enc f (dec f b) = b.take (calcsize f) := by
  induction f generalizing b with
  | nil => simp [dec, fits, enc, calcsize]
  | cons i f ih =>
    have hx' : ∀ i ∈ f, ∀ n, i ≠ .x n := fun j hj => hx j (by simp [hj])
    cases i with
    | x n => exact (hx (.x n) (by simp) n rfl).elim
    | u w =>
      have hc : calcsize (.u w :: f) = w + calcsize f := by simp [calcsize, Item.width]
      rw [hc] at h ⊢
      obtain ⟨h1, h2⟩ := ih hx' (b.drop w) (by simp; omega)
      have hl : (b.take w).length = w := by simp; omega
      have h3 := encBE_decBE (b.take w)
      have h4 := decBE_lt (b.take w)
      rw [hl] at h3 h4
      simp only [dec, fits, enc, h1, h2, h3]
      exact ⟨by simp [h4], by rw [List.take_add]⟩
    | s w =>
      have hc : calcsize (.s w :: f) = w + calcsize f := by simp [calcsize, Item.width]
      rw [hc] at h ⊢
      obtain ⟨h1, h2⟩ := ih hx' (b.drop w) (by simp; omega)
      have hl : (b.take w).length = w := by simp; omega
      simp only [dec, fits, enc, h1, h2, padTo_eq w _ hl]
      exact ⟨trivial, by rw [List.take_add]⟩

/-- A parsed field as arguments of `build`. -/
def Tlv.rebuild : Tlv → Py Bytes
  | .oxm cls field hasmask _ value mask => build (some cls) field (hasmask = 1) value mask
  | _ => .error .typeError

/-- Fields of the class OPENFLOW_BASIC. -/
def Tlv.Basic : Tlv → Prop
  | .oxm .. => True
  | _ => False

theorem parse_cls {m : Bytes} {o : Nat} {t : Tlv} (h : parse m o = .ok t) (hb : t.Basic) :
    ∃ c p l, unpackFrom [H, B, B] m o = .ok [.int c, .int p, .int l] ∧ c = 0x8000 ∧
      fixed (.oxm c (p / 2) (p % 2) l) (bits (p / 2)) (p % 2) l m (o + 4) = .ok t := by
  unfold parse at h
  split at h
  · rename_i c p l heq
    refine ⟨c, p, l, heq, ?_⟩
    split at h
    · rename_i hc; exact ⟨hc, h⟩
    · split at h
      · split at h
        · exfalso
          have := (fixed_ok (Nat.mod_lt _ (by decide)) h).2
          rcases this with ⟨_, _, _, _, rfl, _⟩ | ⟨_, _, _, rfl, _⟩ <;> exact hb
        · cases h
      · split at h
        · exfalso
          unfold parseExp at h
          repeat' (split at h)
          all_goals first
            | (cases h; done)
            | (simp only [Of13.ok_inj] at h; subst h; exact hb)
        · cases h
  · cases h
  · cases h

theorem bits_no_pad (f : Nat) (n : Nat) : bits f ≠ .x n := by
  unfold bits
  repeat' split
  all_goals simp [I, Q, S, H, B]

theorem parse_rebuild {m : Bytes} {o : Nat} {t : Tlv} (h : parse m o = .ok t) (hb : t.Basic) :
    ∃ l, t.oxmLength = .ok l ∧ o + 4 + l ≤ m.length ∧ t.rebuild = .ok (slice m o (o + 4 + l)) := by
  obtain ⟨c, p, l, h1, hc, h2⟩ := parse_cls h hb
  obtain ⟨hlen, hcase⟩ := fixed_ok (Nat.mod_lt _ (by decide)) h2
  have hd : dec [H, B, B] (m.drop o) = [.int c, .int p, .int l] := by
    unfold unpackFrom at h1; split at h1
    · simpa using h1
    · cases h1
  have hcons : ∀ (f : Fmt), dec (H :: B :: B :: f) (m.drop o) = [.int c, .int p, .int l] ++ dec f (m.drop (o + 4)) := by
    intro f
    have : dec (H :: B :: B :: f) (m.drop o) = dec [H, B, B] (m.drop o) ++ dec f (m.drop (o + 4)) := by
      simp [dec, H, B, List.drop_drop]
    rw [this, hd]
  have hsz : ∀ (f : Fmt), calcsize (H :: B :: B :: f) = 4 + calcsize f := by
    intro f; simp [calcsize, Item.width, H, B]; omega
  have hnp : ∀ n, bits (p / 2) ≠ .x n := bits_no_pad (p / 2)
  rcases hcase with ⟨hk, hl, v, w, rfl, hv⟩ | ⟨hk, hl, v, rfl, hv⟩
  · refine ⟨l, rfl, hlen, ?_⟩
    have := enc_dec [H, B, B, bits (p / 2), bits (p / 2)] (by
      intro i hi n; simp at hi; rcases hi with rfl | rfl | rfl
      · simp [H]
      · simp [B]
      · exact hnp n) (m.drop o) (by rw [hsz, ← hl, List.length_drop]; omega)
    rw [hcons, hv, hsz, ← hl] at this
    have hp : 2 * (p / 2) + 1 = p := by omega
    simp only [Tlv.rebuild, build, Option.isNone_some, Bool.false_eq_true, if_false, Option.getD_some]
    simp only [List.cons_append, List.nil_append] at this
    rw [hp, ← hl, pack, if_pos this.1, this.2, slice]; congr 2; omega
  · refine ⟨l, rfl, hlen, ?_⟩
    have := enc_dec [H, B, B, bits (p / 2)] (by
      intro i hi n; simp at hi; rcases hi with rfl | rfl | rfl
      · simp [H]
      · simp [B]
      · exact hnp n) (m.drop o) (by rw [hsz, ← hl, List.length_drop]; omega)
    rw [hcons, hv, hsz, ← hl] at this
    have hp : 2 * (p / 2) = p := by omega
    simp only [Tlv.rebuild, build, hk, Option.isNone_none, if_true, Option.getD_some, Nat.zero_ne_one, decide_false,
      Bool.false_eq_true, if_false]
    simp only [List.cons_append, List.nil_append] at this
    rw [hp, ← hl, pack, if_pos this.1, this.2, slice]; congr 2; omega

theorem loop_rebuild {m : Bytes} {fuel o : Nat} {ts : List Tlv} (h : parseLoop m fuel o = .ok ts) (hb : ∀ t ∈ ts, t.Basic)
    (ho : o ≤ m.length) : ∃ parts, ts.mapM Tlv.rebuild = .ok parts ∧ parts.flatten = m.drop o := by
  induction fuel generalizing o ts with
  | zero => cases h
  | succ n ih =>
    rw [parseLoop] at h
    split at h
    · simp only [Of13.bind_ok, Of13.ok_inj] at h
      obtain ⟨t, h1, l, h2, ts', h3, rfl⟩ := h
      obtain ⟨l', e1, e2, e3⟩ := parse_rebuild h1 (hb t (by simp))
      rw [e1] at h2
      injection h2 with h2
      subst h2
      obtain ⟨parts, g1, g2⟩ := ih h3 (fun t ht => hb t (by simp [ht])) e2
      refine ⟨slice m o (o + 4 + l') :: parts, ?_, ?_⟩
      · rw [List.mapM_cons, e3, Of13.ok_bind, g1, Of13.ok_bind]; rfl
      · rw [List.flatten_cons, g2, slice]
        rw [show o + 4 + l' - o = 4 + l' from by omega, Nat.add_assoc, ← List.drop_drop, List.take_append_drop]
    · simp only [Of13.ok_inj] at h
      subst h
      refine ⟨[], rfl, ?_⟩
      rw [List.drop_eq_nil_of_le (by omega)]; rfl

/-- C47, the other way round: building the fields parsed from any bytes gives these bytes back, to the last one, if all
of them are of the class OPENFLOW_BASIC. -/
theorem C47_rebuild (m : Bytes) (ts : List Tlv) (h : parseList m 0 = .ok ts) (hb : ∀ t ∈ ts, t.Basic) :
    ∃ parts, ts.mapM Tlv.rebuild = .ok parts ∧ parts.flatten = m := by
  have := loop_rebuild h hb (Nat.zero_le _)
  simpa using this

theorem parse_not_div (m : Bytes) (o : Nat) : parse m o ≠ .error .diverges := by
  have hu : ∀ f m o, unpackFrom f m o ≠ .error .diverges := by
    intro f m o; unfold unpackFrom; split <;> simp
  have hfix : ∀ mk b k l m o, fixed mk b k l m o ≠ .error .diverges := by
    intro mk b k l m o h
    unfold fixed at h
    repeat' (split at h)
    all_goals first
      | (rename_i heq; simp only [Except.error.injEq] at h; subst h; exact hu _ _ _ heq)
      | simp at h
  have hsf : ∀ a b c d, stratosFmt a b c d ≠ .error .diverges := by
    intro a b c d h
    unfold stratosFmt at h
    repeat' (split at h)
    all_goals simp at h
  have hsu : ∀ a b c d e, sUnpack a b c d e ≠ .error .diverges := by
    intro a b c d e h
    unfold sUnpack at h
    simp only at h
    repeat' (split at h)
    all_goals simp at h
  intro h
  unfold parse at h
  repeat' (split at h)
  all_goals first
    | exact hfix _ _ _ _ _ _ h
    | (rename_i heq; simp only [Except.error.injEq] at h; subst h; exact hu _ _ _ heq)
    | (unfold parseExp at h
       repeat' (split at h)
       all_goals first
         | (rename_i heq; simp only [Except.error.injEq] at h; subst h; exact hu _ _ _ heq)
         | (rename_i heq; simp only [Except.error.injEq] at h; subst h; exact hsf _ _ _ _ heq)
         | (rename_i heq; simp only [Except.error.injEq] at h; subst h; exact hsu _ _ _ _ _ heq)
         | simp at h)
    | simp at h

/-- C47. `parse_list` always comes to an end, whatever the bytes: every round advances by at least four bytes. -/
theorem C47_terminates (m : Bytes) (off : Nat) : parseList m off ≠ .error .diverges := by
  have key : ∀ fuel off, m.length < fuel + off → 0 < fuel → parseLoop m fuel off ≠ .error .diverges := by
    intro fuel
    induction fuel with
    | zero => intro off _ h; omega
    | succ n ih =>
      intro off h1 _ h
      rw [parseLoop] at h
      split at h
      · cases hp : parse m off with
        | error e =>
          rw [hp] at h
          simp only [bind, Except.bind, Except.error.injEq] at h
          subst h; exact parse_not_div m off hp
        | ok t =>
          rw [hp, Of13.ok_bind] at h
          cases hl : t.oxmLength with
          | error e =>
            rw [hl] at h
            simp only [bind, Except.bind, Except.error.injEq] at h
            subst h
            cases t <;> simp [Tlv.oxmLength] at hl
          | ok l =>
            rw [hl, Of13.ok_bind] at h
            cases hr : parseLoop m n (off + 4 + l) with
            | error e =>
              rw [hr] at h
              simp only [bind, Except.bind, Except.error.injEq] at h
              subst h
              exact ih (off + 4 + l) (by omega) (by omega) hr
            | ok ts => rw [hr, Of13.ok_bind] at h; cases h
      · cases h
  exact key _ _ (by omega) (by omega)

/-- C57. Stratos fields cannot be built at all: the tests of `oxm_hasmask` in L248-257 are the wrong way round, so that one
format code meets two values, and two meet one. -/
theorem C57_stratos_refuted (cls : Option Nat) (field : Nat) (hasmask : Bool) (exp expType : Nat) (value : SVal)
    (mask : Option SVal) : ∀ bs, buildStratos cls field hasmask exp expType value mask ≠ .ok bs := by
  intro bs h
  unfold buildStratos at h
  split at h
  · simp only [Of13.bind_ok] at h
    obtain ⟨⟨little, b⟩, _, vm, hvm, _⟩ := h
    cases hasmask with
    | true => cases mask <;> simp [sPack] at hvm
    | false => simp [sPack] at hvm
  · cases h

/-- The tunnel destination address of Nicira's extension, class NXM_1, field 32: four bytes. -/
def nxmTunDst (a : Bytes) : Bytes := be16 1 ++ b8 64 ++ b8 4 ++ a

theorem nxm_parse (a pre post : Bytes) (ha : a.length = 4) :
    parse (pre ++ (nxmTunDst a ++ post)) pre.length = .ok (.nxm 1 32 0 4 (.str a) none) := by
  have h1 : unpackFrom [H, B, B] (pre ++ (nxmTunDst a ++ post)) pre.length = .ok [.int 1, .int 64, .int 4] := by
    have : nxmTunDst a ++ post = enc [H, B, B] [.int 1, .int 64, .int 4] ++ (a ++ post) := by
      simp only [H, B, Of13.enc_u2, Of13.enc_u1, Of13.enc_nil, nxmTunDst, List.append_assoc, List.append_nil]
    rw [this]
    exact unpackFrom_enc' _ _ _ _ _ rfl rfl (by simp [exact])
  have h2 : pre ++ (nxmTunDst a ++ post) = (pre ++ (be16 1 ++ b8 64 ++ b8 4)) ++ (a ++ post) := by simp [nxmTunDst]
  have ha' : a = enc [S 4] [.str a] := by simp [enc, S, padTo_eq 4 a ha]
  have h3 := unpack_at (f := [S 4]) (vs := [.str a]) (pre := pre ++ (be16 1 ++ b8 64 ++ b8 4)) (post := post)
    (n := pre.length + 4) ha' (by simp) rfl ⟨ha, trivial⟩
  simp only [parse, h1, Nat.reduceDiv, Nat.reduceMod, nxmBits, if_true, fixed, if_false, Nat.zero_ne_one,
    show (1 : Nat) ≠ 0x8000 from by decide, show calcsize [S 4] = 4 from rfl]
  rw [h2, h3]

/-- C57. A tunnel address of class NXM_1 is parsed when alone. -/
theorem C57_nxm_parse_partial (a pre post : Bytes) (ha : a.length = 4) :
    parse (pre ++ (nxmTunDst a ++ post)) pre.length = .ok (.nxm 1 32 0 4 (.str a) none) := nxm_parse a pre post ha

/-- C57 does not hold of class NXM_1: `parse_list` asks the parsed tuple for `oxm_length` where it has `nxm_length`, and fails
wherever such a field occurs after fields of the standard; `build` takes its value for six bytes, which the parser
refuses. -/
theorem C57_nxm_refuted (a : Bytes) (ha : a.length = 4) :
    (∀ (l : List Field) (post : Bytes), (∀ f ∈ l, f.Good ∧ ¬ Odd f.field) →
      parseList ((l.map Field.bytes).flatten ++ (nxmTunDst a ++ post)) 0 = .error .attributeError) ∧
    (∃ bs, build (some 1) 32 false (.str a) none = .ok bs ∧ bs ≠ nxmTunDst a ∧ parse bs 0 = .error .assertion) := by
  constructor
  · intro l post hl
    have key : ∀ (l : List Field), (∀ f ∈ l, f.Good ∧ ¬ Odd f.field) → ∀ (pre : Bytes) (fuel : Nat),
        (l.map Field.bytes).flatten.length < fuel →
        parseLoop (pre ++ ((l.map Field.bytes).flatten ++ (nxmTunDst a ++ post))) fuel pre.length = .error .attributeError := by
      intro l
      induction l with
      | nil =>
        intro _ pre fuel hf
        cases fuel with
        | zero => simp at hf
        | succ n =>
          rw [parseLoop, if_pos (by simp [nxmTunDst]; omega), List.map_nil, List.flatten_nil, List.nil_append, nxm_parse a pre post ha]
          rfl
      | cons f l ih =>
        intro hl pre fuel hf
        cases fuel with
        | zero => simp at hf
        | succ n =>
          have hb := tlv_bytes_length f
          obtain ⟨hg, ho⟩ := hl f (by simp)
          rw [List.map_cons, List.flatten_cons, parseLoop, if_pos (by simp; omega), List.append_assoc]
          rw [parse_at f hg ho, Of13.ok_bind]
          simp only [Field.tlv, Tlv.oxmLength, Of13.ok_bind]
          have e : pre ++ (f.bytes ++ ((l.map Field.bytes).flatten ++ (nxmTunDst a ++ post))) =
              (pre ++ f.bytes) ++ ((l.map Field.bytes).flatten ++ (nxmTunDst a ++ post)) := by simp
          have e2 : pre.length + 4 + f.payload.length = (pre ++ f.bytes).length := by simp [hb]; omega
          rw [e, e2, ih (fun g hg => hl g (by simp [hg])) (pre ++ f.bytes) n
            (by rw [List.map_cons, List.flatten_cons, List.length_append] at hf; omega)]
          rfl
    have := key l hl [] (((l.map Field.bytes).flatten ++ (nxmTunDst a ++ post)).length + 1) (by
      rw [List.length_append]; omega)
    exact this
  · have hfit : fits [H, B, B, S 6] [.int 1, .int 64, .int 6, .str a] = true := rfl
    refine ⟨enc [H, B, B, S 6] [.int 1, .int 64, .int 6, .str a], ?_, fun e => ?_, ?_⟩
    · rfl
    · have := congrArg List.length e
      rw [enc_length _ _ hfit] at this
      simp [nxmTunDst, ha, calcsize, Item.width, H, B, S] at this
    · have h1 : unpackFrom [H, B, B] (enc [H, B, B, S 6] [.int 1, .int 64, .int 6, .str a]) 0 = .ok [.int 1, .int 64, .int 6] := by
        have : enc [H, B, B, S 6] [.int 1, .int 64, .int 6, .str a] =
            [] ++ (enc [H, B, B] [.int 1, .int 64, .int 6] ++ padTo 6 a) := by simp [enc, H, B, S]
        rw [this]
        exact unpackFrom_enc' _ _ _ _ _ rfl rfl (by simp [exact])
      simp only [parse, h1]; rfl

theorem sbits_dec_enc (little : Bool) (b : SBits) (hb : ∀ n, b ≠ .s n) (v : SVal) (c : Bytes) (h : b.enc little v = .ok c) :
    c.length = b.width ∧ b.dec little c = v := by
  cases b with
  | s n => exact (hb n rfl).elim
  | ub =>
    cases v with
    | str _ => cases h
    | int n =>
      simp only [SBits.enc] at h
      split at h
      · rename_i hn
        simp only [Of13.ok_inj] at h; subst h
        refine ⟨rfl, ?_⟩
        have : decBE (encBE 1 n.toNat) = n.toNat := decBE_encBE 1 _ (by simp; omega)
        have hr : (encBE 1 n.toNat).reverse = encBE 1 n.toNat := rfl
        simp only [SBits.dec, hr, ite_self, this]
        congr 1; omega
      · cases h
  | sb =>
    cases v with
    | str _ => cases h
    | int n =>
      simp only [SBits.enc] at h
      split at h
      · rename_i hn
        simp only [Of13.ok_inj] at h; subst h
        refine ⟨rfl, ?_⟩
        have := decBE_encBE 1 (if 0 ≤ n then n.toNat else (n + 256).toNat) (by simp; split <;> omega)
        simp only [SBits.dec, this]
        split <;> split <;> (congr 1; omega)
      · cases h
  | uh =>
    cases v with
    | str _ => cases h
    | int n =>
      simp only [SBits.enc] at h
      split at h
      · rename_i hn
        simp only [Of13.ok_inj] at h; subst h
        have := decBE_encBE 2 n.toNat (by simp; omega)
        cases little
        · exact ⟨rfl, by simp only [SBits.dec, Bool.false_eq_true, if_false, this]; congr 1; omega⟩
        · exact ⟨rfl, by simp only [SBits.dec, if_true, List.reverse_reverse, this]; congr 1; omega⟩
      · cases h
  | uq =>
    cases v with
    | str _ => cases h
    | int n =>
      simp only [SBits.enc] at h
      split at h
      · rename_i hn
        simp only [Of13.ok_inj] at h; subst h
        have := decBE_encBE 8 n.toNat (by simp; omega)
        cases little
        · exact ⟨rfl, by simp only [SBits.dec, Bool.false_eq_true, if_false, this]; congr 1; omega⟩
        · exact ⟨rfl, by simp only [SBits.dec, if_true, List.reverse_reverse, this]; congr 1; omega⟩
      · cases h

/-- A Stratos field on the wire, with the bytes of value and mask. -/
def stratosBytes (field hasmask expType : Nat) (c : Bytes) : Bytes :=
  be16 0xffff ++ b8 (2 * field + hasmask) ++ b8 (6 + c.length) ++ be32 0xFF00E04D ++ be16 expType ++ c

theorem stratos_head (field k expType : Nat) (c pre post : Bytes) (hf : field < 128) (hk : k < 2) (he : expType < 65536)
    (hc : c.length ≤ 249) :
    parse (pre ++ (stratosBytes field k expType c ++ post)) pre.length =
      match stratosFmt field expType k (6 + c.length) with
      | .ok (little, b) =>
        match sUnpack little b (k = 1) ((pre ++ (be16 0xffff ++ b8 (2 * field + k) ++ b8 (6 + c.length) ++ be32 0xFF00E04D ++
          be16 expType)) ++ (c ++ post)) (pre.length + 10) with
        | .ok [v] => .ok (.stratos 0xffff field k (6 + c.length) 0xFF00E04D expType v none)
        | .ok [v, w] => .ok (.stratos 0xffff field k (6 + c.length) 0xFF00E04D expType v (some w))
        | .ok _ => .error .typeError
        | .error e => .error e
      | .error e => .error e := by
  have h1 : unpackFrom [H, B, B] (pre ++ (stratosBytes field k expType c ++ post)) pre.length =
      .ok [.int 0xffff, .int (2 * field + k), .int (6 + c.length)] := by
    have : stratosBytes field k expType c ++ post = enc [H, B, B] [.int 0xffff, .int (2 * field + k), .int (6 + c.length)] ++
        (be32 0xFF00E04D ++ be16 expType ++ c ++ post) := by
      simp only [H, B, Of13.enc_u2, Of13.enc_u1, Of13.enc_nil, stratosBytes, List.append_assoc, List.append_nil]
    rw [this]
    exact unpackFrom_enc' _ _ _ _ _ rfl (by simp [fits]; omega) (by simp [exact])
  have h2 : unpackFrom [I] (pre ++ (stratosBytes field k expType c ++ post)) (pre.length + 4) = .ok [.int 0xFF00E04D] := by
    have : pre ++ (stratosBytes field k expType c ++ post) = (pre ++ (be16 0xffff ++ b8 (2 * field + k) ++ b8 (6 + c.length))) ++
        (enc [I] [.int 0xFF00E04D] ++ (be16 expType ++ c ++ post)) := by
      simp only [I, Of13.enc_u4, Of13.enc_nil, stratosBytes, List.append_assoc, List.append_nil]
    rw [this]
    exact unpackFrom_enc' _ _ _ _ _ (by simp) rfl (by simp [exact])
  have h3 : unpackFrom [H] (pre ++ (stratosBytes field k expType c ++ post)) (pre.length + 4 + 4) = .ok [.int expType] := by
    have : pre ++ (stratosBytes field k expType c ++ post) = (pre ++ (be16 0xffff ++ b8 (2 * field + k) ++ b8 (6 + c.length) ++
        be32 0xFF00E04D)) ++ (enc [H] [.int expType] ++ (c ++ post)) := by
      simp only [H, Of13.enc_u2, Of13.enc_nil, stratosBytes, List.append_assoc, List.append_nil]
    rw [this]
    exact unpackFrom_enc' _ _ _ _ _ (by simp) (by simp [fits]; omega) (by simp [exact])
  have e1 : (2 * field + k) / 2 = field := by omega
  have e2 : (2 * field + k) % 2 = k := by omega
  simp only [parse, h1, e1, e2, show (0xffff : Nat) ≠ 0x8000 from by decide, show (0xffff : Nat) ≠ 1 from by decide, if_false,
    if_true, parseExp, h2, h3]
  have e : pre ++ (stratosBytes field k expType c ++ post) = (pre ++ (be16 0xffff ++ b8 (2 * field + k) ++ b8 (6 + c.length) ++
      be32 0xFF00E04D ++ be16 expType)) ++ (c ++ post) := by simp [stratosBytes]
  rw [e]
  rfl

/-- The format of the Stratos fields of known type. -/
theorem stratosFmt_known {field expType : Nat} {little : Bool} {b : SBits}
    (hb : (field = 0 ∧ little = false ∧ stratosBasic expType = some b) ∨
      (field = 1 ∧ little = true ∧ stratosRadiotap expType = some b)) (k l : Nat) :
    stratosFmt field expType k l = .ok (little, b) ∧ ∀ n, b ≠ .s n := by
  rcases hb with ⟨rfl, rfl, h⟩ | ⟨rfl, rfl, h⟩
  · refine ⟨by simp [stratosFmt, h], fun n e => ?_⟩
    subst e; simp [stratosBasic] at h
  · refine ⟨by simp [stratosFmt, h], fun n e => ?_⟩
    subst e
    unfold stratosRadiotap at h
    repeat' (split at h)
    all_goals simp at h

theorem stratos_parse (field expType : Nat) (little : Bool) (b : SBits) (v w : SVal) (x y pre post : Bytes)
    (he : expType < 65536)
    (hb : (field = 0 ∧ little = false ∧ stratosBasic expType = some b) ∨
      (field = 1 ∧ little = true ∧ stratosRadiotap expType = some b))
    (hv : b.enc little v = .ok x) (hw : b.enc little w = .ok y) :
    parse (pre ++ (stratosBytes field 0 expType x ++ post)) pre.length =
      .ok (.stratos 0xffff field 0 (6 + x.length) 0xFF00E04D expType v none) ∧
    parse (pre ++ (stratosBytes field 1 expType (x ++ y) ++ post)) pre.length =
      .ok (.stratos 0xffff field 1 (6 + x.length + y.length) 0xFF00E04D expType v (some w)) := by
  have hf : field < 2 := by rcases hb with ⟨h, _⟩ | ⟨h, _⟩ <;> omega
  have hns := (stratosFmt_known hb 0 0).2
  obtain ⟨lx, dx⟩ := sbits_dec_enc little b hns v x hv
  obtain ⟨ly, dy⟩ := sbits_dec_enc little b hns w y hw
  have hw8 : b.width ≤ 8 := by cases b <;> simp [SBits.width] at hns ⊢
  constructor
  · rw [stratos_head field 0 expType x pre post (by omega) (by omega) he (by omega), (stratosFmt_known hb 0 (6 + x.length)).1]
    generalize hP : pre ++ (be16 0xffff ++ b8 (2 * field + 0) ++ b8 (6 + x.length) ++ be32 0xFF00E04D ++ be16 expType) = P
    have hPl : pre.length + 10 = P.length := by rw [← hP]; simp
    rw [hPl]
    have : sUnpack little b (decide (0 = 1)) (P ++ (x ++ post)) P.length = .ok [v] := by
      simp only [sUnpack, Nat.zero_ne_one, decide_false, Bool.false_eq_true, if_false]
      rw [if_pos (by simp; omega), slice_append P x post _ _ rfl (by omega), dx]
    simp only [this]
  · rw [stratos_head field 1 expType (x ++ y) pre post (by omega) (by omega) he (by simp; omega), (stratosFmt_known hb 1 _).1]
    generalize hP : pre ++ (be16 0xffff ++ b8 (2 * field + 1) ++ b8 (6 + (x ++ y).length) ++ be32 0xFF00E04D ++ be16 expType) = P
    have hPl : pre.length + 10 = P.length := by rw [← hP]; simp
    rw [hPl]
    have : sUnpack little b (decide (1 = 1)) (P ++ (x ++ y ++ post)) P.length = .ok [v, w] := by
      simp only [sUnpack, decide_true, if_true]
      rw [if_pos (by simp; omega), List.append_assoc, slice_append P x (y ++ post) _ _ rfl (by omega), dx]
      rw [show P ++ (x ++ (y ++ post)) = (P ++ x) ++ (y ++ post) from by simp,
        slice_append (P ++ x) y post _ _ (by simp; omega) (by omega), dy]
    simp only [decide_true] at this ⊢
    rw [this, List.length_append, Nat.add_assoc]

/-- The format codes are those of the known kinds. -/
theorem kind_bits {field expType : Nat} {k : Kind} (h : kindOf field expType = some k) :
    ∃ b : SBits, ((field = 0 ∧ k.little = false ∧ stratosBasic expType = some b) ∨
      (field = 1 ∧ k.little = true ∧ stratosRadiotap expType = some b)) ∧
      ∀ n, k.InRange n → b.enc k.little (.int n) = .ok (k.bytes n) := by
  have hub : ∀ little n, Kind.InRange ⟨1, false, little⟩ n → SBits.enc little .ub (.int n) = .ok (Kind.bytes ⟨1, false, little⟩ n) := by
    intro little n hn
    simp only [Kind.InRange, Bool.false_eq_true, if_false] at hn
    have hn : 0 ≤ n ∧ n < 256 := hn
    simp only [SBits.enc, if_pos hn, Kind.bytes, Int.reducePow, Nat.cast_ofNat, Int.emod_eq_of_lt hn.1 hn.2]
    cases little <;> rfl
  have hsb : ∀ little n, Kind.InRange ⟨1, true, little⟩ n → SBits.enc little .sb (.int n) = .ok (Kind.bytes ⟨1, true, little⟩ n) := by
    intro little n hn
    simp only [Kind.InRange, if_true] at hn
    have hn : -128 ≤ n ∧ n < 128 := hn
    have he : (if 0 ≤ n then n.toNat else (n + 256).toNat) = (n % 256).toNat := by split <;> omega
    simp only [SBits.enc, if_pos hn, Kind.bytes, Int.reducePow, he]
    cases little <;> rfl
  have huh : ∀ little n, Kind.InRange ⟨2, false, little⟩ n → SBits.enc little .uh (.int n) = .ok (Kind.bytes ⟨2, false, little⟩ n) := by
    intro little n hn
    simp only [Kind.InRange, Bool.false_eq_true, if_false] at hn
    have hn : 0 ≤ n ∧ n < 65536 := hn
    simp only [SBits.enc, if_pos hn, Kind.bytes, Int.reducePow, Int.emod_eq_of_lt hn.1 hn.2]
  have huq : ∀ little n, Kind.InRange ⟨8, false, little⟩ n → SBits.enc little .uq (.int n) = .ok (Kind.bytes ⟨8, false, little⟩ n) := by
    intro little n hn
    simp only [Kind.InRange, Bool.false_eq_true, if_false] at hn
    have hn : 0 ≤ n ∧ n < 2 ^ 64 := hn
    simp only [SBits.enc, if_pos hn, Kind.bytes]
    rw [Int.emod_eq_of_lt hn.1 (by simpa using hn.2)]
  unfold kindOf at h
  split at h
  · rename_i hf
    split at h
    · rename_i ht
      injection h with h; subst h
      exact ⟨.ub, .inl ⟨hf, rfl, by simp [stratosBasic, ht]⟩, hub _⟩
    · cases h
  · split at h
    · rename_i hf
      split at h
      · rename_i w sg hk
        injection h with h; subst h
        have hlt : expType < 18 := by
          rcases Nat.lt_or_ge expType 18 with h | h
          · exact h
          · rw [List.getElem?_eq_none (by simpa [radiotapKinds] using h)] at hk; cases hk
        have hcases : (w = 1 ∧ sg = false ∧ stratosRadiotap expType = some .ub) ∨ (w = 1 ∧ sg = true ∧ stratosRadiotap expType = some .sb) ∨
            (w = 2 ∧ sg = false ∧ stratosRadiotap expType = some .uh) ∨ (w = 8 ∧ sg = false ∧ stratosRadiotap expType = some .uq) := by
          revert hk
          have : ∀ e < 18, ∀ w sg, radiotapKinds[e]? = some (some (w, sg)) → (w = 1 ∧ sg = false ∧ stratosRadiotap e = some .ub) ∨
              (w = 1 ∧ sg = true ∧ stratosRadiotap e = some .sb) ∨ (w = 2 ∧ sg = false ∧ stratosRadiotap e = some .uh) ∨
              (w = 8 ∧ sg = false ∧ stratosRadiotap e = some .uq) := by
            intro e he w sg h
            rcases e with _|_|_|_|_|_|_|_|_|_|_|_|_|_|_|_|_|_|e <;> first | omega | (simp [radiotapKinds] at h; done) | (simp [radiotapKinds] at h; simp [← h.1, ← h.2, stratosRadiotap])
          exact this expType hlt w sg
        rcases hcases with ⟨rfl, rfl, hs⟩ | ⟨rfl, rfl, hs⟩ | ⟨rfl, rfl, hs⟩ | ⟨rfl, rfl, hs⟩
        · exact ⟨.ub, .inr ⟨hf, rfl, hs⟩, hub _⟩
        · exact ⟨.sb, .inr ⟨hf, rfl, hs⟩, hsb _⟩
        · exact ⟨.uh, .inr ⟨hf, rfl, hs⟩, huh _⟩
        · exact ⟨.uq, .inr ⟨hf, rfl, hs⟩, huq _⟩
      · cases h
    · cases h

theorem kind_none {field expType : Nat} (h : kindOf field expType = none) (k l : Nat) :
    stratosFmt field expType k l = if k = 1 then .error .typeError else if l < 6 then .error .structError else .ok (false, .s (l - 6)) := by
  have : (if field = 0 then (stratosBasic expType).map (false, ·)
      else if field = 1 then (stratosRadiotap expType).map (true, ·) else none : Option (Bool × SBits)) = none := by
    unfold kindOf at h
    by_cases h0 : field = 0
    · rw [if_pos h0] at h ⊢
      by_cases h1 : expType = 1 ∨ expType = 9 ∨ expType = 10
      · rw [if_pos h1] at h; cases h
      · simp [stratosBasic, h1]
    · rw [if_neg h0] at h ⊢
      by_cases h1 : field = 1
      · rw [if_pos h1] at h ⊢
        rcases Nat.lt_or_ge expType 18 with hlt | hge
        · have : ∀ e < 18, (match radiotapKinds[e]? with | some (some (w, s)) => some (Kind.mk w s true) | _ => none) = none →
              stratosRadiotap e = none := by
            intro e he h
            rcases e with _|_|_|_|_|_|_|_|_|_|_|_|_|_|_|_|_|_|e <;> first | omega | rfl | (simp [radiotapKinds] at h)
          rw [this expType hlt h]; rfl
        · have : stratosRadiotap expType = none := by
            unfold stratosRadiotap
            rw [if_neg (by simp; omega), if_neg (by simp; omega), if_neg (by simp; omega), if_neg (by omega)]
          rw [this]; rfl
      · rw [if_neg h1]
  unfold stratosFmt
  rw [this]

/-- C57. Vendor fields with a number are parsed, anywhere in a message, without and with a mask. -/
theorem C57_stratos_parse_partial (field expType : Nat) (k : Kind) (v w : Int) (pre post : Bytes) (hk : kindOf field expType = some k)
    (hv : k.InRange v) (hw : k.InRange w) :
    parse (pre ++ (stratosBytes field 0 expType (k.bytes v) ++ post)) pre.length =
      .ok (.stratos 0xffff field 0 (6 + k.width) 0xFF00E04D expType (.int v) none) ∧
    parse (pre ++ (stratosBytes field 1 expType (k.bytes v ++ k.bytes w) ++ post)) pre.length =
      .ok (.stratos 0xffff field 1 (6 + 2 * k.width) 0xFF00E04D expType (.int v) (some (.int w))) := by
  obtain ⟨b, hb, he⟩ := kind_bits hk
  have hlt : expType < 65536 := by
    unfold kindOf at hk
    split at hk
    · split at hk
      · omega
      · cases hk
    · split at hk
      · rcases Nat.lt_or_ge expType 18 with h | h
        · omega
        · rw [List.getElem?_eq_none (by simpa [radiotapKinds] using h)] at hk; cases hk
      · cases hk
  have hl : ∀ n, (k.bytes n).length = k.width := by
    intro n
    unfold Kind.bytes
    cases k.little <;> simp
  obtain ⟨h1, h2⟩ := stratos_parse field expType k.little b (.int v) (.int w) (k.bytes v) (k.bytes w) pre post hlt hb (he v hv) (he w hw)
  rw [hl] at h1
  rw [hl, hl] at h2
  exact ⟨h1, by rw [h2]; congr 2; omega⟩

/-- C57. Other vendor fields are parsed as the bytes that they carry if they have no mask. -/
theorem C57_stratos_other_partial (field expType : Nat) (c pre post : Bytes) (hf : field < 128) (he : expType < 65536) (hc : c.length ≤ 249)
    (hk : kindOf field expType = none) :
    parse (pre ++ (stratosBytes field 0 expType c ++ post)) pre.length =
      .ok (.stratos 0xffff field 0 (6 + c.length) 0xFF00E04D expType (.str c) none) := by
  rw [stratos_head field 0 expType c pre post hf (by omega) he hc, kind_none hk, if_neg (by decide), if_neg (by omega)]
  generalize hP : pre ++ (be16 0xffff ++ b8 (2 * field + 0) ++ b8 (6 + c.length) ++ be32 0xFF00E04D ++ be16 expType) = P
  have hPl : pre.length + 10 = P.length := by rw [← hP]; simp
  rw [hPl]
  have : sUnpack false (.s (6 + c.length - 6)) (decide (0 = 1)) (P ++ (c ++ post)) P.length = .ok [.str c] := by
    simp only [sUnpack, Nat.zero_ne_one, decide_false, Bool.false_eq_true, if_false, SBits.width, Nat.add_sub_cancel_left]
    rw [if_pos (by simp), slice_append P c post _ _ rfl rfl]
    rfl
  simp only [this]

/-- C57 does not hold of other vendor fields with a mask: L192 applies `%` before `/`, and divides a string. -/
theorem C57_stratos_mask_refuted (field expType : Nat) (c pre post : Bytes) (hf : field < 128) (he : expType < 65536) (hc : c.length ≤ 249)
    (hk : kindOf field expType = none) :
    parse (pre ++ (stratosBytes field 1 expType c ++ post)) pre.length = .error .typeError := by
  rw [stratos_head field 1 expType c pre post hf (by omega) he hc, kind_none hk, if_pos rfl]

/-- Signal strength in dBm and the time stamp of radiotap headers have a kind, an SSID has none. -/
example : kindOf 1 5 = some ⟨1, true, true⟩ ∧ kindOf 1 0 = some ⟨8, false, true⟩ ∧ kindOf 0 7 = none ∧
    Kind.InRange ⟨1, true, true⟩ (-40) ∧ Kind.bytes ⟨1, true, true⟩ (-40) = [216] := by
  refine ⟨rfl, rfl, rfl, ?_, by decide⟩
  simp [Kind.InRange]

end Twink.Oxm
