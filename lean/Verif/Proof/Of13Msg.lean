import Verif.Proof.Of13Actions
import Verif.Proof.HelloSpec

/-! Headers, matches, instructions, buckets and bands of the OpenFlow 1.3 codec. -/

namespace Twink.Of13
open Fmt Spec

/-- The bytes `b` stand at offset `n` of the message. -/
def At (m : Bytes) (n : Nat) (b : Bytes) : Prop := ∃ pre post, m = pre ++ (b ++ post) ∧ n = pre.length

theorem At.intro (pre b post : Bytes) (n : Nat) (hn : n = pre.length) : At (pre ++ (b ++ post)) n b := ⟨pre, post, rfl, hn⟩

theorem At.left {m n a b} (h : At m n (a ++ b)) : At m n a := by
  obtain ⟨pre, post, rfl, hn⟩ := h
  exact ⟨pre, b ++ post, by simp, hn⟩

theorem At.right {m n a b} (h : At m n (a ++ b)) (k : Nat) (hk : k = n + a.length) : At m k b := by
  obtain ⟨pre, post, rfl, hn⟩ := h
  exact ⟨pre ++ a, post, by simp, by simp [hk, hn]⟩

theorem At.slice {m n b} (h : At m n b) (j : Nat) (hj : j = n + b.length) : Twink.slice m n j = b := by
  obtain ⟨pre, post, rfl, hn⟩ := h
  exact slice_append _ _ _ _ _ hn hj

theorem rd_at {m n} {f : Fmt} {vs : List Val} (h : At m n (enc f vs)) (hf : fits f vs = true) (he : exact f vs)
    (k : List Val → Option α) (a : α) (hk : k vs = some a) : rd f m n k = .ok (a, n + calcsize f) := by
  obtain ⟨pre, post, rfl, hn⟩ := h
  exact rd_enc f vs pre post n hn hf he k a hk

theorem RT.at {p : Bytes → Nat → Py (α × Nat)} {b : Bytes} {a : α} (h : RT p b a) {m n} (hm : At m n b) :
    p m n = .ok (a, n + b.length) := by
  obtain ⟨pre, post, rfl, hn⟩ := hm
  exact h pre post n hn

theorem RT.of_at {p : Bytes → Nat → Py (α × Nat)} {b : Bytes} {a : α}
    (h : ∀ m n, At m n b → p m n = .ok (a, n + b.length)) : RT p b a :=
  fun pre post n hn => h _ n (At.intro pre b post n hn)

theorem whileFetch_at {p : Bytes → Nat → Py (α × Nat)} {bs : Bytes} {as : List α} (h : Parts p bs as) {m n}
    (hm : At m n bs) (lim : Nat) (hl : lim = n + bs.length) : whileFetch (p m) lim n = .ok (as, lim) := by
  obtain ⟨pre, post, rfl, hn⟩ := hm
  exact whileFetch_parts h pre post n lim hn hl

theorem listFetch_at {p : Bytes → Nat → Py (α × Nat)} {bs : Bytes} {as : List α} (h : Parts p bs as) {m n}
    (hm : At m n bs) (lim : Nat) (hl : lim = n + bs.length) : listFetch (p m) lim n = .ok (as, lim) := by
  obtain ⟨pre, post, rfl, hn⟩ := hm
  exact listFetch_parts h pre post n lim hn hl

theorem peek_at {m n} {g : Fmt} {t l : Nat} {ws : List Val} (h : At m n (enc (H :: H :: g) (.int t :: .int l :: ws)))
    (hf : fits (H :: H :: g) (.int t :: .int l :: ws) = true) (k : Nat → Nat → α) :
    rd [H, H] m n (two k) = .ok (k t l, n + 4) := by
  obtain ⟨pre, post, rfl, hn⟩ := h
  obtain ⟨ht, hl, _⟩ := fits_HH hf
  rw [enc_HH, List.append_assoc, List.append_assoc]
  exact rd_peek0 t l pre _ n hn ht hl k

theorem peek4_at {m n} {g : Fmt} {t l : Nat} {ws : List Val} {b : Bytes}
    (h : At m n (enc (H :: H :: g) (.int t :: .int l :: ws) ++ b))
    (hf : fits (H :: H :: g) (.int t :: .int l :: ws) = true) (hg : 4 ≤ calcsize g + b.length) (k : Nat → Nat → α) :
    rd [H, H, X 4] m n (two k) = .ok (k t l, n + 8) := by
  obtain ⟨pre, post, rfl, hn⟩ := h
  obtain ⟨ht, hl, hg'⟩ := fits_HH hf
  rw [enc_HH, List.append_assoc, List.append_assoc, List.append_assoc]
  exact rd_peek 4 t l pre _ n hn ht hl (by simp [enc_length _ _ hg']; omega) k

/-! ### the header -/

theorem hdrFields_one {rnd h ty v t x} (hh : hdrFields rnd h (.one ty) = .ok (v, t, x)) :
    t = some ty ∧ x.getD rnd = h.xid rnd := by
  cases h with
  | none => simp [hdrFields] at hh; obtain ⟨_, rfl, rfl⟩ := hh; exact ⟨rfl, rfl⟩
  | bad => simp [hdrFields] at hh
  | tup v' t' l' x' =>
    simp only [hdrFields] at hh
    cases t' with
    | none => simp at hh; obtain ⟨_, rfl, rfl⟩ := hh; exact ⟨rfl, rfl⟩
    | some t' =>
      simp only [bind_ok, pyAssert_ok, ok_inj, Prod.mk.injEq, exists_const] at hh
      obtain ⟨rfl, _, rfl, rfl⟩ := hh; exact ⟨rfl, rfl⟩
  | raw b =>
    simp only [hdrFields, bind_ok] at hh
    obtain ⟨vs, h1, h2⟩ := hh
    have hlen : 8 ≤ b.length := by
      by_contra hc
      have : ¬ calcsize hdrFmt ≤ b.length := by simp [hdrFmt, calcsize, Item.width]; omega
      simp [unpackFrom, this] at h1
    have h3 := parseHeader_fields b hlen
    rw [parseHeader, h1, ok_bind] at h3
    split at h2
    · rename_i v' t' l' x'
      simp only [ok_inj, Prod.mk.injEq] at h3
      simp only [bind_ok, pyAssert_ok, ok_inj, Prod.mk.injEq, exists_const] at h2
      obtain ⟨rfl, _, rfl, rfl⟩ := h2
      exact ⟨rfl, h3.2.2.2⟩
    · simp at h2

theorem hdrFields_among {rnd h ts v t x} (hh : hdrFields rnd h (.among ts) = .ok (v, t, x)) (d : Nat) :
    t = some (h.type d) ∧ h.type d ∈ ts ∧ x.getD rnd = h.xid rnd := by
  cases h with
  | none => simp [hdrFields] at hh
  | bad => simp [hdrFields] at hh
  | tup v' t' l' x' =>
    simp only [hdrFields] at hh
    cases t' with
    | none => simp at hh
    | some t' =>
      simp only [bind_ok, pyAssert_ok, ok_inj, Prod.mk.injEq, exists_const] at hh
      obtain ⟨hm, _, rfl, rfl⟩ := hh; exact ⟨rfl, hm, rfl⟩
  | raw b =>
    simp only [hdrFields, bind_ok] at hh
    obtain ⟨vs, h1, h2⟩ := hh
    have hlen : 8 ≤ b.length := by
      by_contra hc
      have : ¬ calcsize hdrFmt ≤ b.length := by simp [hdrFmt, calcsize, Item.width]; omega
      simp [unpackFrom, this] at h1
    have h3 := parseHeader_fields b hlen
    rw [parseHeader, h1, ok_bind] at h3
    split at h2
    · rename_i v' t' l' x'
      simp only [ok_inj, Prod.mk.injEq] at h3
      simp only [bind_ok, pyAssert_ok, ok_inj, Prod.mk.injEq, exists_const] at h2
      obtain ⟨hm, _, rfl, rfl⟩ := h2
      rw [h3.2.1] at hm
      exact ⟨by rw [h3.2.1]; rfl, hm, h3.2.2.2⟩
    · simp at h2

theorem ofpHeader_ok {rnd v t l x bs} (h : ofpHeader rnd v t l x = .ok bs) :
    ∃ t', t = some t' ∧ fits hdrFmt [.int 4, .int t', .int (l.getD 8), .int (x.getD rnd)] = true ∧
      bs = enc hdrFmt [.int 4, .int t', .int (l.getD 8), .int (x.getD rnd)] := by
  simp only [ofpHeader, bind_ok, pyAssert_ok, packOpt_ok, pack_eq_ok, exists_const] at h
  obtain ⟨hv, t', rfl, h1, h2⟩ := h
  rw [hv] at h1 h2
  exact ⟨t', rfl, h1, h2⟩

/-- A message made by `ofp_`: header with the true length, then the data. -/
theorem ofp_one {rnd h data ty bs} (hh : ofp_ rnd h data (.one ty) = .ok bs) :
    fits hdrFmt [.int 4, .int ty, .int (8 + data.length), .int (h.xid rnd)] = true ∧
      bs = enc hdrFmt [.int 4, .int ty, .int (8 + data.length), .int (h.xid rnd)] ++ data := by
  simp only [ofp_, bind_ok, ok_inj] at hh
  obtain ⟨⟨v, t, x⟩, h1, hd, h2, rfl⟩ := hh
  obtain ⟨rfl, hx⟩ := hdrFields_one h1
  obtain ⟨t', ht, h3, h4⟩ := ofpHeader_ok h2
  injection ht with ht; subst ht
  simp only [Option.getD_some, hx] at h3 h4
  exact ⟨h3, by rw [h4]⟩

theorem ofp_among {rnd h data ts bs} (hh : ofp_ rnd h data (.among ts) = .ok bs) (d : Nat) :
    h.type d ∈ ts ∧ fits hdrFmt [.int 4, .int (h.type d), .int (8 + data.length), .int (h.xid rnd)] = true ∧
      bs = enc hdrFmt [.int 4, .int (h.type d), .int (8 + data.length), .int (h.xid rnd)] ++ data := by
  simp only [ofp_, bind_ok, ok_inj] at hh
  obtain ⟨⟨v, t, x⟩, h1, hd, h2, rfl⟩ := hh
  obtain ⟨rfl, hm, hx⟩ := hdrFields_among h1 d
  obtain ⟨t', ht, h3, h4⟩ := ofpHeader_ok h2
  injection ht with ht; subst ht
  simp only [Option.getD_some, hx] at h3 h4
  exact ⟨hm, h3, by rw [h4]⟩

theorem hdr_length (a b c d : Nat) : (enc hdrFmt [.int a, .int b, .int c, .int d]).length = 8 := enc_hdr_length a b c d

/-- Reading the header of a built message. -/
theorem parseHdr_at {m n t l x data} (h : At m n (enc hdrFmt [.int 4, .int t, .int l, .int x] ++ data))
    (hf : fits hdrFmt [.int 4, .int t, .int l, .int x] = true) : parseHdr m n = .ok (⟨4, t, l, x⟩, n + 8) := by
  have := rd_at h.left hf (by simp [exact, hdrFmt]) (four Hdr.mk) ⟨4, t, l, x⟩ rfl
  rw [parseHdr, this, ok_bind, pyAssert_true rfl]
  rfl

/-- Parsing a built message dispatches on its type. -/
theorem parse_at {m n t l x data} (h : At m n (enc hdrFmt [.int 4, .int t, .int l, .int x] ++ data))
    (hf : fits hdrFmt [.int 4, .int t, .int l, .int x] = true) : parse m n = parseOf t m n := by
  rw [parse, parseHdr_at h hf, ok_bind]

/-- The data of a built message. -/
theorem data_at {m n t l x data} (h : At m n (enc hdrFmt [.int 4, .int t, .int l, .int x] ++ data)) : At m (n + 8) data :=
  h.right _ (by rw [hdr_length])

/-! ### matches -/

theorem join_noTuple {l : List (Elem Unit)} {bs : Bytes} (h : join noTuple l = .ok bs) :
    bs = (l.map (fun | .raw b => b | _ => [])).flatten := by
  induction l generalizing bs with
  | nil => rw [join_ok_nil] at h; simp [h]
  | cons e es ih =>
    obtain ⟨b, bs', h1, h2, rfl⟩ := join_ok_cons.1 h
    cases e with
    | raw b' => simp [obj] at h1; subst h1; simp [← ih h2]
    | tup u => simp [obj, noTuple] at h1
    | bad => simp [obj] at h1

theorem match_ok {mt : MatchT} {bs : Bytes} (h : buildMatch mt = .ok bs) :
    fits [H, H] [.int (mt.type.getD 1), .int (4 + mt.fields.length)] = true ∧
      bs = enc [H, H] [.int (mt.type.getD 1), .int (4 + mt.fields.length)] ++ fill8 4 mt.fields := by
  simp only [buildMatch, bind_ok, pyAssert_ok, pack_eq_ok, ok_inj, exists_const] at h
  obtain ⟨fs, h1, _, ⟨hf, rfl⟩, _, rfl⟩ := h
  have : fs = mt.fields := by
    cases ho : mt.oxm with
    | raw b => simp [ho, seqBytes] at h1; simp [MatchT.fields, ho, h1]
    | items l =>
      simp only [ho, seqBytes] at h1
      simp only [MatchT.fields, ho]
      exact join_noTuple h1
    | none => simp [ho, seqBytes] at h1; simp [MatchT.fields, ho, h1]
    | bad => simp [ho] at h1
  subst this
  exact ⟨hf, by rw [List.append_assoc, fill8_eq]⟩

theorem rt_match {mt : MatchT} {bs : Bytes} (h : buildMatch mt = .ok bs) :
    RT parseMatch bs (mt.wire mt.fields) ∧ bs.length = up8 (4 + mt.fields.length) := by
  obtain ⟨hf, rfl⟩ := match_ok h
  have hlen := fill8_length 4 mt.fields
  have hbl : (enc [H, H] [.int (mt.type.getD 1), .int (4 + mt.fields.length)] ++ fill8 4 mt.fields).length
      = up8 (4 + mt.fields.length) := by simp [enc]; omega
  refine ⟨RT.of_at fun m n hm => ?_, hbl⟩
  rw [hbl, parseMatch, rd_at hm.left hf (by simp [exact]) (two fun a b => (a, b)) _ rfl, ok_bind]
  have h2 : At m (n + 4) (fill8 4 mt.fields) := hm.right _ (by simp [enc])
  have h3 := (h2.left (a := mt.fields)).slice (n + (4 + mt.fields.length)) (by omega)
  have hc : calcsize [H, H] = 4 := rfl
  simp only [hc, h3, align_eq, MatchT.wire]

/-! ### instructions -/

/-- An instruction with a fixed layout. -/
theorem instr_rt {g : Fmt} {t l : Nat} {ws : List Val} {k : List Val → Option Instr} {a : Instr}
    (hf : fits (H :: H :: g) (.int t :: .int l :: ws) = true) (he : exact (H :: H :: g) (.int t :: .int l :: ws))
    (hp : ∀ m off, parseInstrOf t m off = rd (H :: H :: g) m off k)
    (hk : k (.int t :: .int l :: ws) = some a) :
    RT parseInstr (enc (H :: H :: g) (.int t :: .int l :: ws)) a := by
  refine RT.of_at fun m n hm => ?_
  rw [parseInstr, peek_at hm hf (fun a b => (a, b)), ok_bind]
  simp only
  rw [hp, rd_at hm hf he k a hk, enc_length _ _ hf]

theorem rt_instr (a : Instr) (bs : Bytes) (hp : a.Parseable) (h : buildInstr a = .ok bs) :
    RT parseInstr bs a.wire ∧ 0 < bs.length ∧ bs.length = a.size := by
  cases a with
  | header t l => exact hp.elim
  | gotoTable t l x =>
    simp only [buildInstr, bind_ok, pyAssert_ok, pack_eq_ok, ok_inj, exists_const] at h
    obtain ⟨ht, _, ⟨hf, rfl⟩, hlen, rfl⟩ := h
    rw [ht] at *
    refine ⟨instr_rt (k := three fun t l => .gotoTable (some t) (some l)) hf (by simp [exact]) (fun m off => ?_) rfl, by omega, hlen⟩
    simp [parseInstrOf]
  | writeMetadata t l x y =>
    simp only [buildInstr, bind_ok, pyAssert_ok, pack_eq_ok, ok_inj, exists_const] at h
    obtain ⟨ht, _, ⟨hf, rfl⟩, hlen, rfl⟩ := h
    rw [ht] at *
    refine ⟨instr_rt (k := four fun t l => .writeMetadata (some t) (some l)) hf (by simp [exact]) (fun m off => ?_) rfl, by omega, hlen⟩
    simp [parseInstrOf]
  | meter t l x =>
    simp only [buildInstr, bind_ok, pyAssert_ok, pack_eq_ok, exists_const] at h
    obtain ⟨ht, hf, rfl⟩ := h
    rw [ht] at *
    have hlen : (enc [H, H, I] [.int 6, .int 8, .int x]).length = 8 := by simp [enc]
    refine ⟨instr_rt (k := three fun t l => .meter (some t) (some l)) hf (by simp [exact]) (fun m off => ?_) rfl, by omega, hlen⟩
    simp [parseInstrOf]
  | experimenter t l x d =>
    simp only [buildInstr, bind_ok, pyAssert_ok, pack_eq_ok, ok_inj, exists_const] at h
    obtain ⟨ht, _, ⟨hf, rfl⟩, rfl⟩ := h
    rw [ht] at *
    have hlen : (enc [H, H, I] [.int 0xffff, .int (8 + d.length), .int x] ++ d).length = 8 + d.length := by
      simp [enc]; omega
    refine ⟨RT.of_at fun m n hm => ?_, by omega, hlen⟩
    rw [hlen, parseInstr, peek_at hm.left hf (fun a b => (a, b)), ok_bind]
    simp only [parseInstrOf]
    simp only [Nat.reduceEqDiff, or_self, ↓reduceIte]
    rw [rd_at hm.left hf (by simp [exact]) (three fun a b c => (a, b, c)) _ rfl, ok_bind]
    have hc : calcsize [H, H, I] = 8 := rfl
    simp only [hc, Instr.wire]
    rw [(hm.right (n + 8) (by simp [enc])).slice _ (by omega)]
  | actions t l s =>
    simp only [buildInstr, bind_ok] at h
    obtain ⟨acts, h1, h⟩ := h
    cases t with
    | none => simp at h
    | some t =>
      simp only [bind_ok, pyAssert_ok, pack_eq_ok, ok_inj, exists_const] at h
      obtain ⟨ht, _, ⟨hf, rfl⟩, rfl⟩ := h
      obtain ⟨hparts, hsz⟩ := seq_actions hp h1
      have hlen : (enc [H, H, X 4] [.int t, .int (8 + acts.length)] ++ acts).length = 8 + acts.length := by simp [enc]; omega
      refine ⟨RT.of_at fun m n hm => ?_, by omega, by rw [hlen, hsz]; rfl⟩
      rw [hlen, parseInstr, peek_at hm.left hf (fun a b => (a, b)), ok_bind]
      have hdisp : parseInstrOf t m n = (do
          let ((type, len), o) ← rd [H, H, X 4] m n (two fun a b => (a, b))
          let (acts, o) ← whileFetch (parseAction m) (n + len) o
          pyAssert (o = n + len)
          .ok (.actions (some type) (some len) (tups acts), o)) := by
        rcases ht with rfl | rfl | rfl <;> rfl
      simp only
      rw [hdisp, rd_at hm.left hf (by simp [exact]) (two fun a b => (a, b)) _ rfl, ok_bind]
      have hc : calcsize [H, H, X 4] = 8 := rfl
      simp only [hc]
      rw [whileFetch_at hparts (hm.right (n + 8) (by simp [enc])) _ (by omega), ok_bind]
      simp only [pyAssert_true, ok_bind, Instr.wire, wireActions, hsz]

theorem seq_instrs {s : Seq Instr} (hs : s.All Instr.Parseable) {bs : Bytes} (h : seqBytes buildInstr s = .ok bs) :
    Parts parseInstr bs (s.values.map Instr.wire) ∧ bs.length = (s.values.map Instr.size).sum :=
  seq_parts rt_instr hs h

/-! ### buckets and bands -/

theorem actionsSize_mod (s : Seq Action) : actionsSize s % 8 = 0 := by
  unfold actionsSize
  induction s.values with
  | nil => rfl
  | cons a l ih =>
    have : a.size % 8 = 0 := by cases a <;> simp [Action.size, up8_mod]
    simp only [List.map_cons, List.sum_cons]; omega

theorem rt_bucket (b : Bucket) (bs : Bytes) (hp : b.actions.All Action.Parseable) (h : buildBucket b = .ok bs) :
    RT parseBucket bs b.wire ∧ 0 < bs.length ∧ bs.length = 16 + actionsSize b.actions := by
  simp only [buildBucket, bind_ok, pack_eq_ok, ok_inj] at h
  obtain ⟨acts, h1, _, ⟨hf, rfl⟩, rfl⟩ := h
  obtain ⟨hparts, hsz⟩ := seq_actions hp h1
  have hal : align (16 + acts.length) = 16 + acts.length := by
    rw [align_eq, up8_of_mod]
    have := actionsSize_mod b.actions
    omega
  rw [hal] at hf
  simp only [hal]
  have h0 : nul (16 + acts.length - (16 + acts.length)) = [] := by simp [nul]
  rw [h0, List.append_nil]
  have hlen : (enc [H, H, I, I, X 4] [.int (16 + acts.length), .int b.weight, .int b.watchPort, .int b.watchGroup] ++ acts).length
      = 16 + acts.length := by simp [enc]; omega
  refine ⟨RT.of_at fun m n hm => ?_, by omega, by omega⟩
  rw [hlen, parseBucket, rd_at hm.left hf (by simp [exact]) (four fun a b c d => (a, b, c, d)) _ rfl, ok_bind]
  have hc : calcsize [H, H, I, I, X 4] = 16 := rfl
  simp only [hc]
  rw [whileFetch_at hparts (hm.right (n + 16) (by simp [enc])) _ (by omega), ok_bind]
  simp only [Bucket.wire, wireActions, hsz]

theorem seq_buckets {s : Seq Bucket} (hs : s.All Bucket.Parseable) {bs : Bytes} (h : seqBytes buildBucket s = .ok bs) :
    Parts parseBucket bs (s.values.map Bucket.wire) ∧ bs.length = (s.values.map (fun b => 16 + actionsSize b.actions)).sum :=
  seq_parts rt_bucket hs h

theorem rt_band (b : Band) (bs : Bytes) (hp : b.Parseable) (h : buildBand b = .ok bs) :
    RT parseBand bs b.wire ∧ 0 < bs.length ∧ bs.length = 16 := by
  have hpk : ∀ {g : Fmt} {ws : List Val} {t l r u : Nat} {m : Bytes} {n : Nat},
      At m n (enc (H :: H :: I :: I :: g) (.int t :: .int l :: .int r :: .int u :: ws)) →
      fits (H :: H :: I :: I :: g) (.int t :: .int l :: .int r :: .int u :: ws) = true →
      rd [H, H, I, I] m n (four fun t _ _ _ => t) = .ok (t, n + 12) := by
    intro g ws t l r u m n hm hf
    have e : enc (H :: H :: I :: I :: g) (.int t :: .int l :: .int r :: .int u :: ws) =
        enc [H, H, I, I] [.int t, .int l, .int r, .int u] ++ enc g ws := by simp [enc]
    rw [e] at hm
    refine rd_at hm.left ?_ (by simp [exact]) _ _ rfl
    simp [fits] at hf ⊢
    exact ⟨hf.1, hf.2.1, hf.2.2.1, hf.2.2.2.1⟩
  cases b with
  | header t l r u => exact hp.elim
  | experimenter t l r u x d => exact hp.elim
  | drop t l r u =>
    simp only [buildBand, bind_ok, pyAssert_ok, pack_eq_ok, ok_inj, exists_const] at h
    obtain ⟨ht, _, ⟨hf, rfl⟩, hlen, rfl⟩ := h
    rw [ht] at *
    refine ⟨RT.of_at fun m n hm => ?_, by omega, hlen⟩
    rw [hlen, parseBand, hpk hm hf, ok_bind]
    simp only [parseBandOf, ↓reduceIte]
    exact rd_at hm hf (by simp [exact]) _ _ rfl
  | dscp t l r u p =>
    simp only [buildBand, bind_ok, pyAssert_ok, pack_eq_ok, ok_inj, exists_const] at h
    obtain ⟨ht, _, ⟨hf, rfl⟩, hlen, rfl⟩ := h
    rw [ht] at *
    refine ⟨RT.of_at fun m n hm => ?_, by omega, hlen⟩
    rw [hlen, parseBand, hpk hm hf, ok_bind]
    simp only [parseBandOf, Nat.reduceEqDiff, ↓reduceIte]
    exact rd_at hm hf (by simp [exact]) _ _ rfl

theorem seq_bands {s : Seq Band} (hs : s.All Band.Parseable) {bs : Bytes} (h : seqBytes buildBand s = .ok bs) :
    Parts parseBand bs (s.values.map Band.wire) ∧ bs.length = (s.values.map (fun _ => 16)).sum :=
  seq_parts rt_band hs h

end Twink.Of13
