import Verif.Proof.Of14Records
import Verif.Proof.Fields
import Verif.Spec.Of14Calls
import Verif.Spec.Wire

/-! Whole messages of the OpenFlow 1.4 codec are parsed as they were built. -/

namespace Twink.Of14
open Fmt Of13 Spec

/-! ### the header -/

theorem hdrFields_one {rnd h ty v t x} (hh : hdrFields rnd h (.one ty) = .ok (v, t, x)) :
    t = some ty ∧ x.getD rnd = h.xid rnd := by
  cases h with
  | none => simp [hdrFields] at hh; obtain ⟨_, rfl, rfl⟩ := hh; exact ⟨rfl, rfl⟩
  | bad => simp [hdrFields] at hh
  | tup v' t' l' x' =>
    simp only [hdrFields] at hh
    cases t' with
    | none => simp at hh; obtain ⟨_, rfl, rfl⟩ := hh; exact ⟨rfl, rfl⟩
    | some t' =>
      simp only [bind_ok, pyAssert_ok, ok_inj, Prod.mk.injEq, exists_const] at hh
      obtain ⟨rfl, _, rfl, rfl⟩ := hh; exact ⟨rfl, rfl⟩
  | raw b =>
    simp only [hdrFields, bind_ok] at hh
    obtain ⟨vs, h1, h2⟩ := hh
    have hlen : 8 ≤ b.length := by
      by_contra hc
      have : ¬ calcsize hdrFmt ≤ b.length := by simp [hdrFmt, calcsize, Item.width]; omega
      simp [unpackFrom, this] at h1
    have h3 := parseHeader_fields b hlen
    rw [parseHeader, h1, ok_bind] at h3
    split at h2
    · rename_i v' t' l' x'
      simp only [ok_inj, Prod.mk.injEq] at h3
      simp only [bind_ok, pyAssert_ok, ok_inj, Prod.mk.injEq, exists_const] at h2
      obtain ⟨rfl, _, rfl, rfl⟩ := h2
      exact ⟨rfl, h3.2.2.2⟩
    · simp at h2

/-- With a choice of types, or any type, the header names the type. -/
theorem hdrFields_named {rnd h ta v t x} (hta : ∀ ty, ta ≠ .one ty) (hh : hdrFields rnd h ta = .ok (v, t, x)) (d : Nat) :
    t = some (h.type d) ∧ (∀ ts, ta = .among ts → h.type d ∈ ts) ∧ x.getD rnd = h.xid rnd := by
  cases h with
  | none => cases ta <;> simp [hdrFields] at hh; exact absurd rfl (hta _)
  | bad => simp [hdrFields] at hh
  | tup v' t' l' x' =>
    simp only [hdrFields] at hh
    cases ta with
    | one ty => exact absurd rfl (hta ty)
    | among ts =>
      cases t' with
      | none => simp at hh
      | some t' =>
        simp only [bind_ok, pyAssert_ok, ok_inj, Prod.mk.injEq, exists_const] at hh
        obtain ⟨hm, _, rfl, rfl⟩ := hh
        exact ⟨rfl, fun ts' e => by injection e with e; subst e; exact hm, rfl⟩
    | any =>
      cases t' with
      | none => simp at hh
      | some t' =>
        simp only [ok_inj, Prod.mk.injEq] at hh
        obtain ⟨_, rfl, rfl⟩ := hh
        exact ⟨rfl, fun ts' e => (by cases e), rfl⟩
  | raw b =>
    simp only [hdrFields, bind_ok] at hh
    obtain ⟨vs, h1, h2⟩ := hh
    have hlen : 8 ≤ b.length := by
      by_contra hc
      have : ¬ calcsize hdrFmt ≤ b.length := by simp [hdrFmt, calcsize, Item.width]; omega
      simp [unpackFrom, this] at h1
    have h3 := parseHeader_fields b hlen
    rw [parseHeader, h1, ok_bind] at h3
    split at h2
    · rename_i v' t' l' x'
      simp only [ok_inj, Prod.mk.injEq] at h3
      cases ta with
      | one ty => exact absurd rfl (hta ty)
      | among ts =>
        simp only [bind_ok, pyAssert_ok, ok_inj, Prod.mk.injEq, exists_const] at h2
        obtain ⟨hm, _, rfl, rfl⟩ := h2
        rw [h3.2.1] at hm
        exact ⟨by rw [h3.2.1]; rfl, fun ts' e => by injection e with e; subst e; exact hm, h3.2.2.2⟩
      | any =>
        simp only [ok_inj, Prod.mk.injEq] at h2
        obtain ⟨_, rfl, rfl⟩ := h2
        exact ⟨by rw [h3.2.1]; rfl, fun ts' e => (by cases e), h3.2.2.2⟩
    · simp at h2

theorem ofpHeader_ok {rnd v t l x bs} (h : ofpHeader rnd v t l x = .ok bs) :
    ∃ t', t = some t' ∧ fits hdrFmt [.int 5, .int t', .int (l.getD 8), .int (x.getD rnd)] = true ∧
      bs = enc hdrFmt [.int 5, .int t', .int (l.getD 8), .int (x.getD rnd)] := by
  simp only [ofpHeader, bind_ok, pyAssert_ok, packOpt_ok, pack_eq_ok, exists_const] at h
  obtain ⟨hv, t', rfl, h1, h2⟩ := h
  rw [hv] at h1 h2
  exact ⟨t', rfl, h1, h2⟩

/-- A message with a header of version 5 that carries the true length. -/
structure Made (bs : Bytes) (t x : Nat) (data : Bytes) : Prop where
  fits : fits hdrFmt [.int 5, .int t, .int (8 + data.length), .int x] = true
  eq : bs = enc hdrFmt [.int 5, .int t, .int (8 + data.length), .int x] ++ data

theorem made_one {rnd h data ty bs} (hh : ofp_ rnd h data (.one ty) = .ok bs) : Made bs ty (h.xid rnd) data := by
  simp only [ofp_, bind_ok, ok_inj] at hh
  obtain ⟨⟨v, t, x⟩, h1, hd, h2, rfl⟩ := hh
  obtain ⟨rfl, hx⟩ := hdrFields_one h1
  obtain ⟨t', ht, h3, h4⟩ := ofpHeader_ok h2
  injection ht with ht; subst ht
  simp only [Option.getD_some, hx] at h3 h4
  exact ⟨h3, by rw [h4]⟩

theorem made_named {rnd h data ta bs} (hta : ∀ ty, ta ≠ .one ty) (hh : ofp_ rnd h data ta = .ok bs) (d : Nat) :
    (∀ ts, ta = .among ts → h.type d ∈ ts) ∧ Made bs (h.type d) (h.xid rnd) data := by
  simp only [ofp_, bind_ok, ok_inj] at hh
  obtain ⟨⟨v, t, x⟩, h1, hd, h2, rfl⟩ := hh
  obtain ⟨rfl, hm, hx⟩ := hdrFields_named hta h1 d
  obtain ⟨t', ht, h3, h4⟩ := ofpHeader_ok h2
  injection ht with ht; subst ht
  simp only [Option.getD_some, hx] at h3 h4
  exact ⟨hm, h3, by rw [h4]⟩

theorem made_among {rnd h data ts bs} (hh : ofp_ rnd h data (.among ts) = .ok bs) (d : Nat) :
    h.type d ∈ ts ∧ Made bs (h.type d) (h.xid rnd) data :=
  ⟨(made_named (fun _ e => by cases e) hh d).1 ts rfl, (made_named (fun _ e => by cases e) hh d).2⟩

theorem Made.len {bs t x data} (hb : Made bs t x data) : bs.length = 8 + data.length := by
  rw [hb.eq, List.length_append, hdr_length]

theorem Made.hdr {bs t x data} (hb : Made bs t x data) {m n} (hm : At m n bs) :
    parseHdr m n = .ok (⟨5, t, bs.length, x⟩, n + 8) := by
  rw [hb.len]
  rw [hb.eq] at hm
  have := rd_at hm.left hb.fits (by simp [exact, hdrFmt]) (four Hdr.mk) ⟨5, t, _, x⟩ rfl
  rw [parseHdr, this, ok_bind, pyAssert_true rfl]
  rfl

theorem Made.body {bs t x data} (hb : Made bs t x data) {m n} (hm : At m n bs) : At m (n + 8) data := by
  rw [hb.eq] at hm
  exact hm.right _ (by rw [hdr_length])

theorem parseAt_of {m n h o} (hh : parseHdr m n = .ok (h, o)) :
    parseAt m n = if h.type = 32 then parseRequestForward m n (parseAt m (n + 8))
      else if h.type = 34 then parseBundleAdd m n (parseAt m (n + 16)) else parseOf h.type m n := by
  rw [parseAt]
  split
  · rename_i e; rw [hh] at e; cases e
  · rename_i e; rw [hh] at e; injection e with e; injection e with e1 e2; subst e1; rfl

theorem Made.parse {bs t x data} (hb : Made bs t x data) {m n} (hm : At m n bs) (h1 : t ≠ 32) (h2 : t ≠ 34) :
    parseAt m n = parseOf t m n := by
  rw [parseAt_of (hb.hdr hm), if_neg h1, if_neg h2]

/-- What is to be shown of a message. -/
def Ok (bs : Bytes) (msg : Msg) (size : Nat) : Prop :=
  (∀ m n, At m n bs → parseAt m n = .ok (msg, n + bs.length)) ∧ bs.length = size

/-- A message that consists of the header and one record. -/
theorem fixed_msg {bs t x f vs size} (hb : Made bs t x (enc f vs)) (hf : fits f vs = true) (he : exact f vs)
    {k : Hdr → List Val → Option Msg} {r : Hdr → Msg} (h1 : t ≠ 32) (h2 : t ≠ 34) (hs : size = 8 + calcsize f)
    (hp : ∀ m n, parseOf t m n = (do let (h, o) ← parseHdr m n; rd f m o (k h)))
    (hk : ∀ h, k h vs = some (r h)) : Ok bs (r ⟨5, t, size, x⟩) size := by
  have hl : bs.length = size := by rw [hb.len, enc_length _ _ hf, hs]
  refine ⟨fun m n hm => ?_, hl⟩
  rw [hb.parse hm h1 h2, hp, hb.hdr hm, ok_bind]
  simp only
  rw [rd_at (hb.body hm) hf he _ _ (hk _), hl, hs, Nat.add_assoc]

theorem features_ok {rnd h d nb nt aux caps bs} (hb : buildFeatures rnd h d nb nt aux caps = .ok bs) :
    Ok bs (.features ⟨5, 6, 32, h.xid rnd⟩ d nb nt aux caps) 32 := by
  simp only [buildFeatures, bind_ok, pyAssert_ok, pack_eq_ok, ok_inj, exists_const] at hb
  obtain ⟨_, ⟨hf, rfl⟩, _, hb, _, rfl⟩ := hb
  exact fixed_msg (made_one hb) hf (by simp [exact]) (k := fun h => fun
    | [.int d, .int nb, .int nt, .int aux, .int caps, .int _] => some (Msg.features h d nb nt aux caps)
    | _ => none) (r := fun h => .features h d nb nt aux caps) (by decide) (by decide) rfl (fun _ _ => rfl) (fun _ => rfl)

theorem config_ok {rnd h fl ms bs} (hb : buildConfig rnd h fl ms = .ok bs) :
    Ok bs (.config ⟨5, h.type 0, 12, h.xid rnd⟩ fl (ms.getD 0xffff)) 12 := by
  simp only [buildConfig, bind_ok, pyAssert_ok, pack_eq_ok, ok_inj, exists_const] at hb
  obtain ⟨_, ⟨hf, rfl⟩, _, hb, _, rfl⟩ := hb
  obtain ⟨ht, hb⟩ := made_among hb 0
  have ht : h.type 0 = 9 ∨ h.type 0 = 8 := by simpa using ht
  refine fixed_msg hb hf (by simp [exact]) (k := fun h => two (Msg.config h)) (r := fun h => .config h fl (ms.getD 0xffff))
    (by omega) (by omega) rfl ?_ (fun _ => rfl)
  intro m n
  rcases ht with ht | ht <;> rw [ht] <;> rfl

theorem error_ok {rnd h t c d bs} (hb : buildError rnd h t c d = .ok bs) :
    Ok bs (.error ⟨5, 1, 12 + (d.getD []).length, h.xid rnd⟩ t c (d.getD [])) (12 + (d.getD []).length) := by
  simp only [buildError, bind_ok, pack_eq_ok] at hb
  obtain ⟨_, ⟨hf, rfl⟩, hb⟩ := hb
  have hb := made_one hb
  have hl := enc_length _ _ hf
  have hc : calcsize [H, H] = 4 := rfl
  rw [hc] at hl
  have hlen := hb.len
  rw [List.length_append] at hlen
  have hlen : bs.length = 12 + (d.getD []).length := by omega
  refine ⟨fun m n hm => ?_, hlen⟩
  rw [hb.parse hm (by decide) (by decide)]
  show parseError m n = _
  rw [parseError, hb.hdr hm, ok_bind]
  refine (rd_bind (hb.body hm).left hf (by simp [exact]) (by rfl)).trans ?_
  simp only [hc]
  rw [((hb.body hm).right (n + 8 + 4) (by omega)).slice _ (by omega), hlen]

theorem experimenter_ok {rnd h t c d bs} (hb : buildExperimenter rnd h t c d = .ok bs) :
    Ok bs (.experimenter ⟨5, 4, 16 + (d.getD []).length, h.xid rnd⟩ t c (d.getD [])) (16 + (d.getD []).length) := by
  simp only [buildExperimenter, bind_ok, pack_eq_ok] at hb
  obtain ⟨_, ⟨hf, rfl⟩, hb⟩ := hb
  have hb := made_one hb
  have hl := enc_length _ _ hf
  have hc : calcsize [I, I] = 8 := rfl
  rw [hc] at hl
  have hlen := hb.len
  rw [List.length_append] at hlen
  have hlen : bs.length = 16 + (d.getD []).length := by omega
  refine ⟨fun m n hm => ?_, hlen⟩
  rw [hb.parse hm (by decide) (by decide)]
  show parseExperimenter m n = _
  rw [parseExperimenter, hb.hdr hm, ok_bind]
  refine (rd_bind (hb.body hm).left hf (by simp [exact]) (by rfl)).trans ?_
  simp only [hc]
  rw [((hb.body hm).right (n + 8 + 8) (by omega)).slice _ (by omega), hlen]

/-- Messages that are not parsed further. -/
theorem made_other {bs t x data} (hb : Made bs t x data) (h1 : t ≠ 32) (h2 : t ≠ 34)
    (ho : ∀ m n, parseOf t m n = parseOther m n) : Ok bs (.other ⟨5, t, 8 + data.length, x⟩ data) (8 + data.length) := by
  refine ⟨fun m n hm => ?_, hb.len⟩
  have hlen := hb.len
  rw [hb.parse hm h1 h2, ho, parseOther, hb.hdr hm, ok_bind]
  simp only
  rw [(hb.body hm).slice _ (by omega), hlen]

theorem parseOf_other {t : Nat} (h : t ∉ structured ∨ t = 24 ∨ t = 25) (m : Bytes) (n : Nat) :
    parseOf t m n = parseOther m n := by
  have : t ≠ 0 ∧ t ≠ 1 ∧ t ≠ 4 ∧ t ≠ 6 ∧ t ≠ 8 ∧ t ≠ 9 ∧ t ≠ 10 ∧ t ≠ 11 ∧ t ≠ 12 ∧ t ≠ 13 ∧ t ≠ 14 ∧ t ≠ 15 ∧ t ≠ 16 ∧
      t ≠ 17 ∧ t ≠ 18 ∧ t ≠ 19 ∧ t ≠ 27 ∧ t ≠ 28 ∧ t ≠ 29 ∧ t ≠ 30 ∧ t ≠ 31 ∧ t ≠ 33 := by
    simp only [structured, List.mem_cons, List.not_mem_nil, or_false, not_or] at h
    omega
  unfold parseOf
  simp [this]

theorem other_ok {rnd h d bs} (ht : h.type 0 ∉ structured) (hb : ofp_ rnd h d .any = .ok bs) :
    Ok bs (.other ⟨5, h.type 0, 8 + d.length, h.xid rnd⟩ d) (8 + d.length) := by
  refine made_other (made_named (fun _ e => by cases e) hb 0).2 ?_ ?_ fun m n => parseOf_other (.inl ht) m n
  · intro e; rw [e] at ht; exact ht (by decide)
  · intro e; rw [e] at ht; exact ht (by decide)

theorem flowMod_ok {rnd h c cm t cmd i hd p b op og f im mt is bs}
    (hb : buildFlowMod rnd h c cm t cmd i hd p b op og f im (.tup mt) is = .ok bs) (his : is.All Instr.Parseable) :
    Ok bs (.flowMod ⟨5, 14, 48 + mt.size + instrsSize is, h.xid rnd⟩ c cm t cmd i hd p (b.getD 0xffffffff)
      (op.getD 0xffffffff) (og.getD 0xffffffff) f im (mt.wire mt.fields) (is.values.map Instr.wire))
      (48 + mt.size + instrsSize is) := by
  simp only [buildFlowMod, bind_ok, pack_eq_ok, obj] at hb
  obtain ⟨ib, hib, _, ⟨hf, rfl⟩, mb, hmb, hb⟩ := hb
  have hb := made_one hb
  obtain ⟨hmrt, hml⟩ := rt_match hmb
  obtain ⟨hparts, hil⟩ := seq_instrs his hib
  have hl := enc_length _ _ hf
  have hc : calcsize flowModFmt = 40 := rfl
  rw [hc] at hl
  have hlen := hb.len
  simp only [List.length_append] at hlen
  have hlen : bs.length = 48 + mt.size + instrsSize is := by rw [MatchT.size]; omega
  refine ⟨fun m n hm => ?_, hlen⟩
  have hlen' := hb.len
  simp only [List.length_append] at hlen'
  rw [hb.parse hm (by decide) (by decide)]
  show parseFlowMod m n = _
  rw [parseFlowMod, hb.hdr hm, ok_bind]
  refine (rd_bind (hb.body hm).left.left hf (by simp [exact, flowModFmt]) (by rfl)).trans ?_
  simp only [hc]
  rw [hmrt.at ((hb.body hm).left.right _ (by rw [hl])), ok_bind]
  simp only
  rw [listFetch_at hparts ((hb.body hm).right _ (by simp only [List.length_append]; omega)) _ (by omega), ok_bind, hlen]

theorem groupMod_ok {rnd h c t g bk bs} (hb : buildGroupMod rnd h c t g bk = .ok bs) (hbk : bk.All Bucket.Parseable) :
    Ok bs (.groupMod ⟨5, 15, 16 + (bk.values.map Bucket.size).sum, h.xid rnd⟩ c t g (bk.values.map Bucket.wire))
      (16 + (bk.values.map Bucket.size).sum) := by
  simp only [buildGroupMod, bind_ok, pack_eq_ok] at hb
  obtain ⟨kb, hkb, _, ⟨hf, rfl⟩, hb⟩ := hb
  have hb := made_one hb
  obtain ⟨hparts, hil⟩ := seq_buckets hbk hkb
  have hl := enc_length _ _ hf
  have hc : calcsize [H, B, X 1, I] = 8 := rfl
  rw [hc] at hl
  have hlen := hb.len
  simp only [List.length_append] at hlen
  refine ⟨fun m n hm => ?_, by omega⟩
  rw [hb.parse hm (by decide) (by decide)]
  show parseGroupMod m n = _
  rw [parseGroupMod, hb.hdr hm, ok_bind]
  refine (rd_bind (hb.body hm).left hf (by simp [exact]) (by rfl)).trans ?_
  simp only [hc]
  rw [whileFetch_at hparts ((hb.body hm).right _ (by rw [hl])) _ (by omega), ok_bind, ← hil]
  have e : bs.length = 16 + kb.length := by omega
  rw [e]

theorem tableMod_ok {rnd h t c ps b bs} (hpb : seqBytes buildPr ps = .ok b) (hb : buildTableMod rnd h t c (.raw b) = .ok bs)
    (hp : ps.All Pr.ForTable) :
    Ok bs (.tableMod ⟨5, 17, 16 + propsSize ps, h.xid rnd⟩ t c (ps.values.map Pr.wire)) (16 + propsSize ps) := by
  simp only [buildTableMod, bind_ok, pack_eq_ok] at hb
  obtain ⟨_, ⟨hf, rfl⟩, hb⟩ := hb
  have hb := made_one hb
  obtain ⟨hparts, hil⟩ := seq_props rt_tmProp hp hpb
  have hl := enc_length _ _ hf
  have hc : calcsize [B, X 3, I] = 8 := rfl
  rw [hc] at hl
  have hlen := hb.len
  simp only [List.length_append] at hlen
  refine ⟨fun m n hm => ?_, by omega⟩
  rw [hb.parse hm (by decide) (by decide)]
  show parseTableMod m n = _
  rw [parseTableMod, hb.hdr hm, ok_bind]
  refine (rd_bind (hb.body hm).left hf (by simp [exact]) (by rfl)).trans ?_
  simp only [hc]
  rw [whileFetch_at hparts ((hb.body hm).right _ (by rw [hl])) _ (by omega), ok_bind, ← hil]
  have e : bs.length = 16 + b.length := by omega
  rw [e]

theorem async_ok {rnd h ps bs} (hb : buildAsync rnd h ps = .ok bs) (hp : ps.All Pr.ForAsync) :
    Ok bs (.async ⟨5, h.type 0, 8 + propsSize ps, h.xid rnd⟩ (ps.values.map Pr.wire)) (8 + propsSize ps) := by
  simp only [buildAsync, bind_ok] at hb
  obtain ⟨pb, hpb, hb⟩ := hb
  obtain ⟨ht, hb⟩ := made_among hb 0
  have ht : h.type 0 = 27 ∨ h.type 0 = 28 := by simpa using ht
  obtain ⟨hparts, hil⟩ := seq_props rt_asyncProp hp hpb
  have hlen := hb.len
  rw [hil] at hlen
  refine ⟨fun m n hm => ?_, hlen⟩
  rw [hb.parse hm (by omega) (by omega)]
  have hd : parseOf (h.type 0) m n = parseAsync m n := by rcases ht with ht | ht <;> rw [ht] <;> rfl
  rw [hd, parseAsync, hb.hdr hm, ok_bind]
  simp only
  rw [whileFetch_at hparts (hb.body hm) _ (by omega), ok_bind, hlen]

theorem hello_ok {rnd h es bs} (hb : buildHello rnd h es = .ok bs) (he : es.All HelloElem.Parseable) :
    Ok bs (.hello ⟨5, 0, 8 + (es.values.map HelloElem.size).sum, h.xid rnd⟩ (es.values.map HelloElem.wire))
      (8 + (es.values.map HelloElem.size).sum) := by
  simp only [buildHello, bind_ok] at hb
  obtain ⟨kb, hkb, hb⟩ := hb
  have hb := made_one hb
  obtain ⟨hparts, hil⟩ := seq_hello he hkb
  have hlen := hb.len
  rw [hil] at hlen
  refine ⟨fun m n hm => ?_, hlen⟩
  rw [hb.parse hm (by decide) (by decide)]
  show parseHello m n = _
  rw [parseHello, hb.hdr hm, ok_bind]
  simp only
  rw [whileFetch_at hparts (hb.body hm) _ (by omega), ok_bind]
  simp only [pyAssert_true, ok_bind, hlen]

theorem packetOut_ok {rnd h b ip as d bs} (hb : buildPacketOut rnd h b ip as d = .ok bs) (ha : as.All Action.Parseable) :
    Ok bs (.packetOut ⟨5, 13, 24 + actionsSize as + (d.getD []).length, h.xid rnd⟩ (b.getD 0xffffffff) ip (actionsSize as)
      (as.values.map Action.wire) (d.getD [])) (24 + actionsSize as + (d.getD []).length) := by
  simp only [buildPacketOut, bind_ok, pack_eq_ok] at hb
  obtain ⟨ab, hab, _, ⟨hf, rfl⟩, hb⟩ := hb
  have hb := made_one hb
  obtain ⟨hparts, hil⟩ := seq_actions ha hab
  have hl := enc_length _ _ hf
  have hc : calcsize [I, I, H, X 6] = 16 := rfl
  rw [hc] at hl
  have hlen := hb.len
  simp only [List.length_append] at hlen
  have hlen2 : bs.length = 24 + ab.length + (d.getD []).length := by omega
  rw [← hil]
  refine ⟨fun m n hm => ?_, by omega⟩
  rw [hb.parse hm (by decide) (by decide)]
  show parsePacketOut m n = _
  rw [parsePacketOut, hb.hdr hm, ok_bind]
  refine (rd_bind (hb.body hm).left.left hf (by simp [exact]) (by rfl)).trans ?_
  simp only [hc]
  rw [whileFetch_at hparts ((hb.body hm).left.right _ (by rw [hl])) _ rfl, ok_bind]
  simp only
  rw [((hb.body hm).right _ (by simp only [List.length_append, hl]; omega)).slice _ (by omega), hlen2]

theorem packetIn_ok {rnd h b tl r t c mt d bs} (hb : buildPacketIn rnd h b tl r t c (.tup mt) d = .ok bs) :
    Ok bs (.packetIn ⟨5, 10, 26 + mt.size + d.length, h.xid rnd⟩ b tl r t c (mt.wire mt.fields) d)
      (26 + mt.size + d.length) := by
  simp only [buildPacketIn, bind_ok, pack_eq_ok, obj] at hb
  obtain ⟨_, ⟨hf, rfl⟩, mb, hmb, hb⟩ := hb
  have hb := made_one hb
  obtain ⟨hmrt, hml⟩ := rt_match hmb
  have hl := enc_length _ _ hf
  have hc : calcsize [I, H, B, B, Q] = 16 := rfl
  rw [hc] at hl
  have hlen := hb.len
  simp only [List.length_append, nul_length] at hlen
  have hlen2 : bs.length = 26 + mt.size + d.length := by rw [MatchT.size]; omega
  refine ⟨fun m n hm => ?_, hlen2⟩
  rw [hb.parse hm (by decide) (by decide)]
  show parsePacketIn m n = _
  rw [parsePacketIn, hb.hdr hm, ok_bind]
  refine (rd_bind (hb.body hm).left.left.left hf (by simp [exact]) (by rfl)).trans ?_
  simp only [hc]
  rw [hmrt.at ((hb.body hm).left.left.right _ (by rw [hl])), ok_bind]
  simp only
  have hx : enc [X 2] [] = nul 2 := rfl
  have hat : At m (n + 8 + 16 + mb.length) (enc [X 2] []) := by
    rw [hx]; exact (hb.body hm).left.right _ (by simp only [List.length_append, hl]; omega)
  refine (rd_bind hat (by rfl) (by simp [exact]) (by rfl)).trans ?_
  have hc : calcsize [X 2] = 2 := rfl
  simp only [hc]
  rw [((hb.body hm).right _ (by simp only [List.length_append, hl, nul_length]; omega)).slice _ (by omega), hlen2]

theorem flowRemoved_ok {rnd h c p r t ds dn i hd pc bc mt bs}
    (hb : buildFlowRemoved rnd h c p r t ds dn i hd pc bc (.tup mt) = .ok bs) :
    Ok bs (.flowRemoved ⟨5, 11, 48 + mt.size, h.xid rnd⟩ c p r t ds dn i hd pc bc (mt.wire mt.fields)) (48 + mt.size) := by
  simp only [buildFlowRemoved, bind_ok, pack_eq_ok, obj] at hb
  obtain ⟨_, ⟨hf, rfl⟩, mb, hmb, hb⟩ := hb
  have hb := made_one hb
  obtain ⟨hmrt, hml⟩ := rt_match hmb
  have hl := enc_length _ _ hf
  have hc : calcsize flowRemovedFmt = 40 := rfl
  rw [hc] at hl
  have hlen := hb.len
  simp only [List.length_append] at hlen
  have hlen2 : bs.length = 48 + mt.size := by rw [MatchT.size]; omega
  refine ⟨fun m n hm => ?_, hlen2⟩
  rw [hb.parse hm (by decide) (by decide)]
  show parseFlowRemoved m n = _
  rw [parseFlowRemoved, hb.hdr hm, ok_bind]
  refine (rd_bind (hb.body hm).left hf (by simp [exact, flowRemovedFmt]) (by rfl)).trans ?_
  simp only [hc]
  rw [hmrt.at ((hb.body hm).right _ (by rw [hl])), ok_bind, hlen2, MatchT.size, ← hml]
  simp only [Nat.add_assoc]
  have e : n + (8 + (40 + mb.length)) = n + (48 + mb.length) := by omega
  rw [e]

theorem noProps {ps : Seq Pr} (hp : ps = .none ∨ ps = .items []) :
    seqBytes buildPr ps = .ok [] ∧ ps.values = [] := by
  rcases hp with rfl | rfl <;> exact ⟨rfl, rfl⟩

theorem bundleCtrl_ok {rnd h b t f ps bs} (hb : buildBundleCtrl rnd h b t f ps = .ok bs)
    (hp : ps = .none ∨ ps = .items []) :
    Ok bs (.bundleCtrl ⟨5, 33, 16 + propsSize ps, h.xid rnd⟩ b t f (ps.values.map Pr.wire)) (16 + propsSize ps) := by
  simp only [buildBundleCtrl, bind_ok, pack_eq_ok, (noProps hp).1, ok_inj] at hb
  obtain ⟨_, rfl, _, ⟨hf, rfl⟩, hb⟩ := hb
  rw [List.append_nil] at hb
  have hb := made_one hb
  have hl := enc_length _ _ hf
  have hc : calcsize [I, H, H] = 8 := rfl
  rw [hc] at hl
  have hlen := hb.len
  have hlen : bs.length = 16 := by omega
  have hs : propsSize ps = 0 := by rw [propsSize, (noProps hp).2]; rfl
  rw [hs, (noProps hp).2]
  refine ⟨fun m n hm => ?_, hlen⟩
  rw [hb.parse hm (by decide) (by decide)]
  show parseBundleCtrl m n = _
  rw [parseBundleCtrl, hb.hdr hm, ok_bind]
  refine (rd_bind (hb.body hm) hf (by simp [exact]) (by rfl)).trans ?_
  simp only [hc]
  rw [whileFetch, if_neg (by omega), ok_bind, hlen]
  rfl

theorem bundleAdd_ok {rnd h b f ps c sz bs ms} (hi : Ok ms c sz) (hb : buildBundleAdd rnd h b f (.ok ms) ps = .ok bs)
    (hp : ps = .none ∨ ps = .items []) :
    Ok bs (.bundleAdd ⟨5, 34, 16 + sz + propsSize ps, h.xid rnd⟩ b f c (ps.values.map Pr.wire)) (16 + sz + propsSize ps) := by
  simp only [buildBundleAdd, bind_ok, pack_eq_ok, (noProps hp).1, ok_inj] at hb
  obtain ⟨_, rfl, _, ⟨hf, rfl⟩, _, rfl, hb⟩ := hb
  rw [List.append_nil] at hb
  have hb := made_one hb
  have hl := enc_length _ _ hf
  have hc : calcsize [I, X 2, H] = 8 := rfl
  rw [hc] at hl
  have hlen := hb.len
  rw [List.length_append, hi.2] at hlen
  have hlen : bs.length = 16 + sz := by omega
  have hs : propsSize ps = 0 := by rw [propsSize, (noProps hp).2]; rfl
  rw [hs, (noProps hp).2]
  refine ⟨fun m n hm => ?_, hlen⟩
  rw [parseAt_of (hb.hdr hm)]
  simp only [Nat.reduceEqDiff, if_false, if_true]
  rw [parseBundleAdd, hb.hdr hm, ok_bind]
  refine (rd_bind (hb.body hm).left hf (by simp [exact]) (by rfl)).trans ?_
  simp only
  rw [hi.1 m (n + 16) ((hb.body hm).right _ (by omega)), ok_bind]
  simp only
  rw [hi.2, if_neg (by omega), hlen, Nat.add_assoc]
  rfl

theorem requestForward_ok {rnd h c sz bs ms} (hi : Ok ms c sz) (hb : buildRequestForward rnd h (.ok ms) = .ok bs) :
    Ok bs (.requestForward ⟨5, 32, 8 + sz, h.xid rnd⟩ c) (8 + sz) := by
  simp only [buildRequestForward, bind_ok, ok_inj] at hb
  obtain ⟨_, rfl, hb⟩ := hb
  have hb := made_one hb
  have hlen := hb.len
  rw [hi.2] at hlen
  refine ⟨fun m n hm => ?_, hlen⟩
  rw [parseAt_of (hb.hdr hm)]
  simp only [if_true]
  rw [parseRequestForward, hb.hdr hm, ok_bind]
  simp only
  rw [hi.1 m (n + 8) (hb.body hm), ok_bind, hi.2, hlen, Nat.add_assoc]

/-! ### meter modification -/

theorem take8_eq (b : Bytes) (h : 8 ≤ b.length) :
    b.take 8 = enc hdrFmt [.int (u8 b 0), .int (u8 b 1), .int (u16 b 2), .int (u32 b 4)] := by
  have e : ∀ i w, i + w ≤ b.length → (b.drop i).take w = encBE w (decBE ((b.drop i).take w)) := by
    intro i w hw
    have h1 := encBE_decBE ((b.drop i).take w)
    have h2 : ((b.drop i).take w).length = w := by simp; omega
    rw [h2] at h1
    exact h1.symm
  have e0 := e 0 1 (by omega)
  have e1 := e 1 1 (by omega)
  have e2 := e 2 2 (by omega)
  have e3 := e 4 4 (by omega)
  rw [decBE_u8 b 0 (by omega)] at e0
  rw [decBE_u8 b 1 (by omega)] at e1
  rw [decBE_u16 b 2 (by omega)] at e2
  rw [decBE_u32 b 4 (by omega)] at e3
  have : enc hdrFmt [.int (u8 b 0), .int (u8 b 1), .int (u16 b 2), .int (u32 b 4)] =
      encBE 1 (u8 b 0) ++ (encBE 1 (u8 b 1) ++ (encBE 2 (u16 b 2) ++ (encBE 4 (u32 b 4) ++ []))) := rfl
  rw [this, ← e0, ← e1, ← e2, ← e3]
  match b, h with
  | b0 :: b1 :: b2 :: b3 :: b4 :: b5 :: b6 :: b7 :: r, _ => simp

theorem meterMod_made {rnd h c f mt hd kb} (hhd : objHdr rnd h = .ok hd) (hf2 : fits [H, H, I] [.int c, .int f, .int mt] = true)
    (hr : ∀ b, h = .raw b → 8 ≤ b.length) (hv : version h = 5) (ht : h.type 0 = 29) (hgl : givenLength h = 16 + kb.length) :
    Made (enc [S 8, H, H, I] [.str hd, .int c, .int f, .int mt] ++ kb) 29 (h.xid rnd) (enc [H, H, I] [.int c, .int f, .int mt] ++ kb) := by
  have he : enc [S 8, H, H, I] [.str hd, .int c, .int f, .int mt] = padTo 8 hd ++ enc [H, H, I] [.int c, .int f, .int mt] := by
    rfl
  have hl := enc_length _ _ hf2
  have hc : calcsize [H, H, I] = 8 := rfl
  rw [hc] at hl
  have hdl : 8 + (enc [H, H, I] [.int c, .int f, .int mt] ++ kb).length = 16 + kb.length := by
    rw [List.length_append]; omega
  rw [he, List.append_assoc]
  cases h with
  | none => simp [objHdr] at hhd
  | bad => simp [objHdr] at hhd
  | tup v t l x =>
    obtain ⟨t', rfl, h1, h2⟩ := ofpHeader_ok hhd
    have ht : t' = 29 := ht
    have hgl : l.getD 8 = 16 + kb.length := hgl
    rw [hgl, ht] at h1 h2
    refine ⟨by rw [hdl]; exact h1, ?_⟩
    rw [hdl, padTo_eq 8 hd (by rw [h2, hdr_length]), h2]
    rfl
  | raw b =>
    injection hhd with hhd; subst hhd
    have h8 := hr b rfl
    have ht : u8 b 1 = 29 := ht
    have hv : u8 b 0 = 5 := hv
    have hgl : u16 b 2 = 16 + kb.length := hgl
    have h1 := take8_eq b h8
    rw [ht, hv, hgl] at h1
    have hp : padTo 8 b = b.take 8 := by
      rw [padTo, show 8 - b.length = 0 by omega]; simp
    refine ⟨?_, by rw [hdl, hp, h1]; rfl⟩
    rw [hdl, ← hgl]
    have a1 : u16 b 2 < 65536 := by
      unfold u16 u8
      have := (b.getD 2 0).toNat_lt
      have := (b.getD (2 + 1) 0).toNat_lt
      omega
    have a2 : u32 b 4 < 4294967296 := by
      unfold u32 u16 u8
      have := (b.getD 4 0).toNat_lt
      have := (b.getD 5 0).toNat_lt
      have := (b.getD 6 0).toNat_lt
      have := (b.getD 7 0).toNat_lt
      show 65536 * (256 * (b.getD 4 0).toNat + (b.getD 5 0).toNat) + (256 * (b.getD 6 0).toNat + (b.getD 7 0).toNat) < _
      omega
    simp [fits, hdrFmt, HdrArg.xid, a1, a2]

theorem meterMod_ok {rnd h c f mt bd bs} (hb : buildMeterMod rnd h c f mt bd = .ok bs) (hbk : bd.All Band.Parseable)
    (hr : ∀ b, h = .raw b → 8 ≤ b.length) (hv : version h = 5) (ht : h.type 0 = 29)
    (hgl : givenLength h = 16 + 16 * bd.values.length) :
    Ok bs (.meterMod ⟨5, 29, 16 + 16 * bd.values.length, h.xid rnd⟩ c f mt (bd.values.map Band.wire))
      (16 + 16 * bd.values.length) := by
  simp only [buildMeterMod, bind_ok, pack_eq_ok, ok_inj] at hb
  obtain ⟨kb, hkb, hd, hhd, _, ⟨hf, rfl⟩, rfl⟩ := hb
  obtain ⟨hparts, hil⟩ := seq_bands' hbk hkb
  have hf2 : fits [H, H, I] [.int c, .int f, .int mt] = true := by simpa [fits] using hf
  have hl := enc_length _ _ hf2
  have hc : calcsize [H, H, I] = 8 := rfl
  rw [hc] at hl
  have key := meterMod_made (kb := kb) hhd hf2 hr hv ht (by omega)
  have hlen := key.len
  simp only [List.length_append] at hlen
  refine ⟨fun m n hm => ?_, by rw [key.len, List.length_append]; omega⟩
  rw [key.parse hm (by decide) (by decide)]
  show parseMeterMod m n = _
  rw [parseMeterMod, key.hdr hm, ok_bind]
  refine (rd_bind (key.body hm).left hf2 (by simp [exact]) (by rfl)).trans ?_
  have hlen2 : (enc [S 8, H, H, I] [.str hd, .int c, .int f, .int mt] ++ kb).length = 16 + 16 * bd.values.length := by
    rw [List.length_append]; omega
  simp only [hc]
  rw [whileFetch_at hparts ((key.body hm).right _ (by rw [hl])) _ (by omega), ok_bind, hlen2]

/-! ### multipart -/

theorem mpRequest_at {rnd h t f body bs} (hb : buildMpRequest rnd h t f body = .ok bs) :
    ∃ b, reqBody t body = .ok b ∧ bs.length = 16 + b.length ∧ ∀ m n, At m n bs → At m (n + 16) b ∧
      parseAt m n = (do
        let (bd, o) ← parseReqBody t m (n + bs.length) (n + 16)
        .ok (.mpRequest ⟨5, 18, bs.length, h.xid rnd⟩ t f bd, o)) := by
  simp only [buildMpRequest, bind_ok, pack_eq_ok] at hb
  obtain ⟨b, hbb, _, ⟨hf, rfl⟩, hb⟩ := hb
  have hb := made_one hb
  have hl := enc_length _ _ hf
  have hc : calcsize [H, H, X 4] = 8 := rfl
  rw [hc] at hl
  have := hb.len
  simp only [List.length_append] at this
  refine ⟨b, hbb, by omega, fun m n hm => ⟨(hb.body hm).right _ (by omega), ?_⟩⟩
  rw [hb.parse hm (by decide) (by decide)]
  show parseMpRequest m n = _
  rw [parseMpRequest, hb.hdr hm, ok_bind]
  refine (rd_bind (hb.body hm).left hf (by simp [exact]) (by rfl)).trans ?_
  rfl

theorem mpReply_at {rnd h t f body bs} (hb : buildMpReply rnd h t f body = .ok bs) :
    ∃ b, repBody t body = .ok b ∧ bs.length = 16 + b.length ∧ ∀ m n, At m n bs → At m (n + 16) b ∧
      parseAt m n = (do
        let (bd, o) ← parseRepBody t m (n + bs.length) (n + 16)
        .ok (.mpReply ⟨5, 19, bs.length, h.xid rnd⟩ t f bd, o)) := by
  simp only [buildMpReply, bind_ok, pack_eq_ok] at hb
  obtain ⟨b, hbb, _, ⟨hf, rfl⟩, hb⟩ := hb
  have hb := made_one hb
  have hl := enc_length _ _ hf
  have hc : calcsize [H, H, X 4] = 8 := rfl
  rw [hc] at hl
  have := hb.len
  simp only [List.length_append] at this
  refine ⟨b, hbb, by omega, fun m n hm => ⟨(hb.body hm).right _ (by omega), ?_⟩⟩
  rw [hb.parse hm (by decide) (by decide)]
  show parseMpReply m n = _
  rw [parseMpReply, hb.hdr hm, ok_bind]
  refine (rd_bind (hb.body hm).left hf (by simp [exact]) (by rfl)).trans ?_
  rfl

/-- Requests without a body. -/
theorem mpRequest_empty {rnd h t f body bs} (ht : t ∈ [0, 3, 7, 8, 11, 13] ∨ (t = 14 ∧ body = .raw []))
    (hb : buildMpRequest rnd h t f body = .ok bs) :
    Ok bs (.mpRequest ⟨5, 18, 16, h.xid rnd⟩ t f (.raw [])) 16 := by
  obtain ⟨b, h1, h3, h4⟩ := mpRequest_at hb
  have e : reqBody t body = .ok [] := by
    rcases ht with ht | ⟨rfl, rfl⟩
    · unfold reqBody; rw [if_pos ht]
    · rfl
  rw [e] at h1
  injection h1 with h1; subst h1
  have h3 : bs.length = 16 := h3
  refine ⟨fun m n hm => ?_, h3⟩
  have ht' : t ∈ [0, 3, 7, 8, 11, 13, 14] := by
    rcases ht with ht | ⟨rfl, _⟩
    · simp only [List.mem_cons, List.not_mem_nil, or_false] at ht ⊢; omega
    · decide
  rw [(h4 m n hm).2, parseReqBody, if_pos ht', h3]; rfl

theorem reqBody_one {t : Nat} {r : Rec} (ht : r.requestType = some t) (h15 : t ≠ 15 ∧ t ≠ 16) : reqBody t (.one r) = buildRec r := by
  cases r <;> simp only [Rec.requestType, Option.some.injEq, reduceCtorEq] at ht <;> subst ht <;>
    first | rfl | exact absurd rfl h15.1 | exact absurd rfl h15.2

theorem parseReqBody_one {t : Nat} {r : Rec} (ht : r.requestType = some t) (m : Bytes) (lim off : Nat) :
    parseReqBody t m lim off = single (recParser r m off) := by
  cases r <;> simp only [Rec.requestType, Option.some.injEq, reduceCtorEq] at ht <;> subst ht <;> rfl

/-- Requests with one record. -/
theorem mpRequest_one {rnd h t f r body b bs} (ht : r.requestType = some t) (hr : r.Parseable)
    (hbody : reqBody t body = .ok b) (hrb : buildRec r = .ok b) (hb : buildMpRequest rnd h t f body = .ok bs) :
    Ok bs (.mpRequest ⟨5, 18, 16 + r.size, h.xid rnd⟩ t f (.one r.wire)) (16 + r.size) := by
  obtain ⟨b', h1, h3, h4⟩ := mpRequest_at hb
  rw [hbody] at h1
  injection h1 with h1; subst h1
  obtain ⟨hrt, _, hlen⟩ := rt_rec r b hr hrb
  refine ⟨fun m n hm => ?_, by omega⟩
  rw [(h4 m n hm).2, parseReqBody_one ht, single, hrt.at (h4 m n hm).1, h3, hlen, ← Nat.add_assoc]; rfl

/-- Experimenter requests. -/
theorem mpRequest_exp {rnd h f d bs} (hb : buildMpRequest rnd h 0xffff f (.raw d) = .ok bs) :
    Ok bs (.mpRequest ⟨5, 18, 16 + d.length, h.xid rnd⟩ 0xffff f (.raw d)) (16 + d.length) := by
  obtain ⟨b, h1, h3, h4⟩ := mpRequest_at hb
  have h1 : (.ok d : Py Bytes) = .ok b := h1
  injection h1 with h1; subst h1
  refine ⟨fun m n hm => ?_, h3⟩
  rw [(h4 m n hm).2]
  show (do let (bd, o) ← (.ok (.raw (slice m (n + 16) (n + bs.length)), n + bs.length) : Py (Body × Nat)); _) = _
  rw [(h4 m n hm).1.slice _ (by omega), h3]; rfl

/-- The parser for the elements of list replies. -/
def listParser (t : Nat) : Bytes → Nat → Py (Rec × Nat) :=
  if t = 1 then parseFlowStats else if t = 6 then parseGroupStats else if t = 7 then parseGroupDesc
  else if t = 9 then parseMeterStats else if t = 10 then parseMeterConfig else parseTableFeatures

theorem listParser_eq {t : Nat} {r : Rec} (ht : r.replyType = some t) (hs : t ∈ [1, 6, 7, 9, 10, 12]) :
    recParser r = listParser t := by
  simp only [List.mem_cons, List.not_mem_nil, or_false] at hs
  rcases hs with rfl | rfl | rfl | rfl | rfl | rfl <;> cases r <;> simp [Rec.replyType] at ht <;> rfl

theorem recs_parts {t : Nat} {l : List Rec} {b : Bytes} (hs : t ∈ [1, 6, 7, 9, 10, 12])
    (hl : ∀ r ∈ l, r.replyType = some t ∧ r.Parseable) (h1 : join buildRec (l.map .tup) = .ok b) :
    Parts (listParser t) b (l.map Rec.wire) ∧ b.length = (l.map Rec.size).sum := by
  have h5 : seqBytes buildRec (tups l) = .ok b := h1
  have h6 := seq_parts (size := Rec.size) (w := Rec.wire) (p := listParser t) (P := fun r => r.replyType = some t ∧ r.Parseable)
    (fun r bs hr hbs => by
      obtain ⟨h7, h8⟩ := rt_rec r bs hr.2 hbs
      rw [listParser_eq hr.1 hs] at h7
      exact ⟨h7, h8⟩) (all_tups hl) h5
  simpa using h6

/-- Table features requests. -/
theorem mpRequest_features {rnd h f bs} {l : List Rec} (hl : ∀ r ∈ l, r.replyType = some 12 ∧ r.Parseable)
    (hb : buildMpRequest rnd h 12 f (.many (l.map .tup)) = .ok bs) :
    Ok bs (.mpRequest ⟨5, 18, 16 + (l.map Rec.size).sum, h.xid rnd⟩ 12 f (.many ((l.map Rec.wire).map .tup)))
      (16 + (l.map Rec.size).sum) := by
  obtain ⟨b, h1, h3, h4⟩ := mpRequest_at hb
  obtain ⟨hparts, hlen⟩ := recs_parts (t := 12) (by decide) hl h1
  have h3' : bs.length = 16 + (l.map Rec.size).sum := by omega
  refine ⟨fun m n hm => ?_, h3'⟩
  rw [(h4 m n hm).2]
  show (do let (bd, o) ← several (whileFetch (listParser 12 m) (n + bs.length) (n + 16)); _) = _
  rw [several, whileFetch_at hparts (h4 m n hm).1 _ (by omega), h3']; rfl

/-- Replies with one record. -/
theorem mpReply_one {rnd h t f r bs} (ht : r.replyType = some t) (hs : t ∈ [0, 8, 11]) (hr : r.Parseable)
    (hb : buildMpReply rnd h t f (.one r) = .ok bs) :
    Ok bs (.mpReply ⟨5, 19, 16 + r.size, h.xid rnd⟩ t f (.one r.wire)) (16 + r.size) := by
  obtain ⟨b, h1, h3, h4⟩ := mpReply_at hb
  have e1 : repBody t (.one r) = buildRec r := by
    simp only [List.mem_cons, List.not_mem_nil, or_false] at hs
    rcases hs with rfl | rfl | rfl <;> rfl
  rw [e1] at h1
  obtain ⟨hrt, _, hlen⟩ := rt_rec r b hr h1
  refine ⟨fun m n hm => ?_, by omega⟩
  have e2 : parseRepBody t m (n + bs.length) (n + 16) = single (recParser r m (n + 16)) := by
    simp only [List.mem_cons, List.not_mem_nil, or_false] at hs
    rcases hs with rfl | rfl | rfl <;> cases r <;> simp [Rec.replyType] at ht <;> rfl
  rw [(h4 m n hm).2, e2, single, hrt.at (h4 m n hm).1, h3, hlen, ← Nat.add_assoc]; rfl

/-- Replies with a list of records. -/
theorem mpReply_many {rnd h t f bs} {l : List Rec} (hs : t ∈ [1, 6, 7, 9, 10, 12])
    (hl : ∀ r ∈ l, r.replyType = some t ∧ r.Parseable)
    (hb : buildMpReply rnd h t f (.many (l.map .tup)) = .ok bs) :
    Ok bs (.mpReply ⟨5, 19, 16 + (l.map Rec.size).sum, h.xid rnd⟩ t f (.many ((l.map Rec.wire).map .tup)))
      (16 + (l.map Rec.size).sum) := by
  obtain ⟨b, h1, h3, h4⟩ := mpReply_at hb
  have e1 : repBody t (.many (l.map .tup)) = join buildRec (l.map .tup) := by
    simp only [List.mem_cons, List.not_mem_nil, or_false] at hs
    rcases hs with rfl | rfl | rfl | rfl | rfl | rfl <;> rfl
  rw [e1] at h1
  obtain ⟨hparts, hlen⟩ := recs_parts hs hl h1
  have h3' : bs.length = 16 + (l.map Rec.size).sum := by omega
  refine ⟨fun m n hm => ?_, h3'⟩
  have e2 : parseRepBody t m (n + bs.length) (n + 16) = several (listFetch (listParser t m) (n + bs.length) (n + 16)) := by
    simp only [List.mem_cons, List.not_mem_nil, or_false] at hs
    rcases hs with rfl | rfl | rfl | rfl | rfl | rfl <;> rfl
  rw [(h4 m n hm).2, e2, several, listFetch_at hparts (h4 m n hm).1 _ (by omega), h3']; rfl

/-- An aggregate reply comes back as a list of one record. -/
theorem mpReply_aggregate {rnd h f a b c bs} (hb : buildMpReply rnd h 2 f (.one (.aggregate a b c)) = .ok bs) :
    Ok bs (.mpReply ⟨5, 19, 16 + 24, h.xid rnd⟩ 2 f (.many [.tup (.aggregate a b c)])) (16 + 24) := by
  obtain ⟨bb, h1, h3, h4⟩ := mpReply_at hb
  have h1 : buildRec (.aggregate a b c) = .ok bb := h1
  obtain ⟨h5, h6, h7⟩ := rt_rec (.aggregate a b c) bb trivial h1
  have h7 : bb.length = 24 := h7
  have hparts : Parts parseAggregate bb [.aggregate a b c] := by
    have := Parts.cons (p := parseAggregate) h5 h6 .nil
    rwa [List.append_nil] at this
  refine ⟨fun m n hm => ?_, by omega⟩
  rw [(h4 m n hm).2]
  show (do let (bd, o) ← several (listFetch (parseAggregate m) (n + bs.length) (n + 16)); _) = _
  rw [several, listFetch_at hparts (h4 m n hm).1 _ (by omega), h3, h7]; rfl

/-- Experimenter replies. -/
theorem mpReply_exp {rnd h f d bs} (hd : 8 ≤ d.length) (hb : buildMpReply rnd h 0xffff f (.raw d) = .ok bs) :
    Ok bs (.mpReply ⟨5, 19, 16 + d.length, h.xid rnd⟩ 0xffff f (.one (.experimenter (u32 d 0) (u32 d 4) (d.drop 8))))
      (16 + d.length) := by
  obtain ⟨b, h1, h3, h4⟩ := mpReply_at hb
  have h1 : (.ok d : Py Bytes) = .ok b := h1
  injection h1 with h1; subst h1
  refine ⟨fun m n hm => ?_, h3⟩
  obtain ⟨hat, hparse⟩ := h4 m n hm
  have a : ∀ i, u32 d i < 4294967296 := by
    intro i
    unfold u32 u16 u8
    have := (d.getD i 0).toNat_lt
    have := (d.getD (i + 1) 0).toNat_lt
    have := (d.getD (i + 2) 0).toNat_lt
    have := (d.getD (i + 2 + 1) 0).toNat_lt
    omega
  have hf : fits [I, I] [.int (u32 d 0), .int (u32 d 4)] = true := by simp [fits, a]
  have e : ∀ i w, i + w ≤ d.length → (d.drop i).take w = encBE w (decBE ((d.drop i).take w)) := by
    intro i w hw
    have h1 := encBE_decBE ((d.drop i).take w)
    have h2 : ((d.drop i).take w).length = w := by simp; omega
    rw [h2] at h1
    exact h1.symm
  have e0 := e 0 4 (by omega)
  have e1 := e 4 4 (by omega)
  rw [decBE_u32 d 0 (by omega)] at e0
  rw [decBE_u32 d 4 (by omega)] at e1
  have he : enc [I, I] [.int (u32 d 0), .int (u32 d 4)] = d.take 8 := by
    show encBE 4 (u32 d 0) ++ (encBE 4 (u32 d 4) ++ []) = _
    rw [← e0, ← e1]
    match d, hd with
    | b0 :: b1 :: b2 :: b3 :: b4 :: b5 :: b6 :: b7 :: r, _ => simp
  have hsplit : d = enc [I, I] [.int (u32 d 0), .int (u32 d 4)] ++ d.drop 8 := by rw [he, List.take_append_drop]
  rw [hsplit] at hat
  have hl := enc_length _ _ hf
  have hc : calcsize [I, I] = 8 := rfl
  rw [hc] at hl
  rw [hparse]
  show (do let (bd, o) ← single (parseExperimenterMp (n + bs.length) m (n + 16)); _) = _
  rw [parseExperimenterMp, rd_at hat.left hf (by simp [exact]) (two fun a b => (a, b)) _ rfl, ok_bind]
  simp only [hc]
  rw [(hat.right (n + 16 + 8) (by omega)).slice _ (by rw [h3, List.length_drop]; omega), h3]
  rfl

/-! ### all -/

theorem call_ok (c : Call) : ∀ (rnd : Nat) (h : HdrArg) (bs : Bytes), c.Parseable h → c.run rnd h = .ok bs →
    Ok bs (c.wire rnd h) c.size := by
  induction c with
  | hello es => intro rnd h bs hp hb; exact hello_ok hb hp
  | error t cd d => intro rnd h bs hp hb; exact error_ok hb
  | features d nb nt aux caps => intro rnd h bs hp hb; exact features_ok hb
  | config f ms => intro rnd h bs hp hb; exact config_ok hb
  | packetIn b tl r t ck mt d => intro rnd h bs hp hb; obtain ⟨m, rfl⟩ := hp; exact packetIn_ok hb
  | flowRemoved a b d e f g i j k l mt => intro rnd h bs hp hb; obtain ⟨m, rfl⟩ := hp; exact flowRemoved_ok hb
  | packetOut b ip as d => intro rnd h bs hp hb; exact packetOut_ok hb hp
  | flowMod ck cm t cmd i hd p b op og f im mt is =>
    intro rnd h bs hp hb; obtain ⟨⟨m, rfl⟩, hp⟩ := hp; exact flowMod_ok hb hp
  | groupMod cmd t g bk => intro rnd h bs hp hb; exact groupMod_ok hb hp
  | tableModOf t cf ps =>
    intro rnd h bs hp hb
    simp only [Call.run, bind_ok] at hb
    obtain ⟨b, hpb, hb⟩ := hb
    exact tableMod_ok hpb hb hp
  | async ps => intro rnd h bs hp hb; exact async_ok hb hp
  | meterMod cmd f mt bd => intro rnd h bs hp hb; obtain ⟨h1, h2, h3, h4, h5⟩ := hp; exact meterMod_ok hb h1 h2 h3 h4 h5
  | bundleCtrl b t f ps => intro rnd h bs hp hb; exact bundleCtrl_ok hb hp
  | bundleAdd b f rnd' h' i ps ih =>
    intro rnd h bs hp hb
    simp only [Call.run, bind_ok] at hb
    obtain ⟨ms, hms, hb⟩ := hb
    exact bundleAdd_ok (ih rnd' h' ms hp.1 hms) hb hp.2
  | requestForward rnd' h' i ih =>
    intro rnd h bs hp hb
    simp only [Call.run, bind_ok] at hb
    obtain ⟨ms, hms, hb⟩ := hb
    exact requestForward_ok (ih rnd' h' ms hp hms) hb
  | experimenter x t d => intro rnd h bs hp hb; exact experimenter_ok hb
  | other d => intro rnd h bs hp hb; exact other_ok hp hb
  | mpRequestOf t f r =>
    intro rnd h bs hp hb
    simp only [Call.run, bind_ok] at hb
    obtain ⟨b, hrb, hb⟩ := hb
    have hbody : reqBody t (.raw b) = .ok b := by
      obtain ⟨ht, _⟩ := hp
      cases r <;> simp only [Rec.requestType, Option.some.injEq, reduceCtorEq] at ht <;> subst ht <;> rfl
    exact mpRequest_one hp.1 hp.2 hbody hrb hb
  | mpRequest t f body =>
    intro rnd h bs hp hb
    have hno : ∀ t : Nat, t = 14 ∨ t = 0xffff → t ∉ [0, 3, 7, 8, 11, 13] := by
      intro t ht; simp only [List.mem_cons, List.not_mem_nil, or_false]; omega
    rcases hp with ht | ⟨rfl, rfl⟩ | ⟨rfl, d, rfl⟩ | ⟨r, rfl, ht, hr⟩ | ⟨rfl, l, rfl, hl⟩
    · have hw : reqWire t body = .raw [] := by
        cases body <;> simp only [reqWire, if_pos ht]
        split
        · rename_i e; subst e; simp at ht
        · rfl
      have hs : reqSize t body = 0 := by
        cases body <;> simp only [reqSize, if_pos ht]
        split
        · rename_i e; subst e; simp at ht
        · rfl
      have := mpRequest_empty (.inl ht) hb
      simp only [Call.wire, Call.size, hw, hs]
      exact this
    · exact mpRequest_empty (.inr ⟨rfl, rfl⟩) hb
    · exact mpRequest_exp hb
    · have hn : t ∉ [0, 3, 7, 8, 11, 13] := by
        cases r <;> simp only [Rec.requestType, Option.some.injEq, reduceCtorEq] at ht <;> subst ht <;> decide
      simp only [Call.wire, Call.size, reqWire, reqSize, if_neg hn]
      by_cases h15 : t = 15 ∨ t = 16
      · exfalso
        have : reqBody t (.one r) = .error .typeError := by rcases h15 with rfl | rfl <;> rfl
        simp only [Call.run, buildMpRequest, bind_ok, this, reduceCtorEq, false_and, exists_false] at hb
      · obtain ⟨b, hbb, _⟩ := mpRequest_at hb
        have hbr := hbb
        rw [reqBody_one ht (by omega)] at hbr
        exact mpRequest_one ht hr hbb hbr hb
    · have := mpRequest_features hl hb
      rw [List.map_map] at this
      simp only [Call.wire, Call.size, reqWire, reqSize, if_true, List.map_map]
      exact this
  | mpReply t f body =>
    intro rnd h bs hp hb
    rcases hp with ⟨ht, r, rfl, hrt, hr⟩ | ⟨ht, l, rfl, hl⟩ | ⟨rfl, d, rfl, hd⟩
    · by_cases h2 : t = 2
      · subst h2
        cases r <;> simp only [Rec.replyType, Option.some.injEq, reduceCtorEq, Nat.reduceEqDiff] at hrt
        exact mpReply_aggregate hb
      · simp only [Call.wire, Call.size, repWire, repSize, if_neg h2]
        refine mpReply_one hrt ?_ hr hb
        simp only [List.mem_cons, List.not_mem_nil, or_false] at ht ⊢; omega
    · have := mpReply_many ht hl hb
      rw [List.map_map] at this
      simp only [Call.wire, Call.size, repWire, repSize, List.map_map]
      exact this
    · exact mpReply_exp hd hb
  | _ => intro rnd h bs hp hb; exact hp.elim

end Twink.Of14
