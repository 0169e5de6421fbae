import Verif.Proof.Of13Msg

/-! Ports, queues, hello elements and the records of multipart messages. -/

namespace Twink.Of13
open Fmt Spec

theorem rd_pad {m n} {f : Fmt} {vs : List Val} (h : At m n (enc f vs)) (hf : fits f vs = true)
    (k : List Val → Option α) (a : α) (hk : k (padVals f vs) = some a) : rd f m n k = .ok (a, n + calcsize f) := by
  obtain ⟨pre, post, rfl, rfl⟩ := h
  simp [rd, unpackFrom_enc f vs pre post hf, hk]

theorem rt_rd {f : Fmt} {vs : List Val} {k : List Val → Option α} {a : α} (hf : fits f vs = true) (he : exact f vs)
    (hk : k vs = some a) : RT (fun m off => rd f m off k) (enc f vs) a :=
  RT.of_at fun _ _ hm => by rw [rd_at hm hf he k a hk, enc_length _ _ hf]

/-- Reading a packed record, then going on. -/
theorem rd_bind {m n} {f : Fmt} {vs : List Val} (h : At m n (enc f vs)) (hf : fits f vs = true) (he : exact f vs)
    {k : List Val → Option α} {a : α} {K : α × Nat → Py β} (hk : k vs = some a) :
    (rd f m n k >>= K) = K (a, n + calcsize f) := by
  rw [rd_at h hf he k a hk]; rfl

/-! ### ports -/

theorem takeWhile_padTo (n : Nat) (b : Bytes) (h : b.length ≤ n) :
    (padTo n b).takeWhile (· != 0) = b.takeWhile (· != 0) := by
  rw [padTo, List.take_of_length_le h]
  generalize n - b.length = k
  induction b with
  | nil => cases k <;> simp [List.replicate_succ]
  | cons a b ih =>
    simp only [List.cons_append, List.takeWhile_cons]
    rw [ih (by simp at h; omega)]

theorem utf8Ok_ascii (b : Bytes) (h : b.all (· < 128) = true) : utf8Ok b = true := by
  induction b with
  | nil => rfl
  | cons a b ih =>
    simp only [List.all_cons, Bool.and_eq_true, decide_eq_true_eq] at h
    rw [utf8Ok.eq_def]
    simp only
    rw [if_pos (by simpa using h.1), ih h.2]

theorem all_takeWhile {p q : UInt8 → Bool} (b : Bytes) (h : b.all p = true) : (b.takeWhile q).all p = true := by
  rw [List.all_eq_true] at h ⊢
  exact fun x hx => h x ((List.takeWhile_sublist q).subset hx)

theorem rt_port (p : PortT) (bs : Bytes) (h : buildPort p = .ok bs) :
    RT parsePort bs p.wire ∧ 0 < bs.length ∧ bs.length = 64 := by
  simp only [buildPort, bind_ok, pyAssert_ok, pack_eq_ok, ok_inj, exists_const] at h
  obtain ⟨name, hn, hhw, hnl, _, ⟨hf, rfl⟩, hlen, rfl⟩ := h
  cases ht : p.name with
  | uni b => simp [ht, encodeName] at hn
  | str b =>
    rw [ht, encodeName] at hn
    split at hn
    · rename_i hb
      injection hn with hn; subst hn
      refine ⟨RT.of_at fun m n hm => ?_, by omega, hlen⟩
      rw [parsePort, rd_pad hm hf portOf ⟨p.portNo, p.hwAddr, .str (padTo 16 b), p.config, p.state, p.curr, p.advertised,
        p.supported, p.peer, p.currSpeed, p.maxSpeed⟩ (by simp [padVals, portFmt, portOf, padTo_eq _ _ hhw]), ok_bind]
      simp only [decodeName, beforeNul, takeWhile_padTo 16 b hnl, utf8Ok_ascii _ (all_takeWhile b hb), ↓reduceIte, ok_bind]
      rw [hlen]
      simp [PortT.wire, Text.wire, ht, portFmt, calcsize, Item.width]
    · simp at hn

/-! ### queues -/

theorem rt_queue (q : Queue) (bs : Bytes) (hp : q.Parseable) (h : buildQueue q = .ok bs) :
    RT parseQueue bs q.wire ∧ 0 < bs.length ∧ bs.length = 16 := by
  simp only [buildQueue, bind_ok, pyAssert_ok, pack_eq_ok, ok_inj, exists_const] at h
  obtain ⟨ps, h1, _, ⟨hf, rfl⟩, hlen, rfl⟩ := h
  have hps : ps = [] := by rcases hp with h2 | h2 <;> rw [h2] at h1 <;> simp [seqBytes, join] at h1 <;> simp [h1]
  subst hps
  rw [List.append_nil]
  simp only [List.length_nil, Nat.add_zero] at *
  refine ⟨RT.of_at fun m n hm => ?_, by omega, hlen⟩
  rw [parseQueue, rd_at hm hf (by simp [exact]) (three fun a b c => (a, b, c)) _ rfl, ok_bind]
  have hc : calcsize [I, I, H, X 6] = 16 := rfl
  simp only [hc]
  rw [whileFetch, if_neg (by omega), ok_bind]
  simp only [pyAssert_true, ok_bind, hlen, Queue.wire]

theorem seq_queues {s : Seq Queue} (hs : s.All Queue.Parseable) {bs : Bytes} (h : seqBytes buildQueue s = .ok bs) :
    Parts parseQueue bs (s.values.map Queue.wire) ∧ bs.length = (s.values.map (fun _ => 16)).sum :=
  seq_parts rt_queue hs h

/-! ### hello elements -/

theorem bitmap_list {l : List Nat} {bs : Bytes} (h : bitmapBytes (.list l) = .ok bs) :
    fits (List.replicate l.length I) (l.map .int) = true ∧ bs = enc (List.replicate l.length I) (l.map .int) := by
  induction l generalizing bs with
  | nil => simp [bitmapBytes, bitmapList] at h; simp [h, fits, enc]
  | cons a l ih =>
    simp only [bitmapBytes, bitmapList, bind_ok, pack_eq_ok, ok_inj] at h
    obtain ⟨_, ⟨hf, rfl⟩, b, hb, rfl⟩ := h
    obtain ⟨i1, i2⟩ := ih hb
    have he : enc [] [] = [] := rfl
    simp [fits] at hf
    subst i2
    simp [fits, enc, List.replicate_succ, hf, i1]

theorem allInts_map (l : List Nat) : allInts (l.map .int) = some l := by
  induction l with
  | nil => rfl
  | cons a l ih => simp [allInts, ih]

theorem exact_ints (l : List Nat) (n : Nat) : exact (List.replicate n I) (l.map .int) := by
  induction l generalizing n with
  | nil => cases n <;> simp [exact, List.replicate_succ]
  | cons a l ih => cases n <;> simp [exact, List.replicate_succ, ih]

theorem calcsize_ints (n : Nat) : calcsize (List.replicate n I) = 4 * n := by
  induction n with
  | zero => rfl
  | succ n ih => simp only [List.replicate_succ, calcsize, Item.width, ih]; omega

theorem rt_helloElem (e : HelloElem) (bs : Bytes) (hp : e.Parseable) (h : buildHelloElem e = .ok bs) :
    RT parseHelloElem bs e.wire ∧ 0 < bs.length ∧ bs.length = e.size := by
  cases e with
  | header t l => exact hp.elim
  | versionBitmap t l b =>
    simp only [buildHelloElem, bind_ok, pyAssert_ok, pack_eq_ok, ok_inj, exists_const] at h
    obtain ⟨ht, bb, h1, _, ⟨hf, rfl⟩, rfl⟩ := h
    rw [ht] at *
    have hb : fits (List.replicate b.values.length I) (b.values.map .int) = true ∧
        bb = enc (List.replicate b.values.length I) (b.values.map .int) := by
      rcases hp with rfl | ⟨l, rfl⟩
      · simp [bitmapBytes] at h1; subst h1; simp [Ints.values, fits, enc]
      · exact bitmap_list h1
    obtain ⟨hfb, rfl⟩ := hb
    have hbl : (enc (List.replicate b.values.length I) (b.values.map .int)).length = 4 * b.values.length := by
      rw [enc_length _ _ hfb, calcsize_ints]
    rw [hbl] at hf
    simp only [hbl]
    have hge := up8_ge (4 + 4 * b.values.length)
    rw [align_eq]
    have hlen : (enc [H, H] [.int 1, .int (4 + 4 * b.values.length)] ++ enc (List.replicate b.values.length I) (b.values.map .int)
        ++ nul (up8 (4 + 4 * b.values.length) - (4 + 4 * b.values.length))).length = up8 (4 + 4 * b.values.length) := by
      have : (enc [H, H] [.int 1, .int (4 + 4 * b.values.length)]).length = 4 := by simp [enc]
      rw [List.length_append, List.length_append, hbl, this, nul_length]; omega
    refine ⟨RT.of_at fun m n hm => ?_, by rw [hlen]; omega, hlen⟩
    rw [hlen]
    have hm1 : At m n (enc [H, H] [.int 1, .int (4 + 4 * b.values.length)]) := hm.left.left
    rw [parseHelloElem, rd_at hm1 hf (by simp [exact]) (two fun a b => (a, b)) _ rfl, ok_bind]
    simp only [↓reduceIte]
    rw [parseVersionBitmap, rd_at hm1 hf (by simp [exact]) (two fun a b => (a, b)) _ rfl, ok_bind]
    simp only [pyAssert_true, ok_bind]
    rw [if_neg (by omega)]
    have hk : (4 + 4 * b.values.length - 4) / 4 = b.values.length := by omega
    have hc : calcsize [H, H] = 4 := rfl
    rw [hk, hc, rd_at (hm.left.right (n + 4) (by simp [enc])) hfb (exact_ints _ _) allInts b.values (allInts_map _), ok_bind]
    simp only [calcsize_ints, HelloElem.wire, align_eq, ok_inj, Prod.mk.injEq, true_and]
    omega

theorem seq_hello {s : Seq HelloElem} (hs : s.All HelloElem.Parseable) {bs : Bytes} (h : seqBytes buildHelloElem s = .ok bs) :
    Parts parseHelloElem bs (s.values.map HelloElem.wire) ∧ bs.length = (s.values.map HelloElem.size).sum :=
  seq_parts rt_helloElem hs h

/-! ### multipart records -/

theorem rt_pair (a : Nat × Nat) (bs : Bytes) (_ : True) (h : buildPair a = .ok bs) :
    RT parsePair bs a ∧ 0 < bs.length ∧ bs.length = 16 := by
  obtain ⟨hf, rfl⟩ := pack_eq_ok.1 h
  have hl : (enc [Q, Q] [.int a.1, .int a.2]).length = 16 := by rw [enc_length _ _ hf]; rfl
  exact ⟨rt_rd hf (by simp [exact]) rfl, by omega, hl⟩

theorem sum_const (l : List α) (k : Nat) : (l.map (fun _ => k)).sum = k * l.length := by
  induction l with
  | nil => rfl
  | cons a l ih => simp only [List.map_cons, List.sum_cons, ih, List.length_cons, Nat.mul_add]; omega

theorem seq_pairs {s : Seq (Nat × Nat)} (hs : s.All (fun _ => True)) {bs : Bytes} (h : seqBytes buildPair s = .ok bs) :
    Parts parsePair bs s.values ∧ bs.length = 16 * s.values.length := by
  have := seq_parts (w := fun a => a) rt_pair hs h
  rw [List.map_id', sum_const] at this
  exact this

theorem seq_bands' {s : Seq Band} (hs : s.All Band.Parseable) {bs : Bytes} (h : seqBytes buildBand s = .ok bs) :
    Parts parseBand bs (s.values.map Band.wire) ∧ bs.length = 16 * s.values.length := by
  have := seq_bands hs h
  rw [sum_const] at this
  exact this

/-- What parses the record. -/
def recParser : Rec → Bytes → Nat → Py (Rec × Nat)
  | .desc .. => parseDesc
  | .flowStatsReq .. => parseFlowStatsReq
  | .flowStats .. => parseFlowStats
  | .aggregateReq .. => parseAggregateReq
  | .aggregate .. => parseAggregate
  | .tableStats .. => parseTableStats
  | .tableFeatures .. => parseTableFeatures
  | .portStatsReq .. => parsePortStatsReq
  | .portStats .. => parsePortStats
  | .queueStatsReq .. => parseQueueStatsReq
  | .queueStats .. => parseQueueStats
  | .groupStatsReq .. => parseGroupStatsReq
  | .groupStats .. => parseGroupStats
  | .groupDesc .. => parseGroupDesc
  | .groupFeatures .. => parseGroupFeatures
  | .meterReq .. => parseMeterReq
  | .meterStats .. => parseMeterStats
  | .meterConfig .. => parseMeterConfig
  | .meterFeatures .. => parseMeterFeatures
  | .port .. => parsePortRec
  | .experimenter .. => fun m off => parseExperimenterMp off m off

theorem rt_fixed {f : Fmt} {vs : List Val} {k : List Val → Option α} {a : α} (hf : fits f vs = true) (he : exact f vs)
    (hk : k vs = some a) (hc : 0 < calcsize f) : RT (fun m off => rd f m off k) (enc f vs) a ∧ 0 < (enc f vs).length :=
  ⟨rt_rd hf he hk, by rw [enc_length _ _ hf]; exact hc⟩

theorem fourInts_ok {x : Ints} (hx : x = .none ∨ ∃ l, x = .list l) {bs : Bytes} (h : fourInts x = .ok bs) :
    ∃ a b c d, x.four = .list [a, b, c, d] ∧ fits [I, I, I, I] [.int a, .int b, .int c, .int d] = true ∧
      bs = enc [I, I, I, I] [.int a, .int b, .int c, .int d] := by
  rcases hx with rfl | ⟨l, rfl⟩
  · simp [fourInts] at h
    subst h
    exact ⟨0, 0, 0, 0, rfl, by decide, by decide⟩
  · obtain ⟨hf, rfl⟩ := pack_eq_ok.1 h
    match l, hf with
    | [a, b, c, d], hf => exact ⟨a, b, c, d, rfl, hf, rfl⟩
    | [], hf => simp [fits] at hf
    | [a], hf => simp [fits] at hf
    | [a, b], hf => simp [fits] at hf
    | [a, b, c], hf => simp [fits] at hf
    | a :: b :: c :: d :: e :: l, hf => simp [fits] at hf

theorem rt_rec (r : Rec) (bs : Bytes) (hp : r.Parseable) (h : buildRec r = .ok bs) :
    RT (recParser r) bs r.wire ∧ 0 < bs.length := by
  cases r with
  | aggregateReq => exact hp.elim
  | tableFeatures => exact hp.elim
  | portStats => exact hp.elim
  | experimenter => exact hp.elim
  | desc a b c d e =>
    simp only [buildRec, bind_ok, pyAssert_ok, pack_eq_ok, ok_inj, exists_const] at h
    obtain ⟨_, ⟨hf, rfl⟩, hlen, rfl⟩ := h
    refine ⟨RT.of_at fun m n hm => ?_, by omega⟩
    rw [hlen]
    exact rd_pad hm hf _ _ rfl
  | aggregate a b c =>
    obtain ⟨hf, rfl⟩ := pack_eq_ok.1 h
    exact rt_fixed hf (by simp [exact]) rfl (by decide)
  | tableStats a b c d =>
    simp only [buildRec, bind_ok, pyAssert_ok, pack_eq_ok, ok_inj, exists_const] at h
    obtain ⟨_, ⟨hf, rfl⟩, hlen, rfl⟩ := h
    exact rt_fixed hf (by simp [exact]) rfl (by decide)
  | portStatsReq a =>
    obtain ⟨hf, rfl⟩ := pack_eq_ok.1 h
    exact rt_fixed hf (by simp [exact]) rfl (by decide)
  | queueStatsReq a q =>
    cases q with
    | none => simp [buildRec] at h
    | some q =>
      obtain ⟨hf, rfl⟩ := pack_eq_ok.1 h
      exact rt_fixed hf (by simp [exact]) rfl (by decide)
  | queueStats a b c d e f g =>
    obtain ⟨hf, rfl⟩ := pack_eq_ok.1 h
    exact rt_fixed hf (by simp [exact]) rfl (by decide)
  | groupStatsReq a =>
    obtain ⟨hf, rfl⟩ := pack_eq_ok.1 h
    exact rt_fixed hf (by simp [exact]) rfl (by decide)
  | meterReq a =>
    obtain ⟨hf, rfl⟩ := pack_eq_ok.1 h
    exact rt_fixed hf (by simp [exact]) rfl (by decide)
  | meterFeatures a b c d e =>
    obtain ⟨hf, rfl⟩ := pack_eq_ok.1 h
    exact rt_fixed hf (by simp [exact]) rfl (by decide)
  | port p =>
    obtain ⟨h1, h2, h3⟩ := rt_port p bs h
    refine ⟨RT.of_at fun m n hm => ?_, h2⟩
    rw [recParser, parsePortRec, h1.at hm, ok_bind]
    rfl
  | flowStatsReq t p g c cm mt =>
    simp only [buildRec, bind_ok, pyAssert_ok, pack_eq_ok, ok_inj, exists_const] at h
    obtain ⟨e, he, _, ⟨hf, rfl⟩, hlen, mb, hmb, rfl⟩ := h
    have key : ∃ mt', RT parseMatch mb mt' ∧ wireMatch (mt.getD (.tup ⟨none, none, .none⟩)) = .tup mt' := by
      rcases hp with rfl | ⟨m, rfl⟩
      · simp only [bind_ok, ok_inj] at he
        obtain ⟨b, hb, rfl⟩ := he
        simp [obj] at hmb
        subst hmb
        exact ⟨_, (rt_match hb).1, rfl⟩
      · simp only [ok_inj] at he
        subst he
        exact ⟨_, (rt_match hmb).1, rfl⟩
    obtain ⟨mt', hrt, hw⟩ := key
    refine ⟨RT.of_at fun m n hm => ?_, by simp only [List.length_append]; omega⟩
    rw [recParser, parseFlowStatsReq, rd_at hm.left hf (by simp [exact, flowStatsReqFmt]) (five fun a b c d e => Rec.flowStatsReq a b c d e) _ rfl, ok_bind]
    have hc : calcsize flowStatsReqFmt = 32 := rfl
    simp only [hc]
    rw [hrt.at (hm.right (n + 32) (by omega)), ok_bind]
    simp only [Rec.wire, hw, List.length_append, hlen, Nat.add_assoc]
  | flowStats l t ds dn p i hd f c pc bc mt is =>
    obtain ⟨⟨mt, rfl⟩, his⟩ := hp
    simp only [buildRec, bind_ok, pyAssert_ok, pack_eq_ok, ok_inj, exists_const] at h
    obtain ⟨ib, hib, mb, hmb, _, ⟨hf, rfl⟩, hlen, rfl⟩ := h
    obtain ⟨hmrt, hml⟩ := rt_match hmb
    obtain ⟨hparts, hil⟩ := seq_instrs his hib
    refine ⟨RT.of_at fun m n hm => ?_, by omega⟩
    have hl0 := enc_length _ _ hf
    have hc : calcsize flowStatsFmt = 48 := rfl
    rw [hc] at hl0
    rw [hlen, recParser, parseFlowStats]
    refine (rd_bind hm.left.left hf (by simp [exact, flowStatsFmt]) (by rfl)).trans ?_
    simp only [hc]
    rw [hmrt.at (hm.left.right (n + 48) (by omega)), ok_bind]
    simp only
    rw [listFetch_at hparts (hm.right (n + 48 + mb.length) (by rw [List.length_append]; omega)) _ (by omega), ok_bind]
    simp only [Rec.wire, wireMatch, MatchT.size, ← hml, instrsSize, ← hil]
  | groupStats l g r p b ds dn cs =>
    simp only [buildRec, bind_ok, pack_eq_ok, ok_inj] at h
    obtain ⟨cb, hcb, _, ⟨hf, rfl⟩, rfl⟩ := h
    obtain ⟨hparts, hcl⟩ := seq_pairs hp hcb
    have hl0 := enc_length _ _ hf
    have hc : calcsize groupStatsFmt = 40 := rfl
    rw [hc] at hl0
    refine ⟨RT.of_at fun m n hm => ?_, by rw [List.length_append]; omega⟩
    rw [recParser, parseGroupStats]
    refine (rd_bind hm.left hf (by simp [exact, groupStatsFmt]) (by rfl)).trans ?_
    simp only [hc]
    rw [listFetch_at hparts (hm.right (n + 40) (by omega)) _ (by omega), ok_bind]
    simp only [Rec.wire, List.length_append, hl0, ← hcl]
  | groupDesc l t g bk =>
    simp only [buildRec, bind_ok, pack_eq_ok, ok_inj] at h
    obtain ⟨cb, hcb, _, ⟨hf, rfl⟩, rfl⟩ := h
    obtain ⟨hparts, hcl⟩ := seq_buckets hp hcb
    have hl0 := enc_length _ _ hf
    have hc : calcsize [H, B, X 1, I] = 8 := rfl
    rw [hc] at hl0
    refine ⟨RT.of_at fun m n hm => ?_, by rw [List.length_append]; omega⟩
    rw [recParser, parseGroupDesc]
    refine (rd_bind hm.left hf (by simp [exact]) (by rfl)).trans ?_
    simp only [hc]
    rw [listFetch_at hparts (hm.right (n + 8) (by omega)) _ (by omega), ok_bind]
    have : (bk.values.map Bucket.size).sum = cb.length := by rw [hcl]; rfl
    simp only [Rec.wire, List.length_append, hl0, this]
  | groupFeatures t c ms as =>
    simp only [buildRec, bind_ok, pack_eq_ok, ok_inj] at h
    obtain ⟨mb, hmb, ab, hab, _, ⟨hf, rfl⟩, rfl⟩ := h
    obtain ⟨a1, a2, a3, a4, e1, f1, rfl⟩ := fourInts_ok hp.1 hmb
    obtain ⟨b1, b2, b3, b4, e2, f2, rfl⟩ := fourInts_ok hp.2 hab
    have l0 := enc_length _ _ hf
    have l1 := enc_length _ _ f1
    have l2 := enc_length _ _ f2
    have c0 : calcsize [I, I] = 8 := rfl
    have c1 : calcsize [I, I, I, I] = 16 := rfl
    rw [c0] at l0
    rw [c1] at l1 l2
    refine ⟨RT.of_at fun m n hm => ?_, by simp only [List.length_append]; omega⟩
    rw [recParser, parseGroupFeatures]
    refine (rd_bind hm.left.left hf (by simp [exact]) (by rfl)).trans ?_
    simp only [c0]
    rw [rd_at (hm.left.right (n + 8) (by omega)) f1 (by simp [exact]) fourList _ rfl, ok_bind]
    simp only [c1]
    rw [rd_at (hm.right (n + 8 + 16) (by simp only [List.length_append]; omega)) f2 (by simp [exact]) fourList _ rfl, ok_bind]
    simp only [Rec.wire, e1, e2, List.length_append, l0, l1, l2, c1]
  | meterStats mt l f p b ds dn bds =>
    obtain ⟨hp, rfl⟩ := hp
    simp only [buildRec, bind_ok, packOpt_ok, pack_eq_ok, ok_inj] at h
    obtain ⟨cb, hcb, _, ⟨l, hl, hf, rfl⟩, rfl⟩ := h
    injection hl with hl; subst hl
    obtain ⟨hparts, hcl⟩ := seq_pairs hp hcb
    have hl0 := enc_length _ _ hf
    have hc : calcsize meterStatsFmt = 40 := rfl
    rw [hc] at hl0
    refine ⟨RT.of_at fun m n hm => ?_, by rw [List.length_append]; omega⟩
    rw [recParser, parseMeterStats]
    refine (rd_bind hm.left hf (by simp [exact, meterStatsFmt]) (by rfl)).trans ?_
    simp only [hc]
    rw [listFetch_at hparts (hm.right (n + 40) (by omega)) _ (by omega), ok_bind]
    simp only [Rec.wire, List.length_append, hl0, hcl]
  | meterConfig l f mt bds =>
    simp only [buildRec, bind_ok, pack_eq_ok, ok_inj] at h
    obtain ⟨cb, hcb, _, ⟨hf, rfl⟩, rfl⟩ := h
    obtain ⟨hparts, hcl⟩ := seq_bands' hp hcb
    have hl0 := enc_length _ _ hf
    have hc : calcsize [H, H, I] = 8 := rfl
    rw [hc] at hl0
    refine ⟨RT.of_at fun m n hm => ?_, by rw [List.length_append]; omega⟩
    rw [recParser, parseMeterConfig]
    refine (rd_bind hm.left hf (by simp [exact]) (by rfl)).trans ?_
    simp only [hc]
    rw [listFetch_at hparts (hm.right (n + 8) (by omega)) _ (by omega), ok_bind]
    simp only [Rec.wire, List.length_append, hl0, ← hcl]

end Twink.Of13
