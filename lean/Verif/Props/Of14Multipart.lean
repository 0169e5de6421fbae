import Verif.Props.Of14

/-!
# C73, C74: properties and multipart messages of OpenFlow 1.4
-/

namespace Twink.Of14
open Fmt Of13 Spec

/-! ### C73: properties -/

/-- C73, in part: lists of properties that can be parsed come back, for table modifications, queue descriptions,
asynchronous configuration, port modifications, port statistics and queue statistics, and take the number of bytes they
should.  Missing: the properties which `Pr.ForTable` and so on leave out, see below. -/
theorem C73_properties_partial (s : Seq Pr) (bs pre post : Bytes) (h : seqBytes buildPr s = .ok bs) :
    (s.All Pr.ForTable → whileFetch (parseTmProp (pre ++ (bs ++ post))) (pre.length + bs.length) pre.length =
      .ok (s.values.map Pr.wire, pre.length + bs.length) ∧ bs.length = propsSize s) ∧
    (s.All Pr.ForQueue → whileFetch (parseQdProp (pre ++ (bs ++ post))) (pre.length + bs.length) pre.length =
      .ok (s.values.map Pr.wire, pre.length + bs.length) ∧ bs.length = propsSize s) ∧
    (s.All Pr.ForAsync → whileFetch (parseAsyncProp (pre ++ (bs ++ post))) (pre.length + bs.length) pre.length =
      .ok (s.values.map Pr.wire, pre.length + bs.length) ∧ bs.length = propsSize s) ∧
    (s.All Pr.ForPortMod → whileFetch (parsePmProp (pre ++ (bs ++ post))) (pre.length + bs.length) pre.length =
      .ok (s.values.map Pr.wire, pre.length + bs.length) ∧ bs.length = propsSize s) ∧
    (s.All Pr.ForPortStats → whileFetch (parsePsProp (pre ++ (bs ++ post))) (pre.length + bs.length) pre.length =
      .ok (s.values.map Pr.wire, pre.length + bs.length) ∧ bs.length = propsSize s) ∧
    (s.All Pr.ForQueueStats → whileFetch (parseQsProp (pre ++ (bs ++ post))) (pre.length + bs.length) pre.length =
      .ok (s.values.map Pr.wire, pre.length + bs.length) ∧ bs.length = propsSize s) := by
  have hm := At.intro pre bs post _ rfl
  refine ⟨fun hs => ?_, fun hs => ?_, fun hs => ?_, fun hs => ?_, fun hs => ?_, fun hs => ?_⟩
  · exact ⟨whileFetch_at (seq_props rt_tmProp hs h).1 hm _ rfl, (seq_props rt_tmProp hs h).2⟩
  · exact ⟨whileFetch_at (seq_props rt_qdProp hs h).1 hm _ rfl, (seq_props rt_qdProp hs h).2⟩
  · exact ⟨whileFetch_at (seq_props rt_asyncProp hs h).1 hm _ rfl, (seq_props rt_asyncProp hs h).2⟩
  · exact ⟨whileFetch_at (seq_props rt_pmProp hs h).1 hm _ rfl, (seq_props rt_pmProp hs h).2⟩
  · exact ⟨whileFetch_at (seq_props rt_psProp hs h).1 hm _ rfl, (seq_props rt_psProp hs h).2⟩
  · exact ⟨whileFetch_at (seq_props rt_qsProp hs h).1 hm _ rfl, (seq_props rt_qsProp hs h).2⟩

example : (∃ bs, seqBytes buildPr (tups [.eviction none (some 8) 1, .vacancy none none 2 3 4, .tableExp none none 5 6 (some [7, 8])]) = .ok bs) ∧
    (tups [Pr.eviction none (some 8) 1, .vacancy none none 2 3 4, .tableExp none none 5 6 (some [7, 8])]).All Pr.ForTable ∧
    (∃ bs, seqBytes buildPr (tups [.pmEthernet none none 1, .pmOptical none none 2 3 (-4) 5 6]) = .ok bs) ∧
    (tups [Pr.pmEthernet none none 1, .pmOptical none none 2 3 (-4) 5 6]).All Pr.ForPortMod :=
  ⟨⟨_, rfl⟩, all_tups (by simp [Pr.ForTable]), ok_of (by decide +kernel), all_tups (by simp [Pr.ForPortMod])⟩

/-- C73 is false of the code: experimenter properties of ports, queue descriptions, asynchronous configuration and table
features can never be built, eviction properties only with a length given by the caller. -/
theorem C73_not_built_refuted (t l : Option Nat) (x y : Nat) (d : Option Bytes) (bs : Bytes) :
    buildPr (.portExp t l x y d) ≠ .ok bs ∧ buildPr (.qdExp t l x y d) ≠ .ok bs ∧ buildPr (.asyncExp t l x y d) ≠ .ok bs ∧
    (∀ d, buildTfProp (.experimenter t l x y d) ≠ .ok bs) ∧ (∀ f, buildPr (.eviction t none f) ≠ .ok bs) := by
  refine ⟨?_, ?_, ?_, ?_, ?_⟩
  · simp [buildPr, bind_ok]
  · simp [buildPr]
  · simp [buildPr]
  · simp [buildTfProp]
  · simp [buildPr, packOpt]

/-- C73 is false of the code: the length of an eviction property, which is eight bytes long, is whatever the caller gives. -/
theorem C73_eviction_refuted (t : Option Nat) (l f : Nat) (bs : Bytes) (h : buildPr (.eviction t (some l) f) = .ok bs) :
    bs.length = 8 ∧ u16 bs 2 = l := by
  obtain ⟨hf, rfl⟩ := pack_eq_ok.1 (show pack [H, H, I] [.int 2, .int l, .int f] = .ok bs from h)
  obtain ⟨_, hl, _⟩ := fits_HH hf
  refine ⟨by simp [enc], ?_⟩
  simp [enc, encBE_2, be16, b8, u16, u8]; omega

/-- C73 is false of the code: the asynchronous configuration properties for TABLE_STATUS messages (8, 9) can be built, but
parsing them raises NameError. -/
theorem C73_async_refuted (t : Nat) (l : Option Nat) (r : Nat) (bs pre post : Bytes) (ht : t = 8 ∨ t = 9)
    (h : buildPr (.reasons (some t) l r) = .ok bs) :
    parseAsyncProp (pre ++ (bs ++ post)) pre.length = .error .nameError := by
  simp only [buildPr, bind_ok, pyAssert_ok, pack_eq_ok, exists_const] at h
  obtain ⟨_, hf, rfl⟩ := h
  rw [parseAsyncProp, peek_at (At.intro pre _ post _ rfl) hf, ok_bind]
  exact if_neg (by simp; omega)

/-- C73 is false of the code: the experimenter properties of port statistics are not padded, so that parsing goes on
behind their end. -/
theorem C73_port_stats_refuted (t l : Option Nat) (x y : Nat) (d : Option Bytes) (bs pre post : Bytes)
    (hd : (12 + (d.getD []).length) % 8 ≠ 0) (h : buildPr (.psExp t l x y d) = .ok bs) :
    ∃ p o, parsePsProp (pre ++ (bs ++ post)) pre.length = .ok (p, o) ∧ pre.length + bs.length < o := by
  simp only [buildPr, bind_ok, pack_eq_ok, ok_inj] at h
  obtain ⟨_, ⟨hf, rfl⟩, rfl⟩ := h
  have hm := At.intro pre (enc [H, H, I, I] [.int 0xffff, .int (12 + (d.getD []).length), .int x, .int y] ++ d.getD []) post _ rfl
  refine ⟨.psExp (some 0xffff) (some (12 + (d.getD []).length)) x y (some (d.getD [])), pre.length + align (12 + (d.getD []).length), ?_, ?_⟩
  · have hl : (enc [H, H, I, I] [.int 0xffff, .int (12 + (d.getD []).length), .int x, .int y]).length = 12 := by simp [enc]
    rw [parsePsProp, peek_at hm.left hf, ok_bind]
    show parseExp .psExp align _ _ = _
    rw [parseExp]
    refine (rd_bind hm.left hf (by simp [exact]) (by rfl)).trans ?_
    have hc : calcsize [H, H, I, I] = 12 := rfl
    simp only [hc]
    rw [(hm.right (pre.length + 12) (by rw [hl])).slice _ (by omega)]
  · have hl : (enc [H, H, I, I] [.int 0xffff, .int (12 + (d.getD []).length), .int x, .int y]).length = 12 := by simp [enc]
    have h1 := up8_mod (12 + (d.getD []).length)
    have h2 := up8_ge (12 + (d.getD []).length)
    rw [List.length_append, hl, align_eq]
    omega

/-- C73 is false of the code: the data of an experimenter property of a port modification come back with the property's own
header in front. -/
theorem C73_port_mod_refuted (t l : Option Nat) (x y : Nat) (d bs pre post : Bytes) (h : buildPr (.pmExp t l x y (some d)) = .ok bs) :
    parsePmProp (pre ++ (bs ++ post)) pre.length = .ok (.pmExp (some 0xffff) (some (12 + d.length)) x y
      (some (be16 0xffff ++ be16 (12 + d.length) ++ be32 x ++ be32 y ++ d)), pre.length + bs.length) := by
  simp only [buildPr, packExp, bind_ok, pack_eq_ok, ok_inj] at h
  obtain ⟨_, ⟨hf, rfl⟩, rfl⟩ := h
  have hl : (enc [H, H, I, I] [.int 0xffff, .int (12 + d.length), .int x, .int y]).length = 12 := by simp [enc]
  have hm := At.intro pre (enc [H, H, I, I] [.int 0xffff, .int (12 + d.length), .int x, .int y] ++ d ++
    nul (align (12 + d.length) - (12 + d.length))) post _ rfl
  rw [parsePmProp, peek_at hm.left.left hf, ok_bind]
  show (do let ((t, l, exp, ty), _) ← rd [H, H, I, I] _ _ (four fun a b c d => (a, b, c, d)); _) = _
  refine (rd_bind hm.left.left hf (by simp [exact]) (by rfl)).trans ?_
  have h2 := up8_ge (12 + d.length)
  have hs := hm.left.slice (pre.length + (12 + d.length)) (by rw [List.length_append, hl])
  have e : enc [H, H, I, I] [.int 0xffff, .int (12 + d.length), .int x, .int y] =
      be16 0xffff ++ be16 (12 + d.length) ++ be32 x ++ be32 y := by simp [enc, encBE_2, encBE_4]
  have e2 : pre.length + align (12 + d.length) = pre.length + (12 + d.length + (align (12 + d.length) - (12 + d.length))) := by
    rw [align_eq]; omega
  simp only [hs, List.length_append, hl, nul_length, ok_inj, Prod.mk.injEq]
  exact ⟨by rw [e], e2⟩

/-- C73 is false of the code: a built port has no properties, though its length counts them; and if there are none,
parsing the port raises NameError. -/
theorem C73_port_refuted (p : PortT) (pb bs pre post : Bytes) (hp : seqBytes buildPr p.properties = .ok pb) (h : buildPort p = .ok bs) :
    bs.length = 40 ∧ u16 bs 4 = 40 + pb.length ∧ (pb = [] → parsePort (pre ++ (bs ++ post)) pre.length = .error .nameError) := by
  simp only [buildPort, bind_ok, pack_eq_ok, pyAssert_ok, exists_const, hp, ok_inj] at h
  obtain ⟨h1, h2, _, rfl, hf, rfl⟩ := h
  have hl : 40 + pb.length < 65536 := by simp [fits, portFmt] at hf; omega
  refine ⟨by rw [enc_length _ _ hf]; rfl, ?_, ?_⟩
  · have e : enc portFmt [.int p.portNo, .int (40 + pb.length), .str p.hwAddr, .str p.name, .int p.config, .int p.state] =
        be32 p.portNo ++ (be16 (40 + pb.length) ++ enc [X 2, S 6, X 2, S 16, I, I] [.str p.hwAddr, .str p.name, .int p.config, .int p.state]) := by
      simp [portFmt, enc, encBE_4, encBE_2]
    rw [e]
    simp [be32, be16, u16, u8]; omega
  · rintro rfl
    have hm := At.intro pre (enc portFmt [.int p.portNo, .int (40 + ([] : Bytes).length), .str p.hwAddr, .str p.name, .int p.config, .int p.state]) post _ rfl
    have hr := rd_pad hm hf (fun
      | [.int _, .int l, .str _, .str _, .int _, .int _] => some l
      | _ => none) 40 (by simp [padVals, portFmt])
    rw [parsePort]
    refine (congrArg (· >>= _) hr).trans ?_
    have hc : calcsize portFmt = 40 := rfl
    exact if_neg (by show ¬ pre.length + calcsize portFmt < pre.length + 40; omega)

example : (∃ bs, buildPr (.reasons (some 8) none 1) = .ok bs) ∧ (∃ bs, buildPr (.psExp none none 1 2 (some [3])) = .ok bs) ∧
    (∃ bs, buildPr (.pmExp none none 1 2 (some [3])) = .ok bs) ∧ (∃ bs, buildPr (.eviction none (some 99) 1) = .ok bs) ∧
    (∃ bs, buildPort ⟨1, none, [1, 2, 3, 4, 5, 6], [97], 2, 3, tups [.portEthernet none none 1 2 3 4 5 6]⟩ = .ok bs) :=
  ⟨⟨_, rfl⟩, ⟨_, rfl⟩, ⟨_, rfl⟩, ⟨_, rfl⟩, ⟨_, rfl⟩⟩

/-! ### C74: multipart messages -/

/-- C74, in part: requests.  Those without body; flow, port, queue and group statistics requests, with a tuple or with what
its builder returns; queue description and flow monitor requests with what the builder returns; table features; the body
of experimenter requests as bytes.  Missing: see below. -/
theorem C74_requests_partial (rnd : Nat) (h : HdrArg) (t f : Nat) (bs pre post : Bytes) :
    (∀ body, t ∈ [0, 3, 7, 8, 11, 13] → buildMpRequest rnd h t f body = .ok bs →
      parse (pre ++ (bs ++ post)) pre.length = .ok (.mpRequest ⟨5, 18, 16, h.xid rnd⟩ t f (.raw [])) ∧ bs.length = 16) ∧
    (∀ r : Rec, r.requestType = some t → r.Parseable → buildMpRequest rnd h t f (.one r) = .ok bs →
      parse (pre ++ (bs ++ post)) pre.length = .ok (.mpRequest ⟨5, 18, bs.length, h.xid rnd⟩ t f (.one r.wire)) ∧ bs.length = 16 + r.size) ∧
    (∀ (r : Rec) b, r.requestType = some t → r.Parseable → buildRec r = .ok b → buildMpRequest rnd h t f (.raw b) = .ok bs →
      parse (pre ++ (bs ++ post)) pre.length = .ok (.mpRequest ⟨5, 18, bs.length, h.xid rnd⟩ t f (.one r.wire)) ∧ bs.length = 16 + r.size) ∧
    (∀ d, buildMpRequest rnd h 0xffff f (.raw d) = .ok bs →
      parse (pre ++ (bs ++ post)) pre.length = .ok (.mpRequest ⟨5, 18, bs.length, h.xid rnd⟩ 0xffff f (.raw d)) ∧ bs.length = 16 + d.length) := by
  have hm := At.intro pre bs post _ rfl
  refine ⟨fun body ht hb => ?_, fun r ht hr hb => ?_, fun r b ht hr hrb hb => ?_, fun d hb => ?_⟩
  · have h1 := mpRequest_empty (.inl ht) hb
    exact ⟨parse_of (h1.1 _ _ hm), h1.2⟩
  · have h1 := C72_messages_partial (.mpRequest t f (.one r)) rnd h bs pre post (.inr (.inr (.inr (.inl ⟨r, rfl, ht, hr⟩)))) hb
    have hn : t ∉ [0, 3, 7, 8, 11, 13] := by
      cases r <;> simp only [Rec.requestType, Option.some.injEq, reduceCtorEq] at ht <;> subst ht <;> decide
    have h2 : bs.length = 16 + r.size := by rw [h1.2]; simp only [Call.size, reqSize, if_neg hn]
    refine ⟨h1.1.trans ?_, h2⟩
    rw [h2]
    simp only [Call.wire, Call.size, reqSize, reqWire, if_neg hn]
  · have h1 := C72_messages_partial (.mpRequestOf t f r) rnd h bs pre post ⟨ht, hr⟩ (by simp only [Call.run, hrb, ok_bind]; exact hb)
    exact ⟨by rw [h1.1, h1.2]; rfl, h1.2⟩
  · have h1 := mpRequest_exp hb
    exact ⟨by rw [parse_of (h1.1 _ _ hm), h1.2], h1.2⟩

/-- C74, in part: replies.  Descriptions, group and meter features; lists of any length of flow, group and meter statistics,
group descriptions, meter configurations and table features.  Missing: see below. -/
theorem C74_replies_partial (rnd : Nat) (h : HdrArg) (t f : Nat) (bs pre post : Bytes) :
    (∀ r : Rec, t ∈ [0, 8, 11] → r.replyType = some t → r.Parseable → buildMpReply rnd h t f (.one r) = .ok bs →
      parse (pre ++ (bs ++ post)) pre.length = .ok (.mpReply ⟨5, 19, bs.length, h.xid rnd⟩ t f (.one r.wire)) ∧ bs.length = 16 + r.size) ∧
    (∀ l : List Rec, t ∈ [1, 6, 7, 9, 10, 12] → (∀ r ∈ l, r.replyType = some t ∧ r.Parseable) →
      buildMpReply rnd h t f (.many (l.map .tup)) = .ok bs →
      parse (pre ++ (bs ++ post)) pre.length = .ok (.mpReply ⟨5, 19, bs.length, h.xid rnd⟩ t f (.many ((l.map Rec.wire).map .tup))) ∧
      bs.length = 16 + (l.map Rec.size).sum) := by
  have hm := At.intro pre bs post _ rfl
  refine ⟨fun r hs ht hr hb => ?_, fun l hs hl hb => ?_⟩
  · have h1 := mpReply_one ht hs hr hb
    exact ⟨by rw [parse_of (h1.1 _ _ hm), h1.2], h1.2⟩
  · have h1 := mpReply_many hs hl hb
    exact ⟨by rw [parse_of (h1.1 _ _ hm), h1.2], h1.2⟩

/-- A concrete reply with two flows, and a concrete request. -/
example : (∃ bs, buildMpReply 1 .none 1 0 (.many ([Rec.flowStats none 1 2 3 4 5 6 7 8 9 10 (.tup ⟨none, none, .raw [1, 2, 3]⟩)
      (tups [.gotoTable none none 2]), .flowStats none 1 2 3 4 5 6 7 8 9 10 (.tup ⟨none, none, .none⟩) .none].map .tup)) = .ok bs) ∧
    (∀ r ∈ [Rec.flowStats none 1 2 3 4 5 6 7 8 9 10 (.tup ⟨none, none, .raw [1, 2, 3]⟩) (tups [.gotoTable none none 2]),
      .flowStats none 1 2 3 4 5 6 7 8 9 10 (.tup ⟨none, none, .none⟩) .none], r.replyType = some 1 ∧ r.Parseable) ∧
    (∃ bs, buildMpRequest 1 .none 1 0 (.one (.flowStatsReq none none none none none none)) = .ok bs) := by
  refine ⟨ok_of (by decide +kernel), ?_, ok_of (by decide +kernel)⟩
  simp only [List.mem_cons, List.not_mem_nil, or_false, forall_eq_or_imp, forall_eq]
  refine ⟨⟨rfl, ⟨_, rfl⟩, all_tups (by simp [Instr.Parseable])⟩, ⟨rfl, ⟨_, rfl⟩, trivial⟩⟩

/-- C74. The functions for aggregate requests, which cannot be built, and flow updates, which are built with a wrong length and never parsed
by `parse`, would return what the standard's bytes say. -/
theorem C74_unused_parsers (pre post : Bytes) (mt : MatchT) (is : Seq Instr) (mb ib : Bytes) (hm : buildMatch mt = .ok mb)
    (hi : seqBytes buildInstr is = .ok ib) (his : is.All Instr.Parseable) :
    (∀ t p g c cm, fits flowStatsReqFmt [.int t, .int p, .int g, .int c, .int cm] = true →
      parseAggregateReq (pre ++ (enc flowStatsReqFmt [.int t, .int p, .int g, .int c, .int cm] ++ (mb ++ post))) pre.length =
        .ok (.aggregateReq (some t) (some p) (some g) (some c) (some cm) (.tup (mt.wire mt.fields)), pre.length + 32 + mb.length)) ∧
    (∀ e t r i h p c, fits updateFullFmt [.int (24 + mb.length + ib.length), .int e, .int t, .int r, .int i, .int h, .int p, .int c] = true →
      parseUpdateFull (pre ++ (enc updateFullFmt [.int (24 + mb.length + ib.length), .int e, .int t, .int r, .int i, .int h, .int p, .int c] ++
        (mb ++ (ib ++ post)))) pre.length =
        .ok (.updateFull (some (24 + mb.length + ib.length)) e t r i h p c (.tup (mt.wire mt.fields)) (tups (is.values.map Instr.wire)),
          pre.length + 24 + mb.length + ib.length)) := by
  obtain ⟨hmrt, hml⟩ := rt_match hm
  obtain ⟨hparts, hil⟩ := seq_instrs his hi
  refine ⟨fun t p g c cm hf => ?_, fun e t r i h p c hf => ?_⟩
  · have ha := At.intro pre (enc flowStatsReqFmt [.int t, .int p, .int g, .int c, .int cm] ++ mb) post _ rfl
    rw [List.append_assoc] at ha
    generalize pre ++ _ = m at ha ⊢
    have hl := enc_length _ _ hf
    have hc : calcsize flowStatsReqFmt = 32 := rfl
    rw [parseAggregateReq, rd_at ha.left hf (by simp [exact, flowStatsReqFmt]) (five fun a b c d e => Rec.aggregateReq a b c d e) _ rfl, ok_bind]
    simp only [hc]
    rw [hmrt.at (ha.right (pre.length + 32) (by omega)), ok_bind]
  · have ha := At.intro pre (enc updateFullFmt [.int (24 + mb.length + ib.length), .int e, .int t, .int r, .int i, .int h, .int p, .int c] ++ (mb ++ ib)) post _ rfl
    simp only [List.append_assoc] at ha
    generalize pre ++ _ = m at ha ⊢
    have hl := enc_length _ _ hf
    have hc : calcsize updateFullFmt = 24 := rfl
    have hf' : fits [H, H, B, B, H, H, H, I, Q] [.int (24 + mb.length + ib.length), .int e, .int t, .int r, .int i, .int h, .int p, .int 0, .int c] = true := by
      simpa [fits, updateFullFmt] using hf
    have he : enc updateFullFmt [.int (24 + mb.length + ib.length), .int e, .int t, .int r, .int i, .int h, .int p, .int c] =
        enc [H, H, B, B, H, H, H, I, Q] [.int (24 + mb.length + ib.length), .int e, .int t, .int r, .int i, .int h, .int p, .int 0, .int c] := rfl
    have ha1 := ha.left
    rw [he] at ha1
    rw [parseUpdateFull]
    refine (rd_bind ha1 hf' (by simp [exact]) (by rfl)).trans ?_
    have hc' : calcsize [H, H, B, B, H, H, H, I, Q] = 24 := rfl
    simp only [hc']
    rw [pyAssert_true trivial, ok_bind]
    have hb := ha.right (pre.length + 24) (by omega)
    refine (congrArg (· >>= _) (hmrt.at hb.left)).trans ?_
    simp only [ok_bind]
    rw [whileFetch_at hparts (hb.right _ rfl) _ (by omega), ok_bind]
    simp only [Nat.add_assoc]

/-- A match and instructions that meet the hypotheses. -/
example : ∃ mb ib, buildMatch ⟨none, none, .raw [1, 2, 3]⟩ = .ok mb ∧ seqBytes buildInstr (tups [.gotoTable none none 3]) = .ok ib ∧
    (tups [.gotoTable none none 3] : Seq Instr).All Instr.Parseable ∧
    fits updateFullFmt [.int (24 + mb.length + ib.length), .int 1, .int 2, .int 3, .int 4, .int 5, .int 6, .int 7] = true :=
  ⟨_, _, rfl, rfl, all_tups (by simp [Instr.Parseable]), by decide +kernel⟩

/-- C74 is false of the code: parsing any built request for meters or meter configurations raises NameError. -/
theorem C74_meter_request_refuted (rnd : Nat) (h : HdrArg) (t f : Nat) (body : Body) (bs pre post : Bytes) (ht : t = 9 ∨ t = 10)
    (hb : buildMpRequest rnd h t f body = .ok bs) : parse (pre ++ (bs ++ post)) pre.length = .error .nameError := by
  obtain ⟨b, _, _, h4⟩ := mpRequest_at hb
  apply parse_error
  rw [(h4 _ _ (At.intro pre bs post _ rfl)).2]
  rcases ht with rfl | rfl <;> rfl

/-- C74 is false of the code: no aggregate statistics request can be built out of its fields; table description, queue
description and flow monitor requests cannot be built out of tuples; meter statistics cannot be built unless the caller
computes the length; replies with table descriptions, queue descriptions or flow updates cannot be built at all. -/
theorem C74_not_built_refuted (rnd : Nat) (h : HdrArg) (f : Nat) (bs : Bytes) :
    (∀ t p g c cm mt, buildRec (.aggregateReq t p g c cm mt) ≠ .ok bs) ∧
    (∀ t r, t ∈ [14, 15, 16] → buildMpRequest rnd h t f (.one r) ≠ .ok bs) ∧
    (∀ m fl p b ds dn bd, buildRec (.meterStats m none fl p b ds dn bd) ≠ .ok bs) ∧
    (∀ t body, t ∈ [14, 15, 16] → buildMpReply rnd h t f body ≠ .ok bs) := by
  refine ⟨fun t p g c cm mt hb => ?_, fun t r ht hb => ?_, fun m fl p b ds dn bd hb => ?_, fun t body ht hb => ?_⟩
  · simp only [buildRec, bind_ok, pack_eq_ok, pyAssert_ok, exists_const] at hb
    obtain ⟨d, ⟨hf, rfl⟩, h2, _⟩ := hb
    rw [enc_length _ _ hf] at h2
    simp [calcsize, flowStatsReqFmt, Item.width] at h2
  · obtain ⟨b, h1, _⟩ := mpRequest_at hb
    simp only [List.mem_cons, List.not_mem_nil, or_false] at ht
    rcases ht with rfl | rfl | rfl <;> simp [reqBody] at h1
  · simp [buildRec, bind_ok, packOpt] at hb
  · obtain ⟨b, h1, _⟩ := mpReply_at hb
    simp only [List.mem_cons, List.not_mem_nil, or_false] at ht
    rcases ht with rfl | rfl | rfl <;> cases h1

/-- C74 is false of the code: replies with a non-empty list of table, port or queue statistics are built but cannot be parsed. -/
theorem C74_statistics_refuted (rnd : Nat) (h : HdrArg) (t f : Nat) (l : List Rec) (bs pre post : Bytes) (hne : l ≠ [])
    (ht : t ∈ [3, 4, 5]) (hl : ∀ r ∈ l, r.replyType = some t) (hb : buildMpReply rnd h t f (.many (l.map .tup)) = .ok bs) (msg : Msg) :
    parse (pre ++ (bs ++ post)) pre.length ≠ .ok msg :=
  mpReply_never hne ht hl hb pre post msg

/-- C74 is false of the code: what comes back for a reply with port descriptions is never a list of ports, only of
properties. -/
theorem C74_port_description_refuted (rnd : Nat) (h : HdrArg) (f : Nat) (body : Body) (bs pre post : Bytes)
    (hb : buildMpReply rnd h 13 f body = .ok bs) (msg : Msg) (hp : parse (pre ++ (bs ++ post)) pre.length = .ok msg) :
    ∃ ps : List Pr, msg = .mpReply ⟨5, 19, bs.length, h.xid rnd⟩ 13 f (.many (ps.map fun p => .tup (.prop p))) :=
  mpReply_ports hb pre post hp

/-- C74 is false of the code: a single aggregate record, which is what the builder takes, comes back as a list. -/
theorem C74_aggregate_reply_refuted (rnd : Nat) (h : HdrArg) (f a b c : Nat) (bs pre post : Bytes)
    (hb : buildMpReply rnd h 2 f (.one (.aggregate a b c)) = .ok bs) :
    parse (pre ++ (bs ++ post)) pre.length = .ok (.mpReply ⟨5, 19, bs.length, h.xid rnd⟩ 2 f (.many [.tup (.aggregate a b c)])) := by
  have h1 := mpReply_aggregate hb
  rw [parse_of (h1.1 _ _ (At.intro pre bs post _ rfl)), h1.2]

/-- C74 is false of the code: a description with a manufacturer string that does not fill its field does not come back. -/
theorem C74_desc_refuted (rnd : Nat) (h : HdrArg) (f : Nat) (a : Bytes) (b c d e : Option Bytes) (bs pre post : Bytes) (ha : a.length < 256)
    (hb : buildMpReply rnd h 0 f (.one (.desc (some a) b c d e)) = .ok bs) :
    ∃ a' ≠ a, ∃ b' c' d' e', parse (pre ++ (bs ++ post)) pre.length =
      .ok (.mpReply ⟨5, 19, bs.length, h.xid rnd⟩ 0 f (.one (.desc (some a') b' c' d' e'))) := by
  refine ⟨inField 256 a, ?_, _, _, _, _, ((C74_replies_partial rnd h 0 f bs pre post).1 (.desc (some a) b c d e) (by simp) rfl trivial hb).1⟩
  intro he
  have : (inField 256 a).length = a.length := by rw [he]
  simp [inField] at this
  omega

/-- C74 is false of the code: the length in a flow update is eight too large. -/
theorem C74_update_refuted (l : Option Nat) (e t r i hd p c : Nat) (mt : Elem MatchT) (is : Seq Instr) (bs : Bytes)
    (h : buildRec (.updateFull l e t r i hd p c mt is) = .ok bs) : u16 bs 0 = bs.length + 8 := by
  simp only [buildRec, bind_ok, pack_eq_ok, ok_inj] at h
  obtain ⟨ib, hib, mb, hmb, _, ⟨hf, rfl⟩, rfl⟩ := h
  have hl := enc_length _ _ hf
  have hc : calcsize updateFullFmt = 24 := rfl
  have hf' := hf
  simp [fits, updateFullFmt] at hf'
  rw [List.length_append, List.length_append, hl, hc]
  simp [enc, updateFullFmt, encBE_2, be16, u16, u8]
  omega

/-- C74 is false of the code: the action lists among the table features raise TypeError when parsed. -/
theorem C74_table_actions_refuted (t l : Option Nat) (ids : Seq IdT) (bs pre post : Bytes) (h : buildTfProp (.actions t l ids) = .ok bs) :
    parseTfProp (pre ++ (bs ++ post)) pre.length = .error .typeError := by
  simp only [buildTfProp, bind_ok] at h
  obtain ⟨ib, hib, h⟩ := h
  obtain ⟨ty, rfl, hty, hf, rfl, hlen⟩ := tfProp_ok h
  have hm := At.intro pre (enc [H, H] [.int ty, .int (4 + ib.length)] ++ ib ++ nul (up8 (4 + ib.length) - (4 + ib.length))) post _ rfl
  rw [parseTfProp, peek_at hm.left.left hf, ok_bind]
  have hd : ∀ m n, parseTfPropOf ty m n = (do
      let (_, _) ← rd [H, H] m n (two fun a b => (a, b))
      .error .typeError) := by
    intro m n
    simp only [List.mem_cons, List.not_mem_nil, or_false] at hty
    rcases hty with rfl | rfl | rfl | rfl <;> rfl
  simp only
  rw [hd, peek_at hm.left.left hf]
  rfl

/-- C74 is false of the code: of a list of next tables which is not empty the parser does not pass over the numbers, so that
it takes them for the next property. -/
theorem C74_next_tables_refuted (t l : Option Nat) (b bs pre post : Bytes) (hb : b ≠ [])
    (h : buildTfProp (.tables t l (.raw b)) = .ok bs) (p : TfProp) (o : Nat)
    (hp : parseTfProp (pre ++ (bs ++ post)) pre.length = .ok (p, o)) : o < pre.length + bs.length := by
  simp only [buildTfProp, bind_ok, tableIdBytes, ok_inj] at h
  obtain ⟨_, rfl, h⟩ := h
  obtain ⟨ty, rfl, hty, hf, rfl, hlen⟩ := tfProp_ok h
  rw [hlen]
  have hm := At.intro pre (enc [H, H] [.int ty, .int (4 + b.length)] ++ b ++ nul (up8 (4 + b.length) - (4 + b.length))) post _ rfl
  have hd : ∀ m n, parseTfPropOf ty m n = (do
      let ((type, length), o) ← rd [H, H] m n (two fun a b => (a, b))
      if length < 4 then .error .structError
      else do
        let (ids, _) ← rd (List.replicate (length - 4) B) m n allInts
        .ok (.tables (some type) (some length) (.ints ids), o + (align length - length))) := by
    intro m n
    simp only [List.mem_cons, List.not_mem_nil, or_false] at hty
    rcases hty with rfl | rfl <;> rfl
  rw [parseTfProp, peek_at hm.left.left hf, ok_bind] at hp
  simp only at hp
  rw [hd, peek_at hm.left.left hf, ok_bind] at hp
  simp only at hp
  rw [if_neg (by omega)] at hp
  simp only [bind_ok, ok_inj, Prod.mk.injEq] at hp
  obtain ⟨_, _, _, rfl⟩ := hp
  have h1 := List.length_pos_of_ne_nil hb
  have h2 := up8_ge (4 + b.length)
  rw [align_eq]
  omega

example : (∃ bs, buildMpRequest 1 .none 9 0 (.one (.meterReq 7)) = .ok bs) ∧
    (∃ bs, buildMpReply 1 .none 3 0 (.many ([Rec.tableStats 1 2 3 4].map .tup)) = .ok bs) ∧
    (∃ bs, buildMpReply 1 .none 4 0 (.many ([Rec.portStats none 1 2 3 [4, 5, 6, 7, 8, 9, 10, 11] .none].map .tup)) = .ok bs) ∧
    (∃ bs, buildMpReply 1 .none 5 0 (.many ([Rec.queueStats none 1 2 3 4 5 6 7 .none].map .tup)) = .ok bs) ∧
    (∃ bs, buildMpReply 1 .none 13 0 (.many [.tup (.port ⟨1, none, [1, 2, 3, 4, 5, 6], [97], 2, 3, tups [.portEthernet none none 1 2 3 4 5 6]⟩)]) = .ok bs) ∧
    (∃ bs, buildMpReply 1 .none 2 0 (.one (.aggregate 1 2 3)) = .ok bs) ∧
    (∃ bs, buildMpReply 1 .none 0 0 (.one (.desc (some [84, 87]) none none none none)) = .ok bs) ∧
    (∃ bs, buildRec (.updateFull none 1 2 3 4 5 6 7 (.tup ⟨none, none, .none⟩) .none) = .ok bs) ∧
    (∃ bs, buildTfProp (.actions (some 4) none (tups [⟨0, none, none⟩])) = .ok bs) ∧
    (∃ bs p o, buildTfProp (.tables (some 2) none (.raw [1, 2])) = .ok bs ∧ parseTfProp ([] ++ (bs ++ [])) 0 = .ok (p, o)) :=
  ⟨ok_of (by decide +kernel),
    ok_of (by decide +kernel),
    ok_of (by decide +kernel),
    ok_of (by decide +kernel),
    ok_of (by decide +kernel),
    ok_of (by decide +kernel),
    ok_of (by decide +kernel),
    ok_of (by decide +kernel),
    ok_of (by decide +kernel),
    ⟨[0, 2, 0, 6, 1, 2, 0, 0], (ok_of (by decide +kernel)).elim fun (p, o) h => ⟨p, o, by decide +kernel, h⟩⟩⟩

end Twink.Of14
