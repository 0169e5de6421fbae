import Verif.Proof.Of14Again

/-!
# C86: building a parsed OpenFlow 1.4 message again
-/

namespace Twink.Of14
open Fmt Of13 Spec

theorem redone (c : Call) : ∀ (rnd : Nat) (h : HdrArg) (bs : Bytes), c.Rebuildable h → c.run rnd h = .ok bs → Redone bs := by
  induction c with
  | hello es =>
    intro rnd h bs hc hb
    refine redone_call (c := .hello es) hc hb fun rnd' => ?_
    simp only [Call.run, buildHello, bind_ok] at hb
    obtain ⟨x, h1, h2⟩ := hb
    simp only [Call.wire, objMsg, buildHello, bind_ok]
    exact ⟨x, again_seq (fun _ _ hp h => again_hello hp h) hc h1, (made_one h2).one⟩
  | error t c d =>
    intro rnd h bs hc hb
    refine redone_call (c := .error t c d) trivial hb fun rnd' => ?_
    simp only [Call.run, buildError, bind_ok] at hb
    obtain ⟨x, h1, h2⟩ := hb
    simp only [Call.wire, objMsg, buildError, bind_ok]
    exact ⟨x, h1, (made_one h2).one⟩
  | errorExp c x d =>
    intro rnd h bs hc hb
    have hb' : buildError rnd h 0xffff c (some (be32 x ++ d)) = .ok bs := by
      simp only [Call.run, buildErrorExp, bind_ok, pack_eq_ok] at hb
      obtain ⟨_, ⟨hf, rfl⟩, hb⟩ := hb
      simp only [buildError, bind_ok, pack_eq_ok, Option.getD_some]
      refine ⟨_, ⟨by simp [fits] at hf ⊢; omega, rfl⟩, ?_⟩
      rw [← hb]
      simp [enc, encBE_4]
    refine ⟨_, _, error_ok hb', fun rnd' => ?_⟩
    simp only [buildError, bind_ok] at hb'
    obtain ⟨y, h1, h2⟩ := hb'
    simp only [objMsg, buildError, bind_ok]
    exact ⟨y, h1, (made_one h2).one⟩
  | features a b c d e =>
    intro rnd h bs hc hb
    refine redone_call (c := .features a b c d e) trivial hb fun rnd' => ?_
    simp only [Call.run, buildFeatures, bind_ok] at hb
    obtain ⟨x, h1, y, h2, h3⟩ := hb
    simp only [Call.wire, objMsg, buildFeatures, bind_ok]
    exact ⟨x, h1, y, (made_one h2).one, h3⟩
  | config f m =>
    intro rnd h bs hc hb
    refine redone_call (c := .config f m) trivial hb fun rnd' => ?_
    simp only [Call.run, buildConfig, bind_ok] at hb
    obtain ⟨x, h1, y, h2, h3⟩ := hb
    simp only [Call.wire, objMsg, buildConfig, bind_ok]
    obtain ⟨ht, h2⟩ := made_among h2 0
    exact ⟨x, h1, y, h2.among ht, h3⟩
  | packetIn b tl r t ck mt d =>
    intro rnd h bs hc hb
    obtain ⟨mt, rfl⟩ := hc
    refine redone_call (c := .packetIn b tl r t ck (.tup mt) d) ⟨_, rfl⟩ hb fun rnd' => ?_
    simp only [Call.run, buildPacketIn, bind_ok] at hb
    obtain ⟨x, h1, y, h2, h3⟩ := hb
    simp only [Call.wire, objMsg, buildPacketIn, bind_ok]
    exact ⟨x, h1, y, again_match h2, (made_one h3).one⟩
  | flowRemoved a b c d e f g i j k mt =>
    intro rnd h bs hc hb
    obtain ⟨mt, rfl⟩ := hc
    refine redone_call (c := .flowRemoved a b c d e f g i j k (.tup mt)) ⟨_, rfl⟩ hb fun rnd' => ?_
    simp only [Call.run, buildFlowRemoved, bind_ok] at hb
    obtain ⟨x, h1, y, h2, h3⟩ := hb
    simp only [Call.wire, objMsg, buildFlowRemoved, bind_ok]
    exact ⟨x, h1, y, again_match h2, (made_one h3).one⟩
  | packetOut b ip as d =>
    intro rnd h bs hc hb
    refine redone_call (c := .packetOut b ip as d) hc hb fun rnd' => ?_
    simp only [Call.run, buildPacketOut, bind_ok] at hb
    obtain ⟨x, h1, y, h2, h3⟩ := hb
    simp only [Call.wire, objMsg, buildPacketOut, bind_ok]
    exact ⟨x, again_actions hc h1, y, h2, (made_one h3).one⟩
  | flowMod ck cm t cmd i hd p b op og f im mt is =>
    intro rnd h bs hc hb
    obtain ⟨⟨mt, rfl⟩, hc⟩ := hc
    refine redone_call (c := .flowMod ck cm t cmd i hd p b op og f im (.tup mt) is) ⟨⟨_, rfl⟩, hc⟩ hb fun rnd' => ?_
    simp only [Call.run, buildFlowMod, bind_ok] at hb
    obtain ⟨x, h1, y, h2, z, h3, h4⟩ := hb
    simp only [Call.wire, objMsg, buildFlowMod, bind_ok]
    exact ⟨x, again_instrs hc h1, y, h2, z, again_match h3, (made_one h4).one⟩
  | groupMod c t g bk =>
    intro rnd h bs hc hb
    refine redone_call (c := .groupMod c t g bk) hc hb fun rnd' => ?_
    simp only [Call.run, buildGroupMod, bind_ok] at hb
    obtain ⟨x, h1, y, h2, h3⟩ := hb
    simp only [Call.wire, objMsg, buildGroupMod, bind_ok]
    exact ⟨x, again_buckets hc h1, y, h2, (made_one h3).one⟩
  | mpRequest t f body =>
    intro rnd h bs hc hb
    have hb' : buildMpRequest rnd h t f body = .ok bs := hb
    rcases hc with hc | ⟨rfl, rfl⟩ | ⟨rfl, d, rfl⟩ | ⟨r, rfl, hr, hp⟩
    · refine redone_call (c := .mpRequest t f body) (.inl hc) hb (again_mpRequest hb' ?_)
      intro b h1
      unfold reqBody at h1
      unfold objReqBody
      rw [if_pos hc] at h1 ⊢
      exact h1
    · exact redone_call (c := .mpRequest 14 f (.raw [])) (.inr (.inl ⟨rfl, rfl⟩)) hb (again_mpRequest hb' fun b h1 => h1)
    · exact redone_call (c := .mpRequest 0xffff f (.raw d)) (.inr (.inr (.inl ⟨rfl, d, rfl⟩))) hb (again_mpRequest hb' fun b h1 => h1)
    · refine redone_call (c := .mpRequest t f (.one r)) (.inr (.inr (.inr (.inl ⟨r, rfl, hr, hp⟩)))) hb (again_mpRequest hb' ?_)
      intro b h1
      have h15 : t ∉ [15, 16] := by
        intro h15
        simp only [List.mem_cons, List.not_mem_nil, or_false] at h15
        rcases h15 with rfl | rfl <;> cases h1
      have hm := requestType_mem hr hp h15
      simp only [List.mem_cons, List.not_mem_nil, or_false, not_or] at h15
      rw [reqBody_one hr h15] at h1
      have hn : t ∉ [0, 3, 7, 8, 11, 13] := by
        simp only [List.mem_cons, List.not_mem_nil, or_false] at hm ⊢; omega
      rw [reqWire, if_neg hn, objReqBody_one hm]
      exact again_rec hp ⟨t, .inr ⟨hm, hr⟩⟩ h1
  | mpRequestOf t f r =>
    intro rnd h bs hc hb
    obtain ⟨h15, hr, hp⟩ := hc
    have hm := requestType_mem hr hp h15
    simp only [Call.run, bind_ok] at hb
    obtain ⟨b, h1, h2⟩ := hb
    refine redone_call (c := .mpRequestOf t f r) (rnd := rnd) (h := h) ⟨hr, hp⟩ (by simp only [Call.run, bind_ok]; exact ⟨b, h1, h2⟩)
      (again_mpRequest h2 ?_)
    intro b' h3
    have : reqBody t (.raw b) = .ok b := by
      simp only [List.mem_cons, List.not_mem_nil, or_false] at hm
      rcases hm with rfl | rfl | rfl | rfl <;> rfl
    rw [this] at h3
    injection h3 with h3
    subst h3
    rw [objReqBody_one hm]
    exact again_rec hp ⟨t, .inr ⟨hm, hr⟩⟩ h1
  | mpReply t f body =>
    intro rnd h bs hc hb
    have hb' : buildMpReply rnd h t f body = .ok bs := hb
    rcases hc with ⟨hs, r, rfl, ht, hp⟩ | ⟨hs, l, rfl, hl⟩
    · have hs2 : t ∈ [0, 2, 8, 11] := by
        simp only [List.mem_cons, List.not_mem_nil, or_false] at hs ⊢
        omega
      refine redone_call (c := .mpReply t f (.one r)) (.inl ⟨hs2, r, rfl, ht, hp⟩) hb (again_mpReply hb' ?_)
      intro b h1
      have hn : t ≠ 2 := by rintro rfl; simp at hs
      have hm : t ∈ [0, 1, 6, 7, 8, 9, 10, 11] := by
        simp only [List.mem_cons, List.not_mem_nil, or_false] at hs ⊢
        omega
      rw [repWire, if_neg hn]
      unfold repBody at h1
      unfold objRepBody
      rw [if_pos hs2] at h1 ⊢
      exact again_rec hp ⟨t, .inl ⟨hm, ht⟩⟩ h1
    · have hs2 : t ∈ [1, 6, 7, 9, 10, 12] := by
        simp only [List.mem_cons, List.not_mem_nil, or_false] at hs ⊢
        omega
      refine redone_call (c := .mpReply t f (.many (l.map .tup))) (.inr (.inl ⟨hs2, l, rfl, hl⟩)) hb (again_mpReply hb' ?_)
      intro b h1
      have hm : t ∈ [0, 1, 6, 7, 8, 9, 10, 11] := by
        simp only [List.mem_cons, List.not_mem_nil, or_false] at hs ⊢
        omega
      have hi : t ∉ [0, 2, 8, 11] := by
        simp only [List.mem_cons, List.not_mem_nil, or_false] at hs ⊢
        omega
      have hj : t ∈ [1, 3, 4, 5, 6, 7, 9, 10, 12, 13] := by
        simp only [List.mem_cons, List.not_mem_nil, or_false] at hs ⊢
        omega
      unfold repBody at h1
      unfold objRepBody
      rw [if_neg hi, if_pos hj] at h1 ⊢
      have := again_recs (fun r hr => ⟨(hl r hr).2, t, .inl ⟨hm, (hl r hr).1⟩⟩) h1
      rw [List.map_map] at this
      simp only [repWire, List.map_map]
      exact this
  | role r g =>
    intro rnd h bs hc hb
    simp only [Call.run, buildRole, bind_ok] at hb
    obtain ⟨x, _, hb⟩ := hb
    obtain ⟨ht, hb⟩ := made_among hb 0
    exact redone_other hb (by simpa using ht)
  | roleStatus r rs g ps =>
    intro rnd h bs hc hb
    simp only [Call.run, buildRoleStatus, bind_ok] at hb
    obtain ⟨x, _, y, _, hb⟩ := hb
    obtain ⟨ht, hb⟩ := made_among hb 0
    exact redone_other hb (by simpa using ht)
  | async ps =>
    intro rnd h bs hc hb
    refine redone_call (c := .async ps) hc hb fun rnd' => ?_
    simp only [Call.run, buildAsync, bind_ok] at hb
    obtain ⟨x, h1, h2⟩ := hb
    obtain ⟨ht, h2⟩ := made_among h2 0
    simp only [Call.wire, objMsg, buildAsync, bind_ok]
    exact ⟨x, again_reasons hc h1, h2.among ht⟩
  | meterMod c f m bd =>
    intro rnd h bs hc hb
    refine redone_call (c := .meterMod c f m bd) hc hb fun rnd' => ?_
    obtain ⟨hbd, hr, hv, ht, hl⟩ := hc
    simp only [Call.run, buildMeterMod, bind_ok, pack_eq_ok, ok_inj] at hb
    obtain ⟨kb, hkb, hd, hhd, _, ⟨hf, rfl⟩, rfl⟩ := hb
    have hkl := (seq_bands' hbd hkb).2
    have hf2 : fits [H, H, I] [.int c, .int f, .int m] = true := by simpa [fits] using hf
    have key := meterMod_made (kb := kb) hhd hf2 hr hv ht (by omega)
    have hfit := key.fits
    have hdl : 8 + (enc [H, H, I] [.int c, .int f, .int m] ++ kb).length = 16 + 16 * bd.values.length := by
      rw [List.length_append, enc_length _ _ hf2]
      show 8 + (8 + kb.length) = _
      omega
    rw [hdl] at hfit
    have hhd2 : objHdr rnd' (Hdr.arg ⟨5, 29, 16 + 16 * bd.values.length, h.xid rnd⟩) =
        .ok (enc hdrFmt [.int 5, .int 29, .int (16 + 16 * bd.values.length), .int (h.xid rnd)]) := by
      simp only [Hdr.arg, objHdr, ofpHeader, packOpt, Option.getD_some, pyAssert_true, ok_bind, pack, hfit, if_true]
    have key2 := meterMod_made (kb := kb) hhd2 hf2 (by intro b hb; cases hb) rfl rfl
      (by show 16 + 16 * bd.values.length = _; omega)
    simp only [Call.wire, Call.size, objMsg, buildMeterMod, bind_ok, pack_eq_ok, ok_inj]
    refine ⟨kb, again_bands hbd hkb, _, hhd2, _, ⟨by simpa [fits] using hf, rfl⟩, ?_⟩
    rw [key.eq, key2.eq]
    rfl
  | bundleCtrl b t f ps =>
    intro rnd h bs hc hb
    refine redone_call (c := .bundleCtrl b t f ps) hc hb fun rnd' => ?_
    simp only [Call.run, buildBundleCtrl, bind_ok, (noProps hc).1, ok_inj] at hb
    obtain ⟨x, rfl, y, h2, h3⟩ := hb
    simp only [Call.wire, objMsg, buildBundleCtrl, bind_ok, (noProps hc).2]
    exact ⟨[], rfl, y, h2, (made_one h3).one⟩
  | bundleAdd b f rnd1 h1 c ps ih =>
    intro rnd h bs hc hb
    simp only [Call.run, bind_ok] at hb
    obtain ⟨ms, hms, hb⟩ := hb
    obtain ⟨im, sz, hi, ho⟩ := ih rnd1 h1 ms hc.1 hms
    refine ⟨_, _, bundleAdd_ok hi hb hc.2, fun rnd' => ?_⟩
    simp only [buildBundleAdd, bind_ok, (noProps hc.2).1, ok_inj] at hb
    obtain ⟨x, rfl, y, h2, z, rfl, h3⟩ := hb
    simp only [objMsg, buildBundleAdd, bind_ok, (noProps hc.2).2]
    exact ⟨[], rfl, y, h2, _, ho rnd', (made_one h3).one⟩
  | experimenter x t d =>
    intro rnd h bs hc hb
    refine redone_call (c := .experimenter x t d) trivial hb fun rnd' => ?_
    simp only [Call.run, buildExperimenter, bind_ok] at hb
    obtain ⟨x, h1, h2⟩ := hb
    simp only [Call.wire, objMsg, buildExperimenter, bind_ok]
    exact ⟨x, h1, (made_one h2).one⟩
  | other d =>
    intro rnd h bs hc hb
    exact redone_call (c := .other d) hc hb fun rnd' => (made_named (fun _ e => by cases e) hb 0).2.any
  | _ => intro rnd h bs hc hb; exact hc.elim

/-- C86, in part. A message made by the library's builders (with arguments of the kinds that can be parsed) is parsed, wherever it
stands, and the builder called with the parsed tuple gives the same bytes, whatever transaction id it draws.  Missing: the calls excluded by
`Call.Rebuildable`, see the refutations and C72, C73. -/
theorem C86_message_partial (rnd rnd' : Nat) (h : HdrArg) (c : Call) (bs pre post : Bytes) (hc : c.Rebuildable h) (hb : c.run rnd h = .ok bs) :
    ∃ msg, parse (pre ++ (bs ++ post)) pre.length = .ok msg ∧ objMsg rnd' msg = .ok bs := by
  obtain ⟨msg, _, hok, ho⟩ := redone c rnd h bs hc hb
  exact ⟨msg, parse_of (hok.1 _ _ (At.intro pre bs post _ rfl)), ho rnd'⟩

/-- Calls that meet the hypotheses: a FLOW_MOD with a set-field action that needs padding inside of a bundle inside of a bundle; a reply with two
flows. -/
example : (∃ bs, (Call.bundleAdd 1 2 3 .none (.bundleAdd 4 5 6 .none (.flowMod 1 2 3 0 5 6 7 none none none 8 9
      (.tup ⟨none, none, .items [.raw [0x80, 0, 0, 4, 0, 0, 0, 1]]⟩)
      (tups [.actions (some 4) none (tups [.setField none none [0x80, 0, 0x0a, 2, 8, 0], .output none none 3 0])])) .none) (.items [])).run 1 .none = .ok bs) ∧
    (Call.bundleAdd 1 2 3 .none (.bundleAdd 4 5 6 .none (.flowMod 1 2 3 0 5 6 7 none none none 8 9
      (.tup ⟨none, none, .items [.raw [0x80, 0, 0, 4, 0, 0, 0, 1]]⟩)
      (tups [.actions (some 4) none (tups [.setField none none [0x80, 0, 0x0a, 2, 8, 0], .output none none 3 0])])) .none) (.items [])).Rebuildable .none := by
  refine ⟨ok_of (by decide +kernel), ⟨⟨⟨_, rfl⟩, all_tups ?_⟩, .inl rfl⟩, .inr rfl⟩
  simp only [List.mem_singleton, forall_eq]
  exact all_tups (by simp [Action.Parseable])

example : (∃ bs, (Call.mpReply 1 0 (.many ([Rec.flowStats none 1 2 3 4 5 6 7 8 9 10 (.tup ⟨none, none, .none⟩) .none,
      .flowStats none 1 2 3 4 5 6 7 8 9 11 (.tup ⟨none, none, .none⟩) (tups [.gotoTable none none 3])].map .tup))).run 1 .none = .ok bs) ∧
    (Call.mpReply 1 0 (.many ([Rec.flowStats none 1 2 3 4 5 6 7 8 9 10 (.tup ⟨none, none, .none⟩) .none,
      .flowStats none 1 2 3 4 5 6 7 8 9 11 (.tup ⟨none, none, .none⟩) (tups [.gotoTable none none 3])].map .tup))).Rebuildable .none := by
  refine ⟨ok_of (by decide +kernel), .inr ⟨by decide, _, rfl, ?_⟩⟩
  simp only [List.mem_cons, List.not_mem_nil, or_false, forall_eq_or_imp, forall_eq]
  exact ⟨⟨rfl, ⟨_, rfl⟩, trivial⟩, rfl, ⟨_, rfl⟩, all_tups (by simp [Instr.Parseable])⟩

/-! ### where it is false -/

/-- C86 is false of the code: a parsed forwarded request cannot be built again, there is no function with the name of its class. -/
theorem C86_request_forward_refuted (rnd rnd' rnd1 : Nat) (h h1 : HdrArg) (c : Call) (bs pre post : Bytes) (hc : c.Parseable h1)
    (hb : (Call.requestForward rnd1 h1 c).run rnd h = .ok bs) :
    ∃ msg, parse (pre ++ (bs ++ post)) pre.length = .ok msg ∧ objMsg rnd' msg = .error .nameError :=
  ⟨_, (C72_messages_partial (.requestForward rnd1 h1 c) rnd h bs pre post hc hb).1, rfl⟩

/-- C86 is false of the code: nor a bundle with one in it. -/
theorem C86_bundle_refuted (rnd rnd' rnd1 rnd2 : Nat) (h h1 h2 : HdrArg) (b f : Nat) (c : Call) (bs pre post : Bytes) (hc : c.Parseable h2)
    (hb : (Call.bundleAdd b f rnd1 h1 (.requestForward rnd2 h2 c) .none).run rnd h = .ok bs) :
    ∃ msg, parse (pre ++ (bs ++ post)) pre.length = .ok msg ∧ objMsg rnd' msg = .error .nameError := by
  refine ⟨_, (C72_messages_partial (.bundleAdd b f rnd1 h1 (.requestForward rnd2 h2 c) .none) rnd h bs pre post ⟨hc, .inl rfl⟩ hb).1, ?_⟩
  simp only [Call.run, bind_ok, buildBundleAdd] at hb
  obtain ⟨_, _, _, _, d, hd, _⟩ := hb
  simp only [Call.wire, objMsg, buildBundleAdd, hd]
  rfl

/-- C86 is false of the code: TABLE_MOD comes back with a list of properties, and the builder adds it to a byte string. -/
theorem C86_table_mod_refuted (rnd rnd' : Nat) (h : HdrArg) (t cf : Nat) (ps : Seq Pr) (bs pre post : Bytes) (hp : ps.All Pr.ForTable)
    (hb : (Call.tableModOf t cf ps).run rnd h = .ok bs) :
    ∃ msg, parse (pre ++ (bs ++ post)) pre.length = .ok msg ∧ objMsg rnd' msg = .error .typeError := by
  refine ⟨_, (C72_messages_partial (.tableModOf t cf ps) rnd h bs pre post hp hb).1, ?_⟩
  simp only [Call.run, bind_ok, buildTableMod] at hb
  obtain ⟨_, _, d, hd, _⟩ := hb
  simp only [Call.wire, objMsg, buildTableMod, hd]
  rfl

theorem objBody_12 {r : Rec} {e : Err} (hr : objRec r = .error e) (l : List (Elem Rec)) :
    objRepBody 12 (.many (.tup r :: l)) = .error e ∧ objReqBody 12 (.many (.tup r :: l)) = .error e := by
  have : join objRec (.tup r :: l) = .error e := by
    simp only [join, obj, hr]
    rfl
  exact ⟨this, this⟩

/-- C86 is false of the code: table features come back as tuples with the class name of something else. -/
theorem C86_table_features_refuted (rnd rnd' : Nat) (h : HdrArg) (f : Nat) (r : Rec) (l : List Rec) (bs pre post : Bytes)
    (hl : ∀ x ∈ r :: l, x.replyType = some 12 ∧ x.Parseable) :
    ((Call.mpReply 12 f (.many ((r :: l).map .tup))).run rnd h = .ok bs →
      ∃ msg, parse (pre ++ (bs ++ post)) pre.length = .ok msg ∧ objMsg rnd' msg = .error .typeError) ∧
    ((Call.mpRequest 12 f (.many ((r :: l).map .tup))).run rnd h = .ok bs →
      ∃ msg, parse (pre ++ (bs ++ post)) pre.length = .ok msg ∧ objMsg rnd' msg = .error .typeError) := by
  have hr := (hl r (by simp)).1
  have hw : objRec r.wire = .error .typeError := by
    cases r <;> simp [Rec.replyType] at hr
    rfl
  refine ⟨fun hb => ⟨_, (C72_messages_partial (.mpReply 12 f (.many ((r :: l).map .tup))) rnd h bs pre post (Or.inr (.inl ⟨by decide, _, rfl, hl⟩)) hb).1, ?_⟩,
    fun hb => ⟨_, (C72_messages_partial (.mpRequest 12 f (.many ((r :: l).map .tup))) rnd h bs pre post (Or.inr (.inr (.inr (.inr ⟨rfl, _, rfl, hl⟩)))) hb).1, ?_⟩⟩
  · simp only [Call.wire, repWire, reqWire, if_true, objMsg, List.map_cons]
    rw [(objBody_12 hw _).1]
    rfl
  · simp only [Call.wire, repWire, reqWire, if_true, objMsg, List.map_cons]
    rw [(objBody_12 hw _).2]
    rfl

/-- C86 is false of the code: requests for descriptions of queues and flow monitors come back as tuples, which the builder adds to a byte
string. -/
theorem C86_request_refuted (rnd rnd' : Nat) (h : HdrArg) (t f : Nat) (r : Rec) (bs pre post : Bytes) (ht : t = 15 ∨ t = 16)
    (hr : r.requestType = some t) (hp : r.Parseable) (hb : (Call.mpRequestOf t f r).run rnd h = .ok bs) :
    ∃ msg, parse (pre ++ (bs ++ post)) pre.length = .ok msg ∧ objMsg rnd' msg = .error .typeError := by
  refine ⟨_, (C72_messages_partial (.mpRequestOf t f r) rnd h bs pre post ⟨hr, hp⟩ hb).1, ?_⟩
  rcases ht with rfl | rfl <;> rfl

/-- C86 is false of the code: experimenter replies come back as a tuple, aggregate statistics as a list, and the builder accepts neither. -/
theorem C86_reply_refuted (rnd rnd' : Nat) (h : HdrArg) (f : Nat) (bs pre post : Bytes) :
    (∀ d, 8 ≤ d.length → (Call.mpReply 0xffff f (.raw d)).run rnd h = .ok bs →
      ∃ msg, parse (pre ++ (bs ++ post)) pre.length = .ok msg ∧ objMsg rnd' msg = .error .valueError) ∧
    (∀ a b c, (Call.mpReply 2 f (.one (.aggregate a b c))).run rnd h = .ok bs →
      ∃ msg, parse (pre ++ (bs ++ post)) pre.length = .ok msg ∧ objMsg rnd' msg = .error .valueError) :=
  ⟨fun d hd hb => ⟨_, (C72_messages_partial (.mpReply 0xffff f (.raw d)) rnd h bs pre post (Or.inr (.inr ⟨rfl, d, rfl, hd⟩)) hb).1, rfl⟩,
    fun a b c hb => ⟨_, (C72_messages_partial (.mpReply 2 f (.one (.aggregate a b c))) rnd h bs pre post (Or.inl ⟨by decide, _, rfl, rfl, trivial⟩) hb).1, rfl⟩⟩

/-- C86 is false of the code: a METER_MOD whose header was given without the length is built again without its bands. -/
theorem C86_meter_mod_refuted (rnd rnd' : Nat) (v x : Option Nat) (c f mt : Nat) (bd : Seq Band) (bs pre post : Bytes)
    (hb : buildMeterMod rnd (.tup v (some 29) none x) c f mt bd = .ok bs) :
    ∃ msg, parse (pre ++ (bs ++ post)) pre.length = .ok msg ∧ objMsg rnd' msg = .ok (bs.take 16) := by
  refine ⟨_, C72_meter_mod_refuted rnd v x c f mt bd bs pre post hb, ?_⟩
  simp only [buildMeterMod, bind_ok, pack_eq_ok, ok_inj] at hb
  obtain ⟨kb, hkb, hd, hhd, _, ⟨hf, rfl⟩, rfl⟩ := hb
  obtain ⟨t', ht, hfit, rfl⟩ := ofpHeader_ok hhd
  injection ht with ht
  subst ht
  have hhd2 : objHdr rnd' (Hdr.arg ⟨5, 29, 8, x.getD rnd⟩) = .ok (enc hdrFmt [.int 5, .int 29, .int 8, .int (x.getD rnd)]) := by
    have hfit : fits hdrFmt [.int 5, .int 29, .int 8, .int (x.getD rnd)] = true := hfit
    simp only [Hdr.arg, objHdr, ofpHeader, packOpt, Option.getD_some, pyAssert_true, ok_bind, pack, hfit, if_true]
  simp only [objMsg, buildMeterMod, bind_ok, pack_eq_ok, ok_inj]
  refine ⟨[], rfl, _, hhd2, _, ⟨hf, rfl⟩, ?_⟩
  rw [List.take_left' (by rw [enc_length _ _ hf]; rfl), List.append_nil]
  rfl

/-- C86 is false of the code: a parsed PORT_MOD is built again, if at all, for the port with the number 0x05100000 plus the number of bytes, to
whatever port it was addressed. -/
theorem C86_port_mod_refuted (rnd rnd' : Nat) (h : HdrArg) (p : Nat) (hw : Bytes) (c k : Nat) (ps : Seq Pr) (bs pre post : Bytes)
    (hb : buildPortMod rnd h p hw c k ps = .ok bs) (msg : Msg) (hp : parse (pre ++ (bs ++ post)) pre.length = .ok msg) (bs' : Bytes)
    (ho : objMsg rnd' msg = .ok bs') : decBE ((bs'.drop 8).take 4) = 0x05100000 + bs.length := by
  obtain ⟨hw', c', k', ps', rfl⟩ := C72_port_mod_refuted rnd h p hw c k ps bs pre post hb msg hp
  simp only [objMsg, buildPortMod, bind_ok, pack_eq_ok] at ho
  obtain ⟨pb, _, _, ⟨hf, rfl⟩, ho⟩ := ho
  have hm := made_one ho
  have hlt : 0x05100000 + bs.length < 2 ^ 32 := by
    simp [fits, portModFmt] at hf
    omega
  rw [hm.eq, List.drop_left' (hdr_length _ _ _ _)]
  have e : enc portModFmt [.int (0x05100000 + bs.length), .str hw', .int c', .int k'] ++ pb =
      encBE 4 (0x05100000 + bs.length) ++ (enc [X 4, S 6, X 2, I, I] [.str hw', .int c', .int k'] ++ pb) := by
    show (encBE 4 (0x05100000 + bs.length) ++ _) ++ pb = _
    rw [List.append_assoc]
  rw [e, List.take_left' (encBE_length _ _), decBE_encBE]
  exact hlt

/-- All of these messages can be built. -/
example : (∃ bs, (Call.requestForward 4 .none (.error 1 2 (some [3]))).run 1 .none = .ok bs) ∧
    (∃ bs, (Call.bundleAdd 1 2 3 .none (.requestForward 4 .none (.error 1 2 (some [3]))) .none).run 1 .none = .ok bs) ∧
    (∃ bs, (Call.tableModOf 1 2 (tups [.vacancy none none 1 2 3])).run 1 .none = .ok bs) ∧
    (∃ bs, (Call.mpReply 12 0 (.many ([Rec.tableFeatures none 1 [97] 2 3 4 5 .none].map .tup))).run 1 .none = .ok bs) ∧
    (∃ bs, (Call.mpRequestOf 15 0 (.queueDescReq (some 1) (some 2))).run 1 .none = .ok bs) ∧
    (∃ bs, (Call.mpReply 0xffff 0 (.raw [0, 0, 0, 1, 0, 0, 0, 2, 3])).run 1 .none = .ok bs) ∧
    (∃ bs, (Call.mpReply 2 0 (.one (.aggregate 1 2 3))).run 1 .none = .ok bs) ∧
    (∃ bs, buildMeterMod 1 (.tup none (some 29) none none) 2 3 4 (tups [.drop none none 1 2]) = .ok bs ∧ bs.take 16 ≠ bs) ∧
    (∃ bs msg bs', buildPortMod 1 .none 2 [0, 0, 0, 0, 5, 6] 3 4 .none = .ok bs ∧ parse bs 0 = .ok msg ∧ objMsg 1 msg = .ok bs') := by
  refine ⟨ok_of (by decide +kernel), ok_of (by decide +kernel), ok_of (by decide +kernel), ok_of (by decide +kernel), ok_of (by decide +kernel),
    ok_of (by decide +kernel), ok_of (by decide +kernel), ⟨_, rfl, by decide +kernel⟩, ?_⟩
  obtain ⟨bs', h⟩ := ok_of (x := (do
    let bs ← buildPortMod 1 .none 2 [0, 0, 0, 0, 5, 6] 3 4 .none
    let msg ← parse bs 0
    objMsg 1 msg : Py Bytes)) (by decide +kernel)
  simp only [bind_ok] at h
  obtain ⟨bs, h1, msg, h2, h3⟩ := h
  exact ⟨bs, msg, bs', h1, h2, h3⟩

end Twink.Of14
