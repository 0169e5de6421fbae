import Verif.Proof.Of14Layout
import Verif.Proof.HelloSpec
import Verif.Props.Of14Header
import Verif.Props.Of13Layout

/-!
# C76: OpenFlow 1.4 messages have the layout of the standard

`Spec/Of14Layout` writes the structures down byte by byte.
-/

namespace Twink.Of14
open Fmt Spec Of13

/-- C76, in part. A message consists of the header and the body of the wire format, whatever the arguments: every field
at its place with its width in network byte order, padding zero, the nested structures and messages in the given order,
and all lengths right.  Missing is what `Call.Right` excludes; the theorems below show that the layout is wrong there. -/
theorem C76_layout_partial (rnd : Nat) (h : HdrArg) (c : Call) (bs : Bytes) (hr : c.Right h) (hb : c.run rnd h = .ok bs) :
    bs = ofHeader 5 (c.theType h) (8 + c.body.length) (h.xid rnd) ++ c.body := by
  induction c generalizing rnd h bs <;> simp only [Call.run, buildHello, buildError, buildErrorExp, buildFeatures, buildConfig, buildPacketIn, buildFlowRemoved,
    buildPortStatus, buildPacketOut, buildFlowMod, buildGroupMod, buildPortMod, buildTableMod, buildMpRequest, buildMpReply,
    buildRole, buildAsync, buildMeterMod, buildRoleStatus, buildTableStatus, buildBundleCtrl, buildBundleAdd, buildRequestForward,
    buildExperimenter, bind_ok, pyAssert_ok, ok_inj, exists_const, pack_eq_ok] at hb
  case hello =>
    obtain ⟨_, h1, hb⟩ := hb; refine made_call (made_one hb) ?_ rfl; rw [seq_bytes helloElem_bytes h1]; rfl
  case error => obtain ⟨_, ⟨_, rfl⟩, hb⟩ := hb; refine made_call (made_one hb) ?_ rfl; rw [Call.body]; layout
  case errorExp => obtain ⟨_, ⟨_, rfl⟩, hb⟩ := hb; refine made_call (made_one hb) ?_ rfl; rw [Call.body]; layout
  case features => obtain ⟨_, ⟨_, rfl⟩, _, hb, _, rfl⟩ := hb; refine made_call (made_one hb) ?_ rfl; rw [Call.body]; layout
  case config => obtain ⟨_, ⟨_, rfl⟩, _, hb, _, rfl⟩ := hb; refine made_call (made_among hb 0).2 ?_ rfl; rw [Call.body]; layout
  case packetIn =>
    obtain ⟨_, ⟨_, rfl⟩, _, h1, hb⟩ := hb; refine made_call (made_one hb) ?_ rfl
    rw [elem_bytes match_bytes h1, Call.body]; layout
  case flowRemoved =>
    obtain ⟨_, ⟨_, rfl⟩, _, h1, hb⟩ := hb; refine made_call (made_one hb) ?_ rfl
    rw [elem_bytes match_bytes h1, Call.body, flowRemovedFmt]; layout
  case portStatus => simp at hb
  case packetOut =>
    obtain ⟨_, h1, _, ⟨_, rfl⟩, hb⟩ := hb; refine made_call (made_one hb) ?_ rfl
    rw [seq_bytes action_bytes h1, Call.body]; layout
  case flowMod =>
    obtain ⟨_, h1, _, ⟨_, rfl⟩, _, h2, hb⟩ := hb; refine made_call (made_one hb) ?_ rfl
    rw [seq_bytes_each instr_bytes hr h1, elem_bytes match_bytes h2, Call.body, flowModFmt]; layout
  case groupMod =>
    obtain ⟨_, h1, _, ⟨_, rfl⟩, hb⟩ := hb; refine made_call (made_one hb) ?_ rfl
    rw [seq_bytes bucket_bytes h1, Call.body]; layout
  case portMod =>
    obtain ⟨_, h1, _, ⟨_, rfl⟩, hb⟩ := hb; refine made_call (made_one hb) ?_ rfl
    rw [seq_bytes_each pr_bytes hr h1, Call.body, portModFmt]; layout
  case tableMod t cf ps =>
    obtain ⟨_, ⟨_, rfl⟩, hb⟩ := hb
    cases ps <;> simp only [reduceCtorEq] at hb
    refine made_call (made_one hb) ?_ rfl
    rw [Call.body]; layout; rfl
  case tableModOf =>
    obtain ⟨_, h1, _, ⟨_, rfl⟩, hb⟩ := hb; refine made_call (made_one hb) ?_ rfl
    rw [seq_bytes_each pr_bytes hr h1, Call.body]; layout
  case mpRequest =>
    obtain ⟨_, h1, _, ⟨_, rfl⟩, hb⟩ := hb; refine made_call (made_one hb) ?_ rfl
    rw [reqBody_bytes hr h1, Call.body]; layout
  case mpRequestOf =>
    obtain ⟨rb, h0, _, h1, _, ⟨_, rfl⟩, hb⟩ := hb; refine made_call (made_one hb) ?_ rfl
    rw [reqBody_bytes (b := .raw rb) ⟨(fun _ r e => by cases e), trivial⟩ h1, rec_bytes _ _ hr h0, Call.body, Body.bytes]; layout
  case mpReply =>
    obtain ⟨_, h1, _, ⟨_, rfl⟩, hb⟩ := hb; refine made_call (made_one hb) ?_ rfl
    rw [repBody_bytes hr h1, Call.body]; layout
  case role => obtain ⟨_, ⟨_, rfl⟩, hb⟩ := hb; refine made_call (made_among hb 0).2 ?_ rfl; rw [Call.body]; layout
  case async =>
    obtain ⟨_, h1, hb⟩ := hb; refine made_call (made_among hb 0).2 ?_ rfl
    rw [seq_bytes_each pr_bytes hr h1, Call.body]
  case meterMod =>
    obtain ⟨kb, h1, hd, h2, _, ⟨hf, rfl⟩, rfl⟩ := hb
    obtain ⟨h8, hv, ht, hl⟩ := hr
    have := seq_bytes band_bytes h1
    subst this
    refine made_call (meterMod_made h2 (by simpa [fits] using hf) h8 hv ht hl) ?_ rfl
    rw [Call.body]; layout
  case roleStatus => exact hr.elim
  case tableStatus => exact hr.elim
  case bundleCtrl =>
    obtain ⟨_, h1, _, ⟨_, rfl⟩, hb⟩ := hb; refine made_call (made_one hb) ?_ rfl
    rw [seq_bytes_each pr_bytes hr h1, Call.body]; layout
  case bundleAdd b f rnd' h' c ps ih =>
    obtain ⟨m, h0, _, h1, _, ⟨_, rfl⟩, _, rfl, hb⟩ := hb; refine made_call (made_one hb) ?_ rfl
    obtain ⟨r1, r2, r3⟩ := hr
    rw [seq_bytes_each pr_bytes r2 h1, Call.body, ih rnd' h' m r1 h0]
    have hp : (if ps.bytes Pr.bytes = [] then ofHeader 5 (c.theType h') (8 + c.body.length) (h'.xid rnd') ++ c.body
       else pad8 (ofHeader 5 (c.theType h') (8 + c.body.length) (h'.xid rnd') ++ c.body)) =
       ofHeader 5 (c.theType h') (8 + c.body.length) (h'.xid rnd') ++ c.body := by
      rcases r3 with r3 | r3 | r3
      · split
        · rfl
        · rw [pad8, show up8 _ = _ from if_pos (by rw [List.length_append, show (ofHeader _ _ _ _).length = 8 from rfl]; omega), Nat.sub_self]
          exact List.append_nil _
      · rw [if_pos (by rw [r3]; rfl)]
      · rw [if_pos (by rw [r3]; rfl)]
    rw [hp]; layout
  case requestForward rnd' h' c ih =>
    obtain ⟨m, h0, _, rfl, hb⟩ := hb; refine made_call (made_one hb) ?_ rfl
    rw [ih rnd' h' m hr h0]; rfl
  case experimenter => obtain ⟨_, ⟨_, rfl⟩, hb⟩ := hb; refine made_call (made_one hb) ?_ rfl; rw [Call.body]; layout
  case other => exact made_call (made_named (fun _ e => by cases e) hb 0).2 rfl rfl

/-- A flow modification in a bundle, followed by an experimenter property, that meets the hypotheses, in hexadecimal. -/
example : (Call.bundleAdd 0x01020304 3 7 .none (.flowMod 1 0 2 0 10 20 30 none none none 0 9 (.tup ⟨none, none, .raw [0x80, 0, 0, 4, 0, 0, 0, 7]⟩)
      (tups [.actions (some 4) none (tups [.generic (some 24) none])])) (tups [.bundleExp none none 1 2 (some [3])])).Right .none ∧
    (Call.bundleAdd 0x01020304 3 7 .none (.flowMod 1 0 2 0 10 20 30 none none none 0 9 (.tup ⟨none, none, .raw [0x80, 0, 0, 4, 0, 0, 0, 7]⟩)
      (tups [.actions (some 4) none (tups [.generic (some 24) none])])) (tups [.bundleExp none none 1 2 (some [3])])).run 77 .none = .ok
    ([5, 34, 0, 112, 0, 0, 0, 77, 1, 2, 3, 4, 0, 0, 0, 3] ++
     [5, 14, 0, 80, 0, 0, 0, 7] ++ [0, 0, 0, 0, 0, 0, 0, 1] ++ [0, 0, 0, 0, 0, 0, 0, 0] ++ [2, 0, 0, 10, 0, 20, 0, 30] ++
     [255, 255, 255, 255] ++ [255, 255, 255, 255] ++ [255, 255, 255, 255] ++ [0, 0, 0, 9] ++
     [0, 1, 0, 12, 0x80, 0, 0, 4, 0, 0, 0, 7, 0, 0, 0, 0] ++ [0, 4, 0, 16, 0, 0, 0, 0, 0, 24, 0, 8, 0, 0, 0, 0] ++
     [255, 255, 0, 13, 0, 0, 0, 1, 0, 0, 0, 2, 3, 0, 0, 0]) := by
  refine ⟨⟨?_, ?_, .inl (by decide +kernel)⟩, by decide +kernel⟩
  · intro a ha
    simp at ha; subst ha
    exact (by decide : 8 ∣ 8)
  · intro a ha
    simp at ha; subst ha
    trivial

/-- C76 is false of the code: TABLE_STATUS has its reason in two bytes, followed by seven bytes of padding, so that the
table starts one byte late (build.py L1322). -/
theorem C76_table_status_refuted (rnd : Nat) (h : HdrArg) (reason : Nat) (table : Bytes) (bs : Bytes)
    (hb : (Call.tableStatus reason (.raw table)).run rnd h = .ok bs) :
    bs = ofHeader 5 31 (17 + table.length) (h.xid rnd) ++ (be16 reason ++ zeros 7 ++ table) ∧
    bs ≠ ofHeader 5 31 (16 + table.length) (h.xid rnd) ++ (Call.tableStatus reason (.raw table)).body := by
  simp only [Call.run, buildTableStatus, bind_ok, pack_eq_ok] at hb
  obtain ⟨_, ⟨_, rfl⟩, t, ht, hb⟩ := hb
  simp only [obj, ok_inj] at ht
  subst ht
  have hm := made_layout (made_one hb)
  have e : enc [H, X 7] [.int reason] = be16 reason ++ zeros 7 := by layout
  have e2 : 8 + (enc [H, X 7] [.int reason] ++ table).length = 17 + table.length := by
    rw [e]; simp [be16_length, zeros]; omega
  rw [e2, e] at hm
  refine ⟨hm, fun hn => ?_⟩
  have h1 : bs.length = 17 + table.length := by rw [(made_one hb).len, e2]
  have h2 := congrArg List.length hn
  rw [List.length_append, show (ofHeader 5 31 (16 + table.length) (h.xid rnd)).length = 8 from rfl, Call.body, Elem.bytes] at h2
  simp [zeros, b8] at h2
  omega

/-- C76 is false of the code: a port's properties are counted in its length, but left out (build.py L108-110). -/
theorem C76_port_refuted (p : PortT) (ps b : Bytes) (hp : seqBytes buildPr p.properties = .ok ps) (hb : buildPort p = .ok b) :
    b.length = 40 ∧ u16 b 4 = 40 + ps.length := by
  simp only [buildPort, bind_ok, pyAssert_ok, pack_eq_ok, ok_inj, exists_const, hp] at hb
  obtain ⟨h6, h16, _, rfl, hf, rfl⟩ := hb
  have hl : 40 + ps.length < 65536 := by
    simp [fits, portFmt] at hf; omega
  refine ⟨by rw [enc_length _ _ hf]; rfl, ?_⟩
  rw [portFmt]
  layout
  simp [u16, u8, be32, be16]
  omega

/-- C76 is false of the code: the length of a flow update is eight more than its bytes (build.py L1144). -/
theorem C76_flow_update_refuted (l : Option Nat) (e t r i h p c : Nat) (mt : Elem MatchT) (is : Seq Instr) (b : Bytes)
    (hb : buildRec (.updateFull l e t r i h p c mt is) = .ok b) : u16 b 0 = b.length + 8 := by
  simp only [buildRec, bind_ok, pack_eq_ok, ok_inj] at hb
  obtain ⟨is, _, m, _, _, ⟨hf, rfl⟩, rfl⟩ := hb
  have hl : 32 + m.length + is.length < 65536 := by
    simp [fits, updateFullFmt] at hf; omega
  have h24 := enc_length _ _ hf
  rw [List.length_append, List.length_append, h24, show calcsize updateFullFmt = 24 from rfl, updateFullFmt]
  layout
  simp [u16, u8, be16]
  omega

/-- C76 is false of the code: experimenter properties of port statistics are not padded (build.py L937-944). -/
theorem C76_port_stats_experimenter_refuted (t l : Option Nat) (e et : Nat) (d b : Bytes)
    (hb : buildPr (.psExp t l e et (some d)) = .ok b) :
    b = be16 0xffff ++ be16 (12 + d.length) ++ be32 e ++ be32 et ++ d ∧ (¬ 8 ∣ 12 + d.length → b ≠ (Pr.psExp t l e et (some d)).bytes) := by
  simp only [buildPr, bind_ok, pack_eq_ok, ok_inj, Option.getD_some] at hb
  obtain ⟨_, ⟨hf, rfl⟩, rfl⟩ := hb
  refine ⟨by layout, fun hn he => ?_⟩
  have h1 := congrArg List.length he
  rw [List.length_append, enc_length _ _ hf, Pr.bytes, expBytes, pad8] at h1
  have hc : calcsize [H, H, I, I] = 12 := rfl
  simp only [List.length_append, be16_length, hc, Option.getD_some, zeros, List.length_replicate,
    show (be32 e).length = 4 from rfl, show (be32 et).length = 4 from rfl] at h1
  unfold up8 at h1
  split at h1 <;> omega

/-- C76 is false of the code: the properties of a bundled message follow it directly, where the standard demands padding
(build.py L1221-1223). -/
theorem C76_bundle_padding_refuted (rnd : Nat) (h : HdrArg) (b f rnd' : Nat) (h' : HdrArg) (d ps bs : Bytes) (hd : ¬ 8 ∣ d.length)
    (hp : ps ≠ []) (hb : (Call.bundleAdd b f rnd' h' (.other d) (.raw ps)).run rnd h = .ok bs) :
    bs.length = 24 + d.length + ps.length ∧
    ∀ n x, bs ≠ ofHeader 5 34 n x ++ (Call.bundleAdd b f rnd' h' (.other d) (.raw ps)).body := by
  simp only [Call.run, buildBundleAdd, bind_ok, pack_eq_ok, ok_inj] at hb
  obtain ⟨m, h0, _, h1, _, ⟨hf, rfl⟩, _, rfl, hb⟩ := hb
  simp only [seqBytes, ok_inj] at h1
  subst h1
  have hm := (made_named (fun _ e => by cases e) h0 0).2
  have hl := (made_one hb).len
  rw [List.length_append, List.length_append, enc_length _ _ hf, hm.len, show calcsize [I, X 2, H] = 8 from rfl] at hl
  refine ⟨by omega, fun n x he => ?_⟩
  have h2 := congrArg List.length he
  rw [Call.body, if_neg (by exact hp)] at h2
  simp only [List.length_append, pad8, show (ofHeader 5 34 n x).length = 8 from rfl, be16_length, zeros, List.length_replicate,
    show (be32 b).length = 4 from rfl, Call.body, show (ofHeader 5 (Call.theType (.other d) h') (8 + d.length) (h'.xid rnd')).length = 8 from rfl,
    show (Seq.bytes Pr.bytes (.raw ps)).length = ps.length from rfl] at h2
  unfold up8 at h2
  split at h2 <;> omega

/-- C76 is false of the code: bare headers of queue properties have eight bytes (build.py L1003-1005), and the
length of an eviction property has to be given, and is copied (L421-423). -/
theorem C76_headers_refuted (t l f : Nat) (b : Bytes) :
    (buildPr (.qdHeader (some t) (some l)) = .ok b → b = be16 t ++ be16 l ++ zeros 4) ∧
    (buildPr (.eviction none (some l) f) = .ok b → b = be16 2 ++ be16 l ++ be32 f) ∧
    buildPr (.eviction none none f) ≠ .ok b := by
  refine ⟨fun h => ?_, fun h => ?_, fun h => by cases h⟩
  · obtain ⟨_, rfl⟩ := pack_eq_ok.1 (show pack [H, H, X 4] [.int t, .int l] = .ok b from h); layout
  · obtain ⟨_, rfl⟩ := pack_eq_ok.1 (show pack [H, H, I] [.int 2, .int l, .int f] = .ok b from h); layout

/-- C76 is false of the code: an instruction whose actions are given as bytes says that it is longer than it is, unless their number is a multiple of eight
(build.py L215-223). -/
theorem C76_instruction_refuted (t l : Option Nat) (as b : Bytes) (hn : ¬ 8 ∣ as.length)
    (hb : buildInstr (.actions t l (.raw as)) = .ok b) : b.length = 8 + as.length ∧ b.length < u16 b 2 := by
  simp only [buildInstr, bind_ok, seqBytes, ok_inj] at hb
  obtain ⟨_, rfl, hb⟩ := hb
  split at hb
  · cases hb
  · simp only [bind_ok, pyAssert_ok, pack_eq_ok, ok_inj, exists_const] at hb
    obtain ⟨_, _, ⟨hf, rfl⟩, rfl⟩ := hb
    rw [List.length_append, enc_length _ _ hf, show calcsize [H, H, X 4] = 8 from rfl]
    refine ⟨rfl, ?_⟩
    have hl : up8 (8 + as.length) < 65536 := by
      simp [fits, align_eq] at hf; omega
    have hu : 8 + as.length < up8 (8 + as.length) := by
      unfold up8; split <;> omega
    layout
    simp [u16, u8, be16]
    omega

/-- C76 is false of the code for table features: the standard numbers the property types WILDCARDS 10, WRITE_SETFIELD 12 and 13,
APPLY_SETFIELD 14 and 15, the package 9 to 13 (twink/ofp5/__init__.py), so that the last two are refused, and
9 and 11, unknown to the standard, are accepted; an instruction of the type 0xfffe, unknown to the standard, has data. -/
theorem C76_table_features_refuted (len : Option Nat) (ids : Ints) (d b : Bytes) :
    (∀ t ∈ [14, 15], buildTfProp (.oxm (some t) len ids) ≠ .ok b) ∧
    (∀ t ∈ [9, 11], ∃ bs, buildTfProp (.oxm (some t) len .none) = .ok bs ∧ u16 bs 0 = t) ∧
    (buildId [0xfffe, 0xffff] ⟨0xfffe, len, some d⟩ = .ok b → b = be16 0xfffe ++ be16 (4 + d.length) ++ d) := by
  refine ⟨fun t ht h => ?_, fun t ht => ?_, fun h => ?_⟩
  · simp only [buildTfProp, bind_ok, tfProp, pyAssert_ok, exists_const] at h
    obtain ⟨_, _, h, _⟩ := h
    simp at ht h; omega
  · simp at ht
    rcases ht with rfl | rfl
    · exact ⟨_, rfl, rfl⟩
    · exact ⟨_, rfl, rfl⟩
  · simp only [buildId, bind_ok, pack_eq_ok, ok_inj] at h
    obtain ⟨_, ⟨_, rfl⟩, rfl⟩ := h
    rw [if_pos (by simp)]; layout; rfl

/-- C76 is false of the code for meter statistics: the length is copied from the argument, and `None`, good for other
structures, makes `struct.error` (build.py L1089-1101). -/
theorem C76_meter_stats_refuted :
    (∀ m f p b ds dn bands, ∃ e, buildRec (.meterStats m none f p b ds dn (.items bands)) = .error e) ∧
    (∃ bs, buildRec (.meterStats 1 (some 7) 2 3 4 5 6 (tups [(8, 9)])) = .ok bs ∧ bs.length = 56 ∧ u16 bs 4 = 7) := by
  refine ⟨fun m f p b ds dn bands => ?_, _, rfl, rfl, rfl⟩
  cases h : seqBytes buildPair (.items bands) with
  | error e => exact ⟨e, by simp only [buildRec, h]; rfl⟩
  | ok v => exact ⟨.structError, by simp only [buildRec, h, ok_bind, packOpt]; rfl⟩

/-- The hypotheses of the refutations can be met. -/
example : (∃ bs, (Call.tableStatus 3 (.raw [1, 2, 3])).run 77 .none = .ok bs) ∧
    (∃ b, buildPort ⟨1, none, [1, 2, 3, 4, 5, 6], [101], 0, 0, tups [.portEthernet none none 1 2 3 4 5 6]⟩ = .ok b) ∧
    (∃ b, buildRec (.updateFull none 0 1 2 3 4 5 6 (.tup ⟨none, none, .raw []⟩) (tups [.gotoTable none none 3])) = .ok b) ∧
    (∃ b, buildPr (.psExp none none 1 2 (some [3])) = .ok b) ∧
    (∃ bs, (Call.bundleAdd 1 2 3 (.tup none (some 2) none none) (.other [4]) (.raw [5])).run 77 .none = .ok bs) ∧
    (∃ b, buildInstr (.actions (some 3) none (.raw [1])) = .ok b) :=
  ⟨⟨_, rfl⟩, ⟨_, rfl⟩, ⟨_, rfl⟩, ⟨_, rfl⟩, ⟨_, rfl⟩, ⟨_, rfl⟩⟩

end Twink.Of14
