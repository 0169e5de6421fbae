import Verif.Props.Of13
import Verif.Proof.Of14Refute

/-!
# C71-C74: what is built as OpenFlow 1.4 and parsed again

A built piece `bs` is parsed where it stands in a buffer, after any bytes `pre` and before any bytes `post`.
`Verif.Spec.Of14` and `Verif.Spec.Of14Calls` say what should come back.
-/

namespace Twink.Of14
open Fmt Of13 Spec

/-! ### C71: actions, instructions, buckets -/

/-- C71, in part: what is given back for a list of actions.  Missing: for set-field and experimenter actions the NULs
of the padding come back as part of the field or data, and set-MPLS-TTL actions do not come back. -/
theorem C71_actions_partial (s : Seq Action) (bs pre post : Bytes) (hs : s.All Action.Parseable)
    (h : seqBytes buildAction s = .ok bs) :
    whileFetch (parseAction (pre ++ (bs ++ post))) (pre.length + bs.length) pre.length =
      .ok (s.values.map Action.wire, pre.length + bs.length) ∧ bs.length = actionsSize s :=
  ⟨whileFetch_at (seq_actions hs h).1 (At.intro pre bs post _ rfl) _ rfl, (seq_actions hs h).2⟩

/-- C71. If no set-field or experimenter action needs padding, the same list comes back, types and lengths filled in. -/
theorem C71_actions_exact (s : Seq Action) (bs pre post : Bytes) (hs : s.All Action.Parseable) (ha : s.All Action.Aligned)
    (h : seqBytes buildAction s = .ok bs) :
    whileFetch (parseAction (pre ++ (bs ++ post))) (pre.length + bs.length) pre.length =
      .ok (s.values.map Action.filled, pre.length + bs.length) := by
  rw [(C71_actions_partial s bs pre post hs h).1, actions_filled ha]

/-- C71, in part: the same for instructions with their actions. -/
theorem C71_instructions_partial (s : Seq Instr) (bs pre post : Bytes) (hs : s.All Instr.Parseable)
    (h : seqBytes buildInstr s = .ok bs) :
    listFetch (parseInstr (pre ++ (bs ++ post))) (pre.length + bs.length) pre.length =
      .ok (s.values.map Instr.wire, pre.length + bs.length) ∧ bs.length = instrsSize s :=
  ⟨listFetch_at (seq_instrs hs h).1 (At.intro pre bs post _ rfl) _ rfl, (seq_instrs hs h).2⟩

/-- C71. If no action needs padding, the same list of instructions comes back. -/
theorem C71_instructions_exact (s : Seq Instr) (bs pre post : Bytes) (hs : s.All Instr.Parseable) (ha : s.All Instr.Aligned)
    (h : seqBytes buildInstr s = .ok bs) :
    listFetch (parseInstr (pre ++ (bs ++ post))) (pre.length + bs.length) pre.length =
      .ok (s.values.map Instr.filled, pre.length + bs.length) := by
  rw [(C71_instructions_partial s bs pre post hs h).1, instrs_filled ha]

/-- C71, in part: the same for buckets with their actions. -/
theorem C71_buckets_partial (s : Seq Bucket) (bs pre post : Bytes) (hs : s.All Bucket.Parseable)
    (h : seqBytes buildBucket s = .ok bs) :
    whileFetch (parseBucket (pre ++ (bs ++ post))) (pre.length + bs.length) pre.length =
      .ok (s.values.map Bucket.wire, pre.length + bs.length) ∧ bs.length = (s.values.map Bucket.size).sum :=
  ⟨whileFetch_at (seq_buckets hs h).1 (At.intro pre bs post _ rfl) _ rfl, (seq_buckets hs h).2⟩

/-- C71. If no action needs padding, the same list of buckets comes back. -/
theorem C71_buckets_exact (s : Seq Bucket) (bs pre post : Bytes) (hs : s.All Bucket.Parseable)
    (ha : s.All (fun b => b.actions.All Action.Aligned)) (h : seqBytes buildBucket s = .ok bs) :
    whileFetch (parseBucket (pre ++ (bs ++ post))) (pre.length + bs.length) pre.length =
      .ok (s.values.map Bucket.filled, pre.length + bs.length) := by
  rw [(C71_buckets_partial s bs pre post hs h).1, buckets_filled ha]

/-- A list of instructions with nested actions which meets all hypotheses. -/
example : ∃ bs, seqBytes buildInstr (tups [.actions (some 4) none (tups [.output none none 3 0, .push (some 17) none 0x8100,
      .setField none none [0x80, 0, 0x0c, 1], .experimenter none none 7 [], .generic (some 24) none]),
      .gotoTable none none 9, .writeMetadata none none 5 6, .meter none none 8, .experimenter none none 1 [2, 3]]) = .ok bs ∧
    (tups [Instr.actions (some 4) none (tups [.output none none 3 0, .push (some 17) none 0x8100,
      .setField none none [0x80, 0, 0x0c, 1], .experimenter none none 7 [], .generic (some 24) none]),
      .gotoTable none none 9, .writeMetadata none none 5 6, .meter none none 8, .experimenter none none 1 [2, 3]]).All
        (fun i => i.Parseable ∧ i.Aligned) := by
  refine ⟨_, rfl, all_tups ?_⟩
  simp only [List.mem_cons, List.not_mem_nil, or_false, forall_eq_or_imp, forall_eq, Instr.Parseable, Instr.Aligned, and_true, true_and]
  refine ⟨all_tups ?_, all_tups ?_⟩ <;> simp [Action.Parseable, Action.Aligned]

/-- C71 is false of the code: a set-field action whose OXM field does not end on a multiple of eight bytes never comes
back as it was, wherever it stands. -/
theorem C71_set_field_refuted (t l : Option Nat) (f bs pre post : Bytes) (hu : (4 + f.length) % 8 ≠ 0)
    (h : buildAction (.setField t l f) = .ok bs) :
    ∃ f' o, parseAction (pre ++ (bs ++ post)) pre.length = .ok (.setField (some 25) (some bs.length) f', o) ∧ f' ≠ f := by
  obtain ⟨h1, _, h3⟩ := rt_action (.setField t l f) bs trivial h
  refine ⟨fill8 4 f, pre.length + bs.length, ?_, fill8_ne hu⟩
  rw [h1.at (At.intro pre bs post _ rfl), h3]; rfl

example : ∃ bs, buildAction (.setField none none [0x80, 0, 0x0a, 2, 8, 0]) = .ok bs ∧ (4 + [0x80, 0, 0x0a, 2, 8, 0].length) % 8 ≠ 0 :=
  ⟨_, rfl, by decide⟩

/-- C71 is false of the code: a set-MPLS-TTL action can be built but raises NameError when parsed. -/
theorem C71_mpls_ttl_refuted (t l : Option Nat) (n : Nat) (bs pre post : Bytes) (h : buildAction (.mplsTtl t l n) = .ok bs) :
    parseAction (pre ++ (bs ++ post)) pre.length = .error .nameError := by
  simp only [buildAction, bind_ok, pyAssert_ok, pack_eq_ok, ok_inj, exists_const] at h
  obtain ⟨ht, _, ⟨hf, rfl⟩, _, rfl⟩ := h
  rw [ht] at hf ⊢
  have hm : At (pre ++ (enc [H, H, B, X 3] [.int 15, .int 8, .int n] ++ post)) pre.length
      (enc [H, H, B, X 3] [.int 15, .int 8, .int n] ++ []) := by
    rw [List.append_nil]; exact At.intro pre _ post _ rfl
  rw [parseAction, peek_at hm hf, ok_bind]
  rfl

example : ∃ bs, buildAction (.mplsTtl none none 64) = .ok bs := ⟨_, rfl⟩

/-! ### C72: messages, also inside messages -/

/-- C72, in part: whatever message a call builds out of things that can be parsed, with messages inside of bundles and
forwarded requests to any depth, parsing gives back the arguments of the call, and the number of bytes is what it
should be.  Missing: the calls excluded by `Call.Parseable`, see below, and padding, which comes back as part of
fields and data. -/
theorem C72_messages_partial (c : Call) (rnd : Nat) (h : HdrArg) (bs pre post : Bytes) (hp : c.Parseable h)
    (hb : c.run rnd h = .ok bs) :
    parse (pre ++ (bs ++ post)) pre.length = .ok (c.wire rnd h) ∧ bs.length = c.size :=
  ⟨parse_of ((call_ok c rnd h bs hp hb).1 _ _ (At.intro pre bs post _ rfl)), (call_ok c rnd h bs hp hb).2⟩

/-- C72. FLOW_MOD: if no action needs padding, exactly the given instructions come back (types and lengths filled in). -/
theorem C72_flow_mod_exact (rnd : Nat) (h : HdrArg) (c cm t cmd i hd p : Nat) (b op og : Option Nat) (f im : Nat) (mt : MatchT)
    (is : Seq Instr) (bs pre post : Bytes)
    (hb : buildFlowMod rnd h c cm t cmd i hd p b op og f im (.tup mt) is = .ok bs) (hp : is.All Instr.Parseable)
    (ha : is.All Instr.Aligned) :
    parse (pre ++ (bs ++ post)) pre.length = .ok (.flowMod ⟨5, 14, bs.length, h.xid rnd⟩ c cm t cmd i hd p
      (b.getD 0xffffffff) (op.getD 0xffffffff) (og.getD 0xffffffff) f im
      ⟨some (mt.type.getD 1), some (4 + mt.fields.length), .raw mt.fields⟩ (is.values.map Instr.filled)) := by
  have h1 := flowMod_ok hb hp
  rw [parse_of (h1.1 _ _ (At.intro pre bs post _ rfl)), instrs_filled ha, h1.2]
  rfl

/-- C72. PACKET_OUT, if no action needs padding. -/
theorem C72_packet_out_exact (rnd : Nat) (h : HdrArg) (b : Option Nat) (ip : Nat) (as : Seq Action) (d : Option Bytes) (bs pre post : Bytes)
    (hb : buildPacketOut rnd h b ip as d = .ok bs) (hp : as.All Action.Parseable) (ha : as.All Action.Aligned) :
    parse (pre ++ (bs ++ post)) pre.length = .ok (.packetOut ⟨5, 13, bs.length, h.xid rnd⟩ (b.getD 0xffffffff) ip (actionsSize as)
      (as.values.map Action.filled) (d.getD [])) := by
  have h1 := packetOut_ok hb hp
  rw [parse_of (h1.1 _ _ (At.intro pre bs post _ rfl)), actions_filled ha, h1.2]

/-- C72. GROUP_MOD, if no action needs padding. -/
theorem C72_group_mod_exact (rnd : Nat) (h : HdrArg) (c t g : Nat) (bk : Seq Bucket) (bs pre post : Bytes)
    (hb : buildGroupMod rnd h c t g bk = .ok bs) (hp : bk.All Bucket.Parseable)
    (ha : bk.All (fun b => b.actions.All Action.Aligned)) :
    parse (pre ++ (bs ++ post)) pre.length =
      .ok (.groupMod ⟨5, 15, bs.length, h.xid rnd⟩ c t g (bk.values.map Bucket.filled)) := by
  have h1 := groupMod_ok hb hp
  rw [parse_of (h1.1 _ _ (At.intro pre bs post _ rfl)), buckets_filled ha, h1.2]

/-- A flow modification inside of a forwarded request inside of a bundle meets the hypotheses. -/
example : ∃ bs, (Call.bundleAdd 1 2 3 .none (.requestForward 4 .none (.flowMod 1 2 3 4 5 6 7 none none none 8 9
      (.tup ⟨none, none, .raw [0x80, 0, 0x0a, 2, 8, 0]⟩) (tups [.actions (some 4) none (tups [.output none none 3 0])]))) .none).run 5 .none = .ok bs ∧
    (Call.bundleAdd 1 2 3 .none (.requestForward 4 .none (.flowMod 1 2 3 4 5 6 7 none none none 8 9
      (.tup ⟨none, none, .raw [0x80, 0, 0x0a, 2, 8, 0]⟩) (tups [.actions (some 4) none (tups [.output none none 3 0])]))) .none).Parseable .none := by
  obtain ⟨bs, h⟩ := ok_of (x := (Call.bundleAdd 1 2 3 .none (.requestForward 4 .none (.flowMod 1 2 3 4 5 6 7 none none none 8 9
      (.tup ⟨none, none, .raw [0x80, 0, 0x0a, 2, 8, 0]⟩) (tups [.actions (some 4) none (tups [.output none none 3 0])]))) .none).run 5 .none)
    (by decide +kernel)
  refine ⟨bs, h, ⟨⟨⟨_, rfl⟩, all_tups ?_⟩, .inl rfl⟩⟩
  simp only [List.mem_singleton, forall_eq, Instr.Parseable]
  exact all_tups (by simp [Action.Parseable])

/-- C72. The functions that `parse` fails to call would return what was built: role messages and experimenter errors. -/
theorem C72_unused_parsers (rnd : Nat) (h : HdrArg) (bs pre post : Bytes) :
    (∀ r g, buildRole rnd h r g = .ok bs →
      parseRole (pre ++ (bs ++ post)) pre.length = .ok (.role ⟨5, h.type 0, 24, h.xid rnd⟩ r g, pre.length + bs.length)) ∧
    (∀ c x d, buildErrorExp rnd h c x d = .ok bs →
      parseErrorExp (pre ++ (bs ++ post)) pre.length = .ok (.errorExp ⟨5, 1, 16 + d.length, h.xid rnd⟩ 0xffff c x d, pre.length + bs.length)) := by
  have hm := At.intro pre bs post _ rfl
  generalize pre ++ (bs ++ post) = m at hm ⊢
  generalize pre.length = n at hm ⊢
  refine ⟨fun r g hb => ?_, fun c x d hb => ?_⟩
  · simp only [buildRole, bind_ok, pack_eq_ok] at hb
    obtain ⟨_, ⟨hf, rfl⟩, hb⟩ := hb
    obtain ⟨_, hb⟩ := made_among hb 0
    have hl := enc_length _ _ hf
    have hc : calcsize [I, X 4, Q] = 16 := rfl
    have hlen := hb.len
    rw [hl, hc] at hlen
    rw [parseRole, hb.hdr hm, ok_bind, hlen]
    have h1 := hb.body hm
    rw [← List.append_nil (enc _ _)] at h1
    exact rd_at h1.left hf (by simp [exact]) (two (Msg.role ⟨5, h.type 0, 24, h.xid rnd⟩)) _ rfl
  · simp only [buildErrorExp, bind_ok, pack_eq_ok] at hb
    obtain ⟨_, ⟨hf, rfl⟩, hb⟩ := hb
    have hb := made_one hb
    have hl := enc_length _ _ hf
    have hc : calcsize [H, H, I] = 8 := rfl
    rw [hc] at hl
    have hlen := hb.len
    rw [List.length_append] at hlen
    have hlen : bs.length = 16 + d.length := by omega
    rw [parseErrorExp, hb.hdr hm, ok_bind, hlen]
    simp only
    rw [rd_at (hb.body hm).left hf (by simp [exact]) (three (Msg.errorExp ⟨5, 1, 16 + d.length, h.xid rnd⟩)) _ rfl, ok_bind]
    simp only [hc]
    rw [((hb.body hm).right (n + 8 + 8) (by omega)).slice _ (by omega)]

/-- Such messages can be built. -/
example : (∃ bs, buildRole 7 (.raw [5, 24, 0, 0, 0, 0, 0, 9]) 2 3 = .ok bs ∧ bs.length = 24) ∧
    (∃ bs, buildErrorExp 7 .none 1 2 [3, 4] = .ok bs ∧ bs.length = 18) :=
  ⟨⟨_, rfl, rfl⟩, ⟨_, rfl, rfl⟩⟩

/-- C72 is false of the code: an experimenter error comes back as an ordinary one, of type 0xffff, with the experimenter
as part of the data. -/
theorem C72_error_experimenter_refuted (rnd : Nat) (h : HdrArg) (c x : Nat) (d bs pre post : Bytes)
    (hb : buildErrorExp rnd h c x d = .ok bs) :
    parse (pre ++ (bs ++ post)) pre.length = .ok (.error ⟨5, 1, bs.length, h.xid rnd⟩ 0xffff c (be32 x ++ d)) := by
  have hb' : buildError rnd h 0xffff c (some (be32 x ++ d)) = .ok bs := by
    simp only [buildErrorExp, bind_ok, pack_eq_ok] at hb
    obtain ⟨_, ⟨hf, rfl⟩, hb⟩ := hb
    simp only [buildError, bind_ok, pack_eq_ok, Option.getD_some]
    refine ⟨_, ⟨by simp [fits] at hf ⊢; omega, rfl⟩, ?_⟩
    rw [← hb]
    simp [enc, encBE_4]
  have h1 := error_ok hb'
  rw [parse_of (h1.1 _ _ (At.intro pre bs post _ rfl)), h1.2]
  rfl

/-- C72 is false of the code: role requests and replies come back as bytes. -/
theorem C72_role_refuted (rnd : Nat) (h : HdrArg) (r g : Nat) (bs pre post : Bytes) (hb : buildRole rnd h r g = .ok bs) :
    parse (pre ++ (bs ++ post)) pre.length =
      .ok (.other ⟨5, h.type 0, bs.length, h.xid rnd⟩ (be32 r ++ zeros 4 ++ be64 g)) := by
  simp only [buildRole, bind_ok, pack_eq_ok] at hb
  obtain ⟨_, ⟨hf, rfl⟩, hb⟩ := hb
  obtain ⟨ht, hb⟩ := made_among hb 0
  simp only [List.mem_cons, List.not_mem_nil, or_false] at ht
  have h1 := made_other hb (by omega) (by omega) (fun m n => parseOf_other (.inr ht) m n)
  rw [parse_of (h1.1 _ _ (At.intro pre bs post _ rfl)), h1.2]
  simp [enc, encBE_4, encBE_8, zeros, nul]

/-- C72 is false of the code: what `ofp_role_status` builds comes back as bytes, with the type of a role request or reply. -/
theorem C72_role_status_refuted (rnd : Nat) (h : HdrArg) (r rs g : Nat) (ps : Seq Pr) (bs pre post : Bytes)
    (hb : buildRoleStatus rnd h r rs g ps = .ok bs) :
    (h.type 0 = 24 ∨ h.type 0 = 25) ∧
    ∃ d, parse (pre ++ (bs ++ post)) pre.length = .ok (.other ⟨5, h.type 0, bs.length, h.xid rnd⟩ d) := by
  simp only [buildRoleStatus, bind_ok, pack_eq_ok] at hb
  obtain ⟨pb, hpb, _, ⟨hf, rfl⟩, hb⟩ := hb
  obtain ⟨ht, hb⟩ := made_among hb 0
  simp only [List.mem_cons, List.not_mem_nil, or_false] at ht
  have h1 := made_other hb (by omega) (by omega) (fun m n => parseOf_other (.inr ht) m n)
  refine ⟨ht, enc [I, B, X 3, Q] [.int r, .int rs, .int g] ++ pb, ?_⟩
  rw [parse_of (h1.1 _ _ (At.intro pre bs post _ rfl)), h1.2]

/-- C72 is false of the code: TABLE_STATUS messages cannot be parsed. -/
theorem C72_table_status_refuted (rnd : Nat) (h : HdrArg) (r : Nat) (t : Elem Rec) (bs pre post : Bytes)
    (hb : buildTableStatus rnd h r (obj buildRec t) = .ok bs) (msg : Msg) : parse (pre ++ (bs ++ post)) pre.length ≠ .ok msg := by
  intro hp
  obtain ⟨o, hp⟩ := parse_ok hp
  simp only [buildTableStatus, bind_ok, pack_eq_ok] at hb
  obtain ⟨_, ⟨hf, rfl⟩, _, _, hb⟩ := hb
  have hb := made_one hb
  rw [hb.parse (At.intro pre bs post _ rfl) (by omega) (by omega)] at hp
  have hp : parseTableStatus (pre ++ (bs ++ post)) pre.length = .ok (msg, o) := hp
  simp [parseTableStatus, bind_ok] at hp

/-- C72 is false of the code: in place of the port, a PORT_MOD message comes back with the number which the first four
bytes of the message are, version, type and length. -/
theorem C72_port_mod_refuted (rnd : Nat) (h : HdrArg) (p : Nat) (hw : Bytes) (c k : Nat) (ps : Seq Pr) (bs pre post : Bytes)
    (hb : buildPortMod rnd h p hw c k ps = .ok bs) (msg : Msg) (hp : parse (pre ++ (bs ++ post)) pre.length = .ok msg) :
    ∃ hw' c' k' ps', msg = .portMod ⟨5, 16, bs.length, h.xid rnd⟩ (0x05100000 + bs.length) hw' c' k' ps' := by
  obtain ⟨o, hp⟩ := parse_ok hp
  simp only [buildPortMod, bind_ok, pack_eq_ok] at hb
  obtain ⟨pb, hpb, _, ⟨hf, rfl⟩, hb⟩ := hb
  have hb := made_one hb
  have hm := At.intro pre bs post _ rfl
  rw [hb.parse hm (by omega) (by omega)] at hp
  have hp : parsePortMod (pre ++ (bs ++ post)) pre.length = .ok (msg, o) := hp
  rw [parsePortMod, hb.hdr hm, ok_bind] at hp
  simp only [bind_ok, ok_inj, Prod.mk.injEq] at hp
  obtain ⟨⟨k1, o1⟩, h1, ⟨ps', o2⟩, h2, rfl, _⟩ := hp
  have hl := hb.len
  have hfit := hb.fits
  have hle : bs.length < 65536 := by rw [hl]; simp [fits, hdrFmt] at hfit ⊢; omega
  have hu : ∃ a b d, unpackFrom portModFmt (pre ++ (bs ++ post)) pre.length =
      .ok [.int (0x05100000 + bs.length), .str a, .int b, .int d] := by
    have hc : calcsize portModFmt = 24 := rfl
    have e1 : bs ++ post = (be16 (0x0510) ++ be16 bs.length) ++ ((be32 (h.xid rnd)) ++ (enc portModFmt [.int p, .str hw, .int c, .int k] ++ pb) ++ post) := by
      rw [hl]
      conv_lhs => rw [hb.eq]
      simp [hdrFmt, enc, encBE_1, encBE_2, encBE_4, be16, b8]
    have e2 : dec portModFmt (bs ++ post) = .int (decBE ((bs ++ post).take 4)) :: dec [X 4, S 6, X 2, I, I] ((bs ++ post).drop 4) := rfl
    have e3 : decBE ((bs ++ post).take 4) = 0x05100000 + bs.length := by
      rw [e1, List.take_left' (by simp [be16, b8])]
      simp [decBE, be16, b8]
      omega
    have e4 : ∃ a b d, dec [X 4, S 6, X 2, I, I] ((bs ++ post).drop 4) = [.str a, .int b, .int d] := ⟨_, _, _, rfl⟩
    obtain ⟨a, b, d, e4⟩ := e4
    refine ⟨a, b, d, ?_⟩
    unfold unpackFrom
    rw [List.length_append, enc_length _ _ hf, hc] at hl
    rw [if_pos (by simp only [List.length_append, hc]; omega), List.drop_left' rfl, e2, e3, e4]
  obtain ⟨a, b, d, hu⟩ := hu
  simp only [rd, hu, ok_inj, Prod.mk.injEq] at h1
  obtain ⟨rfl, _⟩ := h1
  exact ⟨_, _, _, _, rfl⟩

/-- C72 is false of the code: BUNDLE_CONTROL messages with properties cannot be parsed. -/
theorem C72_bundle_properties_refuted (rnd : Nat) (h : HdrArg) (b t f : Nat) (ps : Seq Pr) (pb bs pre post : Bytes)
    (hpb : seqBytes buildPr ps = .ok pb) (hne : pb ≠ []) (hb : buildBundleCtrl rnd h b t f ps = .ok bs) (msg : Msg) :
    parse (pre ++ (bs ++ post)) pre.length ≠ .ok msg := by
  intro hp
  obtain ⟨o, hp⟩ := parse_ok hp
  simp only [buildBundleCtrl, bind_ok, pack_eq_ok, hpb, ok_inj] at hb
  obtain ⟨_, rfl, _, ⟨hf, rfl⟩, hb⟩ := hb
  have hb := made_one hb
  have hm := At.intro pre bs post _ rfl
  rw [hb.parse hm (by omega) (by omega)] at hp
  have hp : parseBundleCtrl (pre ++ (bs ++ post)) pre.length = .ok (msg, o) := hp
  rw [parseBundleCtrl, hb.hdr hm, ok_bind] at hp
  have hp := (rd_bind (hb.body hm).left hf (by simp [exact]) (by rfl)).symm.trans hp
  simp only [bind_ok] at hp
  obtain ⟨r, h1, _⟩ := hp
  refine whileFetch_never (fun o r hr => ?_) ?_ r h1
  · simp [bind_ok] at hr
  · have hl := hb.len
    have := List.length_pos_of_ne_nil hne
    rw [List.length_append, enc_length _ _ hf] at hl
    have hc : calcsize [I, H, H] = 8 := rfl
    rw [hl, hc]; omega

/-- C72 is false of the code: BUNDLE_ADD messages with properties raise TypeError when parsed. -/
theorem C72_bundle_add_properties_refuted (c : Call) (rnd rnd' : Nat) (h h' : HdrArg) (b f : Nat) (ps : Seq Pr) (pb bs pre post : Bytes)
    (hpb : seqBytes buildPr ps = .ok pb) (hne : pb ≠ []) (hp : c.Parseable h') (hb : (Call.bundleAdd b f rnd' h' c ps).run rnd h = .ok bs) :
    parse (pre ++ (bs ++ post)) pre.length = .error .typeError := by
  simp only [Call.run, buildBundleAdd, bind_ok, pack_eq_ok, hpb, ok_inj] at hb
  obtain ⟨ms, hms, _, rfl, _, ⟨hf, rfl⟩, _, rfl, hb⟩ := hb
  have hi := call_ok c rnd' h' ms hp hms
  have hb := made_one hb
  have hm := At.intro pre bs post _ rfl
  have hl := hb.len
  have hc : calcsize [I, X 2, H] = 8 := rfl
  have hbody := hb.body hm
  rw [List.append_assoc] at hbody
  have hin := hi.1 _ _ (hbody.right (pre.length + 16) (by rw [enc_length _ _ hf, hc])).left
  apply parse_error
  rw [parseAt_of (hb.hdr hm)]
  show parseBundleAdd (pre ++ (bs ++ post)) pre.length (parseAt (pre ++ (bs ++ post)) (pre.length + 16)) = _
  rw [parseBundleAdd, hb.hdr hm, ok_bind]
  refine (rd_bind hbody.left hf (by simp [exact]) (by rfl)).trans ?_
  simp only [hin, ok_bind]
  rw [List.length_append, List.length_append, enc_length _ _ hf, hc] at hl
  have := List.length_pos_of_ne_nil hne
  exact if_pos (by show pre.length + 16 + ms.length < pre.length + bs.length; omega)

/-- C72 is false of the code: unless its header is given with the length, a METER_MOD message comes back without its
bands. -/
theorem C72_meter_mod_refuted (rnd : Nat) (v x : Option Nat) (c f mt : Nat) (bd : Seq Band) (bs pre post : Bytes)
    (hb : buildMeterMod rnd (.tup v (some 29) none x) c f mt bd = .ok bs) :
    parse (pre ++ (bs ++ post)) pre.length = .ok (.meterMod ⟨5, 29, 8, x.getD rnd⟩ c f mt []) :=
  parse_of (meterMod_short hb (At.intro pre bs post _ rfl))

/-- C72 is false of the code: PORT_STATUS messages cannot be built, and TABLE_MOD messages only with properties that are
bytes already. -/
theorem C72_not_built_refuted (rnd : Nat) (h : HdrArg) (bs : Bytes) :
    (∀ r p, buildPortStatus rnd h r p ≠ .ok bs) ∧
    (∀ t c ps, buildTableMod rnd h t c ps = .ok bs → ∃ b, ps = .raw b) := by
  refine ⟨fun r p hb => ?_, fun t c ps hb => ?_⟩
  · simp [buildPortStatus, bind_ok] at hb
  · cases ps with
    | raw b => exact ⟨b, rfl⟩
    | _ => simp [buildTableMod, bind_ok] at hb

/-- All of these messages (but the last two) can be built. -/
example : (∃ bs, buildErrorExp 1 .none 2 3 [4] = .ok bs) ∧ (∃ bs, buildRole 1 (.tup none (some 24) none none) 2 3 = .ok bs) ∧
    (∃ bs, buildRoleStatus 1 (.tup none (some 25) none none) 2 3 4 (tups [.roleExp none none 5 6 (some [7])]) = .ok bs) ∧
    (∃ bs, buildTableStatus 1 .none 2 (obj buildRec (.tup (.tableDesc none 3 4 .none))) = .ok bs) ∧
    (∃ bs, buildPortMod 1 .none 2 [1, 2, 3, 4, 5, 6] 3 4 (tups [.pmEthernet none none 5]) = .ok bs) ∧
    (∃ bs, buildBundleCtrl 1 .none 2 3 4 (tups [.bundleExp none none 5 6 (some [7])]) = .ok bs) ∧
    (∃ bs, (Call.bundleAdd 1 2 3 .none (.other []) (tups [.bundleExp none none 5 6 (some [7])])).run 5 .none = .ok bs ∨
      (Call.bundleAdd 1 2 3 (.tup none (some 20) none none) (.other []) (tups [.bundleExp none none 5 6 (some [7])])).run 5 .none = .ok bs) ∧
    (∃ bs, buildMeterMod 1 (.tup none (some 29) none none) 2 3 4 (tups [.drop none none 1 2]) = .ok bs) := by
  refine ⟨⟨_, rfl⟩, ⟨_, rfl⟩, ⟨_, rfl⟩, ⟨_, rfl⟩, ⟨_, rfl⟩, ⟨_, rfl⟩, ⟨_, .inr rfl⟩, ⟨_, rfl⟩⟩

end Twink.Of14
