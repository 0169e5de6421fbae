import Verif.Proof.Of13Refute

/-!
# C39-C46: the OpenFlow 1.3 codec

A built piece `bs` is parsed where it stands in a buffer, after any bytes `pre` and before any bytes `post`.
`Action.wire`, `Instr.wire`, ... (`Verif.Spec.Of13`) say what comes back: the tuple given to the builder with its
type number and length, and with the NULs by which the builder fills up a set-field or experimenter action.
-/

namespace Twink.Of13
open Fmt Spec

/-- for the examples -/
theorem ok_of {x : Py α} (h : x.toBool = true) : ∃ a, x = .ok a := by
  cases x with
  | error e => simp [Except.toBool] at h
  | ok a => exact ⟨a, rfl⟩

/-! ### C39: matches -/

/-- C39. The match structure: type, length without the padding, the OXM bytes, NULs up to a multiple of eight. -/
theorem C39_match_layout (mt : MatchT) (bs : Bytes) (h : buildMatch mt = .ok bs) :
    bs.length % 8 = 0 ∧ 4 + mt.fields.length ≤ bs.length ∧ bs.length < 4 + mt.fields.length + 8 ∧
    u16 bs 0 = mt.type.getD 1 ∧ u16 bs 2 = 4 + mt.fields.length ∧
    bs.drop 4 = mt.fields ++ List.replicate (bs.length - (4 + mt.fields.length)) 0 := by
  obtain ⟨hf, hb⟩ := match_ok h
  have hl := (rt_match h).2
  have h1 := up8_mod (4 + mt.fields.length)
  have h2 := up8_ge (4 + mt.fields.length)
  have h3 := up8_lt (4 + mt.fields.length)
  obtain ⟨ht, hlen, _⟩ := fits_HH hf
  refine ⟨by omega, by omega, by omega, ?_, ?_, ?_⟩
  · rw [hb]; simp [enc, encBE_2, be16, b8, u16, u8]; omega
  · rw [hb]; simp [enc, encBE_2, be16, b8, u16, u8]; omega
  · rw [hl, hb, List.drop_left' (by simp [enc])]; rfl

/-- C39. Wherever it is embedded, a built match is parsed as the same type and the same OXM bytes, and the cursor
moves just past the padding. -/
theorem C39_match_round_trip (mt : MatchT) (bs pre post : Bytes) (h : buildMatch mt = .ok bs) :
    parseMatch (pre ++ (bs ++ post)) pre.length =
      .ok (⟨some (mt.type.getD 1), some (4 + mt.fields.length), .raw mt.fields⟩, pre.length + bs.length) :=
  (rt_match h).1.at (At.intro pre bs post _ rfl)

/-- C39. Every OXM byte string that fits can be built. -/
theorem C39_match_builds (t : Option Nat) (l : Option Nat) (fields : Bytes) (ht : t.getD 1 < 65536) (hl : fields.length < 65532) :
    ∃ bs, buildMatch ⟨t, l, .raw fields⟩ = .ok bs := by
  have hf : fits [H, H] [.int (t.getD 1), .int (4 + fields.length)] = true := by simp [fits, ht]; omega
  have ha := up8_mod (4 + fields.length)
  have hg := up8_ge (4 + fields.length)
  have hmod : (4 + (fields.length + (align (4 + fields.length) - (4 + fields.length)))) % 8 = 0 := by rw [align_eq]; omega
  refine ⟨enc [H, H] [.int (t.getD 1), .int (4 + fields.length)] ++ fields ++ nul (align (4 + fields.length) - (4 + fields.length)), ?_⟩
  simp only [buildMatch, seqBytes, ok_bind, pack, hf, if_true]
  rw [pyAssert_true (by rw [← hmod]; simp [enc]; omega), ok_bind]

example : buildMatch ⟨none, none, .raw [0x80, 0, 0x0a, 2, 8, 0]⟩ = .ok [0, 1, 0, 10, 0x80, 0, 0x0a, 2, 8, 0, 0, 0, 0, 0, 0, 0] := by
  decide

/-! ### C40: actions and instructions -/

/-- C40, in part: what is given back for a list of actions.  Missing: for set-field and experimenter actions the NULs
of the padding come back as part of the field or data (see `C40_set_field_refuted`), and set-MPLS-TTL actions do
not come back (`C40_mpls_ttl_refuted`). -/
theorem C40_actions_partial (s : Seq Action) (bs pre post : Bytes) (hs : s.All Action.Parseable)
    (h : seqBytes buildAction s = .ok bs) :
    whileFetch (parseAction (pre ++ (bs ++ post))) (pre.length + bs.length) pre.length =
      .ok (s.values.map Action.wire, pre.length + bs.length) :=
  whileFetch_at (seq_actions hs h).1 (At.intro pre bs post _ rfl) _ rfl

/-- C40. If no set-field or experimenter action needs padding, the same list comes back, types and lengths filled in. -/
theorem C40_actions_exact (s : Seq Action) (bs pre post : Bytes) (hs : s.All Action.Parseable) (ha : s.All Action.Aligned)
    (h : seqBytes buildAction s = .ok bs) :
    whileFetch (parseAction (pre ++ (bs ++ post))) (pre.length + bs.length) pre.length =
      .ok (s.values.map Action.filled, pre.length + bs.length) := by
  rw [C40_actions_partial s bs pre post hs h, actions_filled ha]

/-- C40, in part: the same for instructions with their actions. -/
theorem C40_instructions_partial (s : Seq Instr) (bs pre post : Bytes) (hs : s.All Instr.Parseable)
    (h : seqBytes buildInstr s = .ok bs) :
    listFetch (parseInstr (pre ++ (bs ++ post))) (pre.length + bs.length) pre.length =
      .ok (s.values.map Instr.wire, pre.length + bs.length) :=
  listFetch_at (seq_instrs hs h).1 (At.intro pre bs post _ rfl) _ rfl

/-- C40. If no action needs padding, the same list of instructions comes back. -/
theorem C40_instructions_exact (s : Seq Instr) (bs pre post : Bytes) (hs : s.All Instr.Parseable) (ha : s.All Instr.Aligned)
    (h : seqBytes buildInstr s = .ok bs) :
    listFetch (parseInstr (pre ++ (bs ++ post))) (pre.length + bs.length) pre.length =
      .ok (s.values.map Instr.filled, pre.length + bs.length) := by
  rw [C40_instructions_partial s bs pre post hs h, instrs_filled ha]

/-- A list of instructions with nested actions which meets all hypotheses. -/
example : ∃ bs, seqBytes buildInstr (tups [.actions (some 4) none (tups [.output none none 3 0, .push (some 17) none 0x8100,
      .setField none none [0x80, 0, 0x0c, 1], .experimenter none none 7 [], .header (some 24) (some 8)]),
      .gotoTable none none 9, .writeMetadata none none 5 6, .meter none none 8, .experimenter none none 1 [2, 3]]) = .ok bs ∧
    (tups [Instr.actions (some 4) none (tups [.output none none 3 0, .push (some 17) none 0x8100,
      .setField none none [0x80, 0, 0x0c, 1], .experimenter none none 7 [], .header (some 24) (some 8)]),
      .gotoTable none none 9, .writeMetadata none none 5 6, .meter none none 8, .experimenter none none 1 [2, 3]]).All
        (fun i => i.Parseable ∧ i.Aligned) := by
  refine ⟨_, rfl, all_tups ?_⟩
  simp only [List.mem_cons, List.not_mem_nil, or_false, forall_eq_or_imp, forall_eq, Instr.Parseable, Instr.Aligned, and_true, true_and]
  refine ⟨all_tups ?_, all_tups ?_⟩ <;> simp [Action.Parseable, Action.Aligned]

/-- C40 is false of the code: a set-field action whose OXM field does not end on a multiple of eight bytes never comes
back as it was, wherever it stands. -/
theorem C40_set_field_refuted (t l : Option Nat) (f bs pre post : Bytes) (hu : (4 + f.length) % 8 ≠ 0)
    (h : buildAction (.setField t l f) = .ok bs) :
    ∃ f' o, parseAction (pre ++ (bs ++ post)) pre.length = .ok (.setField (some 25) (some bs.length) f', o) ∧ f' ≠ f := by
  obtain ⟨h1, _, h3⟩ := rt_action (.setField t l f) bs trivial h
  refine ⟨fill8 4 f, pre.length + bs.length, ?_, fill8_ne hu⟩
  rw [h1.at (At.intro pre bs post _ rfl), h3]; rfl

/-- For example the field eth_type = 0x0800. -/
example : ∃ bs, buildAction (.setField none none [0x80, 0, 0x0a, 2, 8, 0]) = .ok bs ∧ (4 + [0x80, 0, 0x0a, 2, 8, 0].length) % 8 ≠ 0 :=
  ⟨_, rfl, by decide⟩

/-- C40 is false of the code: a set-MPLS-TTL action can be built but raises NameError when parsed. -/
theorem C40_mpls_ttl_refuted (t l : Option Nat) (n : Nat) (bs pre post : Bytes) (h : buildAction (.mplsTtl t l n) = .ok bs) :
    parseAction (pre ++ (bs ++ post)) pre.length = .error .nameError := by
  simp only [buildAction, bind_ok, pyAssert_ok, pack_eq_ok, ok_inj, exists_const] at h
  obtain ⟨ht, _, ⟨hf, rfl⟩, _, rfl⟩ := h
  rw [ht] at hf ⊢
  have hm : At (pre ++ (enc [H, H, B, X 3] [.int 15, .int 8, .int n] ++ post)) pre.length
      (enc [H, H, B, X 3] [.int 15, .int 8, .int n] ++ []) := by
    rw [List.append_nil]; exact At.intro pre _ post _ rfl
  rw [parseAction, peek4_at hm hf (by decide), ok_bind]
  rfl

example : ∃ bs, buildAction (.mplsTtl none none 64) = .ok bs := ⟨_, rfl⟩

/-! ### C41: flow modifications -/

/-- C41, in part: parsing a built FLOW_MOD gives the fields, the match and the instructions it was built from, and the
header.  Missing: actions that need padding or are not parseable, see C40. -/
theorem C41_flow_mod_partial (rnd : Nat) (h : HdrArg) (c cm t cmd i hd p : Nat) (b op og : Option Nat) (f : Nat) (mt : MatchT)
    (is : Seq Instr) (bs pre post : Bytes)
    (hb : buildFlowMod rnd h c cm t cmd i hd p b op og f (.tup mt) is = .ok bs) (hp : is.All Instr.Parseable) :
    parse (pre ++ (bs ++ post)) pre.length = .ok (.flowMod ⟨4, 14, bs.length, h.xid rnd⟩ c cm t cmd i hd p
      (b.getD 0xffffffff) (op.getD 0xffffffff) (og.getD 0xffffffff) f
      ⟨some (mt.type.getD 1), some (4 + mt.fields.length), .raw mt.fields⟩ (is.values.map Instr.wire)) :=
  flowMod_at hb hp (At.intro pre bs post _ rfl)

/-- C41. If no action needs padding, exactly the given instructions come back (types and lengths filled in). -/
theorem C41_flow_mod_exact (rnd : Nat) (h : HdrArg) (c cm t cmd i hd p : Nat) (b op og : Option Nat) (f : Nat) (mt : MatchT)
    (is : Seq Instr) (bs pre post : Bytes)
    (hb : buildFlowMod rnd h c cm t cmd i hd p b op og f (.tup mt) is = .ok bs) (hp : is.All Instr.Parseable)
    (ha : is.All Instr.Aligned) :
    parse (pre ++ (bs ++ post)) pre.length = .ok (.flowMod ⟨4, 14, bs.length, h.xid rnd⟩ c cm t cmd i hd p
      (b.getD 0xffffffff) (op.getD 0xffffffff) (og.getD 0xffffffff) f
      ⟨some (mt.type.getD 1), some (4 + mt.fields.length), .raw mt.fields⟩ (is.values.map Instr.filled)) := by
  rw [C41_flow_mod_partial rnd h c cm t cmd i hd p b op og f mt is bs pre post hb hp, instrs_filled ha]

/-- C41 is false of the code: the instructions of a FLOW_MOD that sets a field which needs padding do not come back. -/
theorem C41_flow_mod_refuted (rnd : Nat) (h : HdrArg) (c cm t cmd i hd p : Nat) (b op og : Option Nat) (f : Nat) (mt : MatchT)
    (it : Nat) (fd : Bytes) (bs pre post : Bytes) (hu : (4 + fd.length) % 8 ≠ 0)
    (hb : buildFlowMod rnd h c cm t cmd i hd p b op og f (.tup mt) (tups [.actions (some it) none (tups [.setField none none fd])]) = .ok bs) :
    ∃ m t' l', ∃ fd' ≠ fd, parse (pre ++ (bs ++ post)) pre.length = .ok (.flowMod ⟨4, 14, bs.length, h.xid rnd⟩ c cm t cmd i hd p
      (b.getD 0xffffffff) (op.getD 0xffffffff) (og.getD 0xffffffff) f m
      [.actions (some it) l' (tups [.setField (some 25) t' fd'])]) := by
  exact ⟨_, _, _, fill8 4 fd, fill8_ne hu, C41_flow_mod_partial _ _ _ _ _ _ _ _ _ _ _ _ _ _ _ bs pre post hb
    (all_tups (by simp only [List.mem_singleton, forall_eq]; exact all_tups (by simp [Action.Parseable])))⟩

example : ∃ bs, buildFlowMod 1 .none 0 0 0 0 0 0 0 none none none 0 (.tup ⟨none, none, .none⟩)
    (tups [.actions (some 4) none (tups [.setField none none [0x80, 0, 0x0a, 2, 8, 0]])]) = .ok bs := ⟨_, rfl⟩

/-! ### C42: group and meter modifications -/

/-- C42, in part: GROUP_MOD. Missing: actions that need padding or are not parseable. -/
theorem C42_group_mod_partial (rnd : Nat) (h : HdrArg) (c t g : Nat) (bk : Seq Bucket) (bs pre post : Bytes)
    (hb : buildGroupMod rnd h c t g bk = .ok bs) (hp : bk.All Bucket.Parseable) :
    parse (pre ++ (bs ++ post)) pre.length =
      .ok (.groupMod ⟨4, 15, bs.length, h.xid rnd⟩ c t g (bk.values.map Bucket.wire)) :=
  groupMod_at hb hp (At.intro pre bs post _ rfl)

/-- C42. If no action needs padding, exactly the given buckets come back. -/
theorem C42_group_mod_exact (rnd : Nat) (h : HdrArg) (c t g : Nat) (bk : Seq Bucket) (bs pre post : Bytes)
    (hb : buildGroupMod rnd h c t g bk = .ok bs) (hp : bk.All Bucket.Parseable)
    (ha : bk.All (fun b => b.actions.All Action.Aligned)) :
    parse (pre ++ (bs ++ post)) pre.length =
      .ok (.groupMod ⟨4, 15, bs.length, h.xid rnd⟩ c t g (bk.values.map Bucket.filled)) := by
  rw [C42_group_mod_partial rnd h c t g bk bs pre post hb hp, buckets_filled ha]

/-- C42, in part: METER_MOD with drop and DSCP-remark bands. Missing: experimenter bands, `C42_meter_mod_refuted`. -/
theorem C42_meter_mod_partial (rnd : Nat) (h : HdrArg) (c f mt : Nat) (bd : Seq Band) (bs pre post : Bytes)
    (hb : buildMeterMod rnd h c f mt bd = .ok bs) (hp : bd.All Band.Parseable) :
    parse (pre ++ (bs ++ post)) pre.length =
      .ok (.meterMod ⟨4, 29, bs.length, h.xid rnd⟩ c f mt (bd.values.map Band.wire)) :=
  meterMod_at hb hp (At.intro pre bs post _ rfl)

example : (∃ bs, buildGroupMod 1 .none 0 1 7 (tups [⟨none, 1, 2, 3, tups [.output none none 4 5]⟩, ⟨none, 0, 0, 0, .none⟩]) = .ok bs) ∧
    (∃ bs, buildMeterMod 1 .none 0 1 7 (tups [.drop none none 1 2, .dscp none none 3 4 5]) = .ok bs) := ⟨⟨_, rfl⟩, ⟨_, rfl⟩⟩

/-- C42 and C46 are false of the code: parsing a METER_MOD message made by the library's own builder never ends if one
of its bands is an experimenter band (after any drop and DSCP bands, before any others). -/
theorem meter_mod_diverges (rnd : Nat) (h : HdrArg) (c f mt : Nat) (l1 l2 : List Band) (t l : Option Nat) (r b x : Nat) (d : Bytes)
    (bs pre post : Bytes) (hl : ∀ a ∈ l1, a.Parseable)
    (hb : buildMeterMod rnd h c f mt (tups (l1 ++ .experimenter t l r b x d :: l2)) = .ok bs) :
    parse (pre ++ (bs ++ post)) pre.length = .error .diverges := by
  simp only [buildMeterMod, bind_ok, pack_eq_ok] at hb
  obtain ⟨kb, hkb, _, ⟨hf, rfl⟩, hb⟩ := hb
  have hb := built_one hb (At.intro pre bs post _ rfl)
  have hj : ∃ b1 b2 b3, join buildBand (l1.map .tup) = .ok b1 ∧ buildBand (.experimenter t l r b x d) = .ok b2 ∧ kb = b1 ++ (b2 ++ b3) := by
    have hkb : join buildBand ((l1 ++ .experimenter t l r b x d :: l2).map .tup) = .ok kb := hkb
    clear hb hl
    clear * - hkb
    induction l1 generalizing kb with
    | nil =>
      rw [List.nil_append, List.map_cons, join_ok_cons] at hkb
      obtain ⟨b1, b2, h1, _, rfl⟩ := hkb
      exact ⟨[], b1, b2, rfl, h1, rfl⟩
    | cons a l1 ih =>
      rw [List.cons_append, List.map_cons, join_ok_cons] at hkb
      obtain ⟨b0, bs', h1, h2, rfl⟩ := hkb
      obtain ⟨b1, b2, b3, g1, g2, rfl⟩ := ih bs' h2
      exact ⟨b0 ++ b1, b2, b3, by rw [List.map_cons, join_ok_cons]; exact ⟨b0, b1, h1, g1, rfl⟩, g2, by simp⟩
  obtain ⟨b1, b2, b3, g1, g2, rfl⟩ := hj
  have hparts := (seq_bands (s := tups l1) (all_tups hl) g1).1
  simp only [buildBand, bind_ok, pyAssert_ok, pack_eq_ok, ok_inj, exists_const] at g2
  obtain ⟨ht, _, ⟨hf2, rfl⟩, rfl⟩ := g2
  rw [ht] at hf2 hb
  rw [hb.parse]
  show parseMeterMod _ _ = _
  rw [parseMeterMod, hb.hdr, ok_bind]
  have hbody := hb.body
  refine (rd_bind hbody.left hf (by simp [exact]) (by rfl)).trans ?_
  have hk := hbody.right (pre.length + 8 + 8) (by simp [enc])
  have hlen := hb.len
  have hdiv : whileFetch (parseBand (pre ++ (bs ++ post))) (pre.length + bs.length) (pre.length + 8 + 8) = .error .diverges := by
    refine whileFetch_prefix hparts hk.left ?_ ?_
    · rw [hlen]; simp [enc]; omega
    · have hk2 := hk.right _ rfl
      rw [List.append_assoc] at hk2
      exact bands_diverge hk2 hf2 (by rw [hlen]; simp [enc]; omega)
  have e8 : calcsize [H, H, I] = 8 := rfl
  simp only [e8]
  rw [hdiv]; rfl

theorem C42_meter_mod_refuted (rnd : Nat) (h : HdrArg) (c f mt : Nat) (l1 l2 : List Band) (t l : Option Nat) (r b x : Nat) (d : Bytes)
    (bs pre post : Bytes) (hl : ∀ a ∈ l1, a.Parseable)
    (hb : buildMeterMod rnd h c f mt (tups (l1 ++ .experimenter t l r b x d :: l2)) = .ok bs) :
    parse (pre ++ (bs ++ post)) pre.length = .error .diverges :=
  meter_mod_diverges rnd h c f mt l1 l2 t l r b x d bs pre post hl hb

example : ∃ bs, buildMeterMod 1 .none 0 1 7 (tups ([.drop none none 1 2] ++ .experimenter none none 3 4 5 [6] :: [])) = .ok bs := ⟨_, rfl⟩

/-! ### C43: packet-in, packet-out, flow-removed -/

/-- C43. PACKET_IN. -/
theorem C43_packet_in (rnd : Nat) (h : HdrArg) (b tl r t c : Nat) (mt : MatchT) (d bs pre post : Bytes)
    (hb : buildPacketIn rnd h b tl r t c (.tup mt) d = .ok bs) :
    parse (pre ++ (bs ++ post)) pre.length = .ok (.packetIn ⟨4, 10, bs.length, h.xid rnd⟩ b tl r t c
      ⟨some (mt.type.getD 1), some (4 + mt.fields.length), .raw mt.fields⟩ d) :=
  packetIn_at hb (At.intro pre bs post _ rfl)

/-- C43. FLOW_REMOVED. -/
theorem C43_flow_removed (rnd : Nat) (h : HdrArg) (c p r t ds dn i hd pc bc : Nat) (mt : MatchT) (bs pre post : Bytes)
    (hb : buildFlowRemoved rnd h c p r t ds dn i hd pc bc (.tup mt) = .ok bs) :
    parse (pre ++ (bs ++ post)) pre.length = .ok (.flowRemoved ⟨4, 11, bs.length, h.xid rnd⟩ c p r t ds dn i hd pc bc
      ⟨some (mt.type.getD 1), some (4 + mt.fields.length), .raw mt.fields⟩) :=
  flowRemoved_at hb (At.intro pre bs post _ rfl)

/-- C43, in part: PACKET_OUT.  Missing: actions that need padding or are not parseable. -/
theorem C43_packet_out_partial (rnd : Nat) (h : HdrArg) (b : Option Nat) (ip : Nat) (as : Seq Action) (d : Option Bytes) (bs pre post : Bytes)
    (hb : buildPacketOut rnd h b ip as d = .ok bs) (hp : as.All Action.Parseable) :
    parse (pre ++ (bs ++ post)) pre.length = .ok (.packetOut ⟨4, 13, bs.length, h.xid rnd⟩ (b.getD 0xffffffff) ip (actionsSize as)
      (as.values.map Action.wire) (d.getD [])) :=
  packetOut_at hb hp (At.intro pre bs post _ rfl)

/-- C43. PACKET_OUT, if no action needs padding. -/
theorem C43_packet_out_exact (rnd : Nat) (h : HdrArg) (b : Option Nat) (ip : Nat) (as : Seq Action) (d : Option Bytes) (bs pre post : Bytes)
    (hb : buildPacketOut rnd h b ip as d = .ok bs) (hp : as.All Action.Parseable) (ha : as.All Action.Aligned) :
    parse (pre ++ (bs ++ post)) pre.length = .ok (.packetOut ⟨4, 13, bs.length, h.xid rnd⟩ (b.getD 0xffffffff) ip (actionsSize as)
      (as.values.map Action.filled) (d.getD [])) := by
  rw [C43_packet_out_partial rnd h b ip as d bs pre post hb hp, actions_filled ha]

/-- C43 is false of the code: an action that needs padding does not come back. -/
theorem C43_packet_out_refuted (rnd : Nat) (h : HdrArg) (b : Option Nat) (ip : Nat) (f : Bytes) (d : Option Bytes) (bs pre post : Bytes)
    (hu : (4 + f.length) % 8 ≠ 0) (hb : buildPacketOut rnd h b ip (tups [.setField none none f]) d = .ok bs) :
    ∃ n l, ∃ f' ≠ f, parse (pre ++ (bs ++ post)) pre.length = .ok (.packetOut ⟨4, 13, bs.length, h.xid rnd⟩ (b.getD 0xffffffff) ip n
      [.setField (some 25) l f'] (d.getD [])) := by
  exact ⟨_, _, fill8 4 f, fill8_ne hu,
    C43_packet_out_partial rnd h b ip _ d bs pre post hb (all_tups (by simp [Action.Parseable]))⟩

example : (∃ bs, buildPacketIn 1 .none 2 3 4 5 6 (.tup ⟨none, none, .raw [1, 2, 3]⟩) [7, 8] = .ok bs) ∧
    (∃ bs, buildFlowRemoved 1 .none 2 3 4 5 6 7 8 9 10 11 (.tup ⟨none, none, .raw [1, 2, 3]⟩) = .ok bs) ∧
    (∃ bs, buildPacketOut 1 .none none 2 (tups [.output none none 3 4, .setField none none [0x80, 0, 0x0a, 2, 8, 0]]) (some [5]) = .ok bs) :=
  ⟨⟨_, rfl⟩, ⟨_, rfl⟩, ⟨_, rfl⟩⟩

/-! ### C44: fixed size control messages -/

/-- C44. HELLO with any list of version bitmaps. -/
theorem C44_hello (rnd : Nat) (h : HdrArg) (es : Seq HelloElem) (bs pre post : Bytes) (hb : buildHello rnd h es = .ok bs)
    (hp : es.All HelloElem.Parseable) :
    parse (pre ++ (bs ++ post)) pre.length = .ok (.hello ⟨4, 0, bs.length, h.xid rnd⟩ (es.values.map HelloElem.wire)) :=
  hello_at hb hp (At.intro pre bs post _ rfl)

/-- C44. ERROR. -/
theorem C44_error (rnd : Nat) (h : HdrArg) (t c : Nat) (d : Option Bytes) (bs pre post : Bytes) (hb : buildError rnd h t c d = .ok bs) :
    parse (pre ++ (bs ++ post)) pre.length = .ok (.error ⟨4, 1, bs.length, h.xid rnd⟩ t c (d.getD [])) :=
  error_at hb (At.intro pre bs post _ rfl)

/-- C44. FEATURES_REPLY. -/
theorem C44_features (rnd : Nat) (h : HdrArg) (d nb nt aux caps : Nat) (bs pre post : Bytes)
    (hb : buildFeatures rnd h d nb nt aux caps = .ok bs) :
    parse (pre ++ (bs ++ post)) pre.length = .ok (.features ⟨4, 6, bs.length, h.xid rnd⟩ d nb nt aux caps) :=
  features_at hb (At.intro pre bs post _ rfl)

/-- C44. SET_CONFIG and GET_CONFIG_REPLY. -/
theorem C44_config (rnd : Nat) (h : HdrArg) (fl : Nat) (ms : Option Nat) (bs pre post : Bytes) (hb : buildConfig rnd h fl ms = .ok bs) :
    parse (pre ++ (bs ++ post)) pre.length = .ok (.config ⟨4, h.type 0, bs.length, h.xid rnd⟩ fl (ms.getD 0xffff)) :=
  (config_at hb (At.intro pre bs post _ rfl)).2

/-- C44. TABLE_MOD. -/
theorem C44_table_mod (rnd : Nat) (h : HdrArg) (a b : Nat) (bs pre post : Bytes) (hb : buildTableMod rnd h a b = .ok bs) :
    parse (pre ++ (bs ++ post)) pre.length = .ok (.tableMod ⟨4, 17, bs.length, h.xid rnd⟩ a b) :=
  tableMod_at hb (At.intro pre bs post _ rfl)

/-- C44. PORT_STATUS: everything but the name comes back as given; the name comes back as Unicode text up to its first
NUL (`PortT.wire`). -/
theorem C44_port_status_partial (rnd : Nat) (h : HdrArg) (r : Nat) (p : PortT) (bs pre post : Bytes)
    (hb : buildPortStatus rnd h r (.tup p) = .ok bs) :
    parse (pre ++ (bs ++ post)) pre.length = .ok (.portStatus ⟨4, 12, bs.length, h.xid rnd⟩ r p.wire) :=
  portStatus_at hb (At.intro pre bs post _ rfl)

/-- C44. ROLE_REQUEST. -/
theorem C44_role_request (rnd : Nat) (h : HdrArg) (r g : Nat) (bs pre post : Bytes) (hb : buildRole rnd h r g = .ok bs)
    (ht : h.type 0 = 24) :
    parse (pre ++ (bs ++ post)) pre.length = .ok (.role ⟨4, 24, bs.length, h.xid rnd⟩ r g) :=
  role_at hb (At.intro pre bs post _ rfl) ht

/-- C44. GET_ASYNC_REPLY and SET_ASYNC. -/
theorem C44_async (rnd : Nat) (h : HdrArg) (a1 a2 b1 b2 c1 c2 : Nat) (bs pre post : Bytes)
    (hb : buildAsync rnd h [a1, a2] [b1, b2] [c1, c2] = .ok bs) :
    parse (pre ++ (bs ++ post)) pre.length = .ok (.async ⟨4, h.type 0, bs.length, h.xid rnd⟩ (a1, a2) (b1, b2) (c1, c2)) := by
  obtain ⟨_, x1, x2, y1, y2, z1, z2, e1, e2, e3, h2⟩ := async_at hb (At.intro pre bs post _ rfl) rfl rfl rfl
  injection e1 with e1 e4; injection e4 with e4 _
  injection e2 with e2 e5; injection e5 with e5 _
  injection e3 with e3 e6; injection e6 with e6 _
  subst e1 e2 e3 e4 e5 e6
  exact h2

/-- C44. QUEUE_GET_CONFIG_REQUEST. -/
theorem C44_queue_request (rnd : Nat) (h : HdrArg) (p : Nat) (bs pre post : Bytes) (hb : buildQueueReq rnd h p = .ok bs) :
    parse (pre ++ (bs ++ post)) pre.length = .ok (.queueReq ⟨4, 22, bs.length, h.xid rnd⟩ p) :=
  queueReq_at hb (At.intro pre bs post _ rfl)

/-- C44 is false of the code: parsing any built PORT_MOD message raises an exception. -/
theorem C44_port_mod_refuted (rnd : Nat) (h : HdrArg) (p : Nat) (hw : Bytes) (c k a : Nat) (bs pre post : Bytes)
    (hb : buildPortMod rnd h p hw c k a = .ok bs) :
    parse (pre ++ (bs ++ post)) pre.length = .error .valueError := by
  simp only [buildPortMod, bind_ok, pack_eq_ok, pyAssert_ok, ok_inj, exists_const] at hb
  obtain ⟨_, ⟨hf, rfl⟩, w, hb, hl, rfl⟩ := hb
  have hb := built_one hb (At.intro pre _ post _ rfl)
  rw [hb.parse]
  show parsePortMod _ _ = _
  rw [parsePortMod, hb.hdr, ok_bind]
  have : unpackFrom portModFmt (pre ++ (w ++ post)) pre.length = .ok (dec portModFmt ((pre ++ (w ++ post)).drop pre.length)) := by
    unfold unpackFrom
    rw [if_pos]
    simp [hl, calcsize, portModFmt, Item.width]
    omega
  simp only [rd, this]
  rfl

example : (∃ bs, buildHello 1 .none (tups [.versionBitmap none none (.list [0x12])]) = .ok bs) ∧
    (∃ bs, buildError 1 .none 2 3 (some [4]) = .ok bs) ∧ (∃ bs, buildFeatures 1 .none 2 3 4 5 6 = .ok bs) ∧
    (∃ bs, buildConfig 1 (.tup none (some 9) none none) 2 none = .ok bs) ∧ (∃ bs, buildTableMod 1 .none 2 3 = .ok bs) ∧
    (∃ bs, buildPortStatus 1 .none 2 (.tup ⟨1, [1, 2, 3, 4, 5, 6], .str [97, 98], 0, 1, 2, 3, 4, 5, 6, 7⟩) = .ok bs) ∧
    (∃ bs, buildRole 1 (.tup none (some 24) none none) 2 3 = .ok bs) ∧
    (∃ bs, buildAsync 1 (.tup none (some 28) none none) [2, 3] [4, 5] [6, 7] = .ok bs) ∧
    (∃ bs, buildQueueReq 1 .none 2 = .ok bs) ∧ (∃ bs, buildPortMod 1 .none 2 [1, 2, 3, 4, 5, 6] 3 4 5 = .ok bs) :=
  ⟨ok_of (by decide +kernel), ⟨_, rfl⟩, ⟨_, rfl⟩, ⟨_, rfl⟩, ⟨_, rfl⟩, ⟨_, rfl⟩, ⟨_, rfl⟩, ⟨_, rfl⟩, ⟨_, rfl⟩, ⟨_, rfl⟩⟩

/-! ### C45: multipart messages -/

/-- C45. Requests without body. -/
theorem C45_request_empty (rnd : Nat) (h : HdrArg) (t f : Nat) (body : Body) (bs pre post : Bytes) (ht : t ∈ [0, 3, 7, 8, 11, 13])
    (hb : buildMpRequest rnd h t f body = .ok bs) :
    bs.length = 16 ∧ parse (pre ++ (bs ++ post)) pre.length = .ok (.mpRequest ⟨4, 18, bs.length, h.xid rnd⟩ t f (.raw [])) :=
  mpRequest_empty ht hb (At.intro pre bs post _ rfl)

/-- C45, in part: requests with a body record (flow, port, queue, group, meter and meter configuration requests; defaults
filled in).  Missing: aggregate requests, which cannot be built (`C45_aggregate_request_refuted`). -/
theorem C45_request_partial (rnd : Nat) (h : HdrArg) (t f : Nat) (r : Rec) (bs pre post : Bytes) (ht : t ∈ r.requestTypes)
    (hr : r.Parseable) (hb : buildMpRequest rnd h t f (.one r) = .ok bs) :
    parse (pre ++ (bs ++ post)) pre.length = .ok (.mpRequest ⟨4, 18, bs.length, h.xid rnd⟩ t f (.one r.wire)) :=
  mpRequest_one ht hr hb (At.intro pre bs post _ rfl)

/-- C45. Experimenter requests. -/
theorem C45_request_experimenter (rnd : Nat) (h : HdrArg) (f : Nat) (d bs pre post : Bytes)
    (hb : buildMpRequest rnd h 0xffff f (.raw d) = .ok bs) :
    parse (pre ++ (bs ++ post)) pre.length = .ok (.mpRequest ⟨4, 18, bs.length, h.xid rnd⟩ 0xffff f (.raw d)) :=
  mpRequest_exp hb (At.intro pre bs post _ rfl)

/-- C45, in part: replies with a single record (description, group features, meter features).  Missing: the strings of
the description come back with the NULs of their fields (`C45_desc_refuted`). -/
theorem C45_reply_one_partial (rnd : Nat) (h : HdrArg) (t f : Nat) (r : Rec) (bs pre post : Bytes) (ht : r.replyType = some t)
    (hs : t ∈ [0, 8, 11]) (hr : r.Parseable) (hb : buildMpReply rnd h t f (.one r) = .ok bs) :
    parse (pre ++ (bs ++ post)) pre.length = .ok (.mpReply ⟨4, 19, bs.length, h.xid rnd⟩ t f (.one r.wire)) :=
  mpReply_one ht hs hr hb (At.intro pre bs post _ rfl)

/-- C45, in part: replies with a list of records, of any length (flow, table, queue, group, group description, meter,
meter configuration, port description). Missing: port statistics, table features, aggregate replies. -/
theorem C45_reply_list_partial (rnd : Nat) (h : HdrArg) (t f : Nat) (l : List Rec) (bs pre post : Bytes)
    (hs : t ∈ [1, 3, 5, 6, 7, 9, 10, 13]) (hl : ∀ r ∈ l, r.replyType = some t ∧ r.Parseable)
    (hb : buildMpReply rnd h t f (.many (l.map .tup)) = .ok bs) :
    parse (pre ++ (bs ++ post)) pre.length = .ok (.mpReply ⟨4, 19, bs.length, h.xid rnd⟩ t f (.many ((l.map Rec.wire).map .tup))) :=
  mpReply_many hs hl hb (At.intro pre bs post _ rfl)

/-- C45. Experimenter replies. -/
theorem C45_reply_experimenter (rnd : Nat) (h : HdrArg) (f e t : Nat) (d bs pre post : Bytes) (he : e < 2 ^ 32) (ht : t < 2 ^ 32)
    (hb : buildMpReply rnd h 0xffff f (.raw (be32 e ++ be32 t ++ d)) = .ok bs) :
    parse (pre ++ (bs ++ post)) pre.length = .ok (.mpReply ⟨4, 19, bs.length, h.xid rnd⟩ 0xffff f (.one (.experimenter e t d))) :=
  mpReply_exp he ht hb (At.intro pre bs post _ rfl)

/-- A concrete reply with two flows, and a concrete request. -/
example : (∃ bs, buildMpReply 1 .none 1 0 (.many ([Rec.flowStats none 1 2 3 4 5 6 7 8 9 10 (.tup ⟨none, none, .raw [1, 2, 3]⟩)
      (tups [.gotoTable none none 2]), .flowStats none 1 2 3 4 5 6 7 8 9 10 (.tup ⟨none, none, .none⟩) .none].map .tup)) = .ok bs) ∧
    (∀ r ∈ [Rec.flowStats none 1 2 3 4 5 6 7 8 9 10 (.tup ⟨none, none, .raw [1, 2, 3]⟩) (tups [.gotoTable none none 2]),
      .flowStats none 1 2 3 4 5 6 7 8 9 10 (.tup ⟨none, none, .none⟩) .none], r.replyType = some 1 ∧ r.Parseable) ∧
    (∃ bs, buildMpRequest 1 .none 1 0 (.one (.flowStatsReq none none none none none none)) = .ok bs) := by
  refine ⟨ok_of (by decide +kernel), ?_, ok_of (by decide +kernel)⟩
  simp only [List.mem_cons, List.not_mem_nil, or_false, forall_eq_or_imp, forall_eq]
  refine ⟨⟨rfl, ⟨_, rfl⟩, all_tups (by simp [Instr.Parseable])⟩, ⟨rfl, ⟨_, rfl⟩, trivial⟩⟩

/-- C45 is false of the code: a non-empty list of port statistics never comes back, because the parser reads records of 111
bytes where the builder writes 112. -/
theorem C45_port_stats_refuted (rnd : Nat) (h : HdrArg) (f : Nat) (l : List Rec) (bs pre post : Bytes) (hne : l ≠ [])
    (hl : ∀ r ∈ l, r.replyType = some 4) (hb : buildMpReply rnd h 4 f (.many (l.map .tup)) = .ok bs)
    (l' : List Rec) (hl' : l'.length = l.length) :
    parse (pre ++ (bs ++ post)) pre.length ≠ .ok (.mpReply ⟨4, 19, bs.length, h.xid rnd⟩ 4 f (.many (l'.map .tup))) := by
  obtain ⟨b, h1, _, h3, h4⟩ := mpReply_at hb (At.intro pre bs post _ rfl)
  have h1 : join buildRec (l.map .tup) = .ok b := h1
  have hlen := join_len (fun r hr b hb => portStats_len (hl r hr) hb) h1
  rw [h4]
  show (do let bd ← several (listFetch (parsePortStats (pre ++ (bs ++ post))) (pre.length + bs.length) (pre.length + 16)); _) ≠ _
  intro h5
  simp only [several, listFetch, bind_ok, pyAssert_ok, ok_inj, exists_const] at h5
  obtain ⟨bd, ⟨r, ⟨r', h6, h7, rfl⟩, rfl⟩, h8⟩ := h5
  have h9 := whileFetch_steps (c := 111) (fun o a o' ho => (rd_ok ho).1) h6
  have hpos : 0 < l.length := List.length_pos_of_ne_nil hne
  have h10 : (r'.1.map Elem.tup).length = (l'.map Elem.tup).length := by
    injection h8 with _ _ _ h8
    injection h8 with h8
    rw [h8]
  simp only [List.length_map] at h10
  omega

example : ∃ bs, buildMpReply 1 .none 4 0 (.many ([Rec.portStats 1 [1, 2, 3, 4, 5, 6, 7, 8, 9, 10, 11, 12] 13 14].map .tup)) = .ok bs :=
  ok_of (by decide +kernel)

/-- C45 is false of the code: a description with a manufacturer string that does not fill its field does not come back. -/
theorem C45_desc_refuted (rnd : Nat) (h : HdrArg) (f : Nat) (a : Bytes) (b c d e : Option Bytes) (bs pre post : Bytes) (ha : a.length < 256)
    (hb : buildMpReply rnd h 0 f (.one (.desc (some a) b c d e)) = .ok bs) :
    ∃ a' ≠ a, ∃ b' c' d' e', parse (pre ++ (bs ++ post)) pre.length =
      .ok (.mpReply ⟨4, 19, bs.length, h.xid rnd⟩ 0 f (.one (.desc (some a') b' c' d' e'))) := by
  refine ⟨inField 256 a, ?_, _, _, _, _, C45_reply_one_partial rnd h 0 f (.desc (some a) b c d e) bs pre post rfl (by simp) trivial hb⟩
  intro he
  have : (inField 256 a).length = a.length := by rw [he]
  simp [inField] at this
  omega

example : ∃ bs, buildMpReply 1 .none 0 0 (.one (.desc (some [84, 87]) none none none none)) = .ok bs :=
  ok_of (by decide +kernel)

/-- C45 is false of the code: a single aggregate record, which is what the builder takes, comes back as a list. -/
theorem C45_aggregate_reply_refuted (rnd : Nat) (h : HdrArg) (f a b c : Nat) (bs pre post : Bytes)
    (hb : buildMpReply rnd h 2 f (.one (.aggregate a b c)) = .ok bs) :
    parse (pre ++ (bs ++ post)) pre.length = .ok (.mpReply ⟨4, 19, bs.length, h.xid rnd⟩ 2 f (.many [.tup (.aggregate a b c)])) :=
  mpReply_aggregate hb (At.intro pre bs post _ rfl)

example : ∃ bs, buildMpReply 1 .none 2 0 (.one (.aggregate 1 2 3)) = .ok bs := ⟨_, rfl⟩

/-- C45 is false of the code: no aggregate statistics request can be built. -/
theorem C45_aggregate_request_refuted (rnd : Nat) (h : HdrArg) (f : Nat) (t p g c cm : Option Nat) (mt : Option (Elem MatchT)) (bs : Bytes) :
    buildMpRequest rnd h 2 f (.one (.aggregateReq t p g c cm mt)) ≠ .ok bs := by
  intro hb
  simp only [buildMpRequest, bind_ok] at hb
  obtain ⟨b, h1, _⟩ := hb
  have h1 : buildRec (.aggregateReq t p g c cm mt) = .ok b := h1
  simp only [buildRec, bind_ok, pack_eq_ok, pyAssert_ok, exists_const] at h1
  obtain ⟨d, ⟨hf, rfl⟩, h2, _⟩ := h1
  rw [enc_length _ _ hf] at h2
  simp [calcsize, flowStatsReqFmt, Item.width] at h2

/-! ### C46: termination -/

/-- C46 is false of the code: a PACKET_OUT with one set-field action of length zero is never parsed. -/
theorem C46_packet_out_refuted (x b p : Nat) (hx : x < 2 ^ 32) (hb : b < 2 ^ 32) (hp : p < 2 ^ 32) :
    parse (ofHeader 4 13 32 x ++ be32 b ++ be32 p ++ be16 8 ++ zeros 6 ++ be16 25 ++ be16 0 ++ zeros 4) 0 = .error .diverges := by
  have e1 : ofHeader 4 13 32 x = enc hdrFmt [.int 4, .int 13, .int 32, .int x] := by
    simp [ofHeader, hdrFmt, enc, encBE_1, encBE_2, encBE_4]
  have e2 : be32 b ++ be32 p ++ be16 8 ++ zeros 6 = enc [I, I, H, X 6] [.int b, .int p, .int 8] := by
    simp [enc, encBE_2, encBE_4, zeros, nul]
  have e3 : be16 25 ++ be16 0 = enc [H, H] [.int 25, .int 0] := by simp [enc, encBE_2]
  have e : ofHeader 4 13 32 x ++ be32 b ++ be32 p ++ be16 8 ++ zeros 6 ++ be16 25 ++ be16 0 ++ zeros 4 =
      [] ++ ((enc hdrFmt [.int 4, .int 13, .int 32, .int x] ++ (enc [I, I, H, X 6] [.int b, .int p, .int 8] ++
        (enc [H, H] [.int 25, .int 0] ++ zeros 4))) ++ []) := by
    rw [← e1, ← e2, ← e3]; simp
  rw [e]
  have hf : fits hdrFmt [.int 4, .int 13, .int 32, .int x] = true := by simp [fits, hdrFmt]; omega
  have hf2 : fits [I, I, H, X 6] [.int b, .int p, .int 8] = true := by simp [fits]; omega
  have hm := At.intro [] (enc hdrFmt [.int 4, .int 13, .int 32, .int x] ++ (enc [I, I, H, X 6] [.int b, .int p, .int 8] ++
        (enc [H, H] [.int 25, .int 0] ++ zeros 4))) [] 0 rfl
  rw [parse_at hm hf]
  show parsePacketOut _ _ = _
  rw [parsePacketOut, parseHdr_at hm hf, ok_bind]
  have hbody := data_at hm
  refine (rd_bind hbody.left hf2 (by simp [exact]) (by rfl)).trans ?_
  have hk := hbody.right 24 (by simp [enc])
  have := actions_diverge (lim := 32) hk (by simp [zeros]) (by omega)
  have e4 : (0 + 8 + calcsize [I, I, H, X 6]) = 24 := rfl
  simp only [e4, Nat.reduceAdd] at this ⊢
  rw [this]; rfl

/-- C46 is false of the code: METER_MOD messages made by the library's own builder are never parsed if they have an
experimenter band. -/
theorem C46_meter_mod_refuted (rnd : Nat) (h : HdrArg) (c f mt : Nat) (l1 l2 : List Band) (t l : Option Nat) (r b x : Nat) (d : Bytes)
    (bs pre post : Bytes) (hl : ∀ a ∈ l1, a.Parseable)
    (hb : buildMeterMod rnd h c f mt (tups (l1 ++ .experimenter t l r b x d :: l2)) = .ok bs) :
    parse (pre ++ (bs ++ post)) pre.length = .error .diverges :=
  meter_mod_diverges rnd h c f mt l1 l2 t l r b x d bs pre post hl hb

/-- C46, in part: for every byte string and offset, if the parser does not end, then the message is a PACKET_OUT, FLOW_MOD,
GROUP_MOD, or a flow or group description reply, and somewhere in it stands what looks like a set-field or experimenter
action or instruction with length zero, or it is a METER_MOD or meter configuration reply and somewhere stands what
looks like an experimenter band.  All other messages are parsed or rejected in finitely many steps.
(The full property, that no message at all makes the parser loop, is false.) -/
theorem C46_termination_partial (m : Bytes) (off : Nat) (h : parse m off = .error .diverges) :
    ((u8 m (off + 1) ∈ [13, 14, 15] ∨ (u8 m (off + 1) = 19 ∧ u16 m (off + 8) ∈ [1, 7])) ∧ ∃ o, off ≤ o ∧ ZeroLength m o) ∨
    ((u8 m (off + 1) = 29 ∨ (u8 m (off + 1) = 19 ∧ u16 m (off + 8) = 10)) ∧ ∃ o, off ≤ o ∧ ExperimenterBand m o) :=
  parse_stuck h

/-- C46. The result `diverges` of the model means that the `while` loop of the code never ends: however many turns it may
take, it is not finished.  (For the loops over actions, instructions, buckets, bands and the records that contain them.) -/
theorem C46_diverges_means_forever (m : Bytes) (limit off : Nat) :
    (whileFetch (parseAction m) limit off = .error .diverges ↔ ∀ turns, runLoop (parseAction m) limit turns off = none) ∧
    (whileFetch (parseInstr m) limit off = .error .diverges ↔ ∀ turns, runLoop (parseInstr m) limit turns off = none) ∧
    (whileFetch (parseBucket m) limit off = .error .diverges ↔ ∀ turns, runLoop (parseBucket m) limit turns off = none) ∧
    (whileFetch (parseBand m) limit off = .error .diverges ↔ ∀ turns, runLoop (parseBand m) limit turns off = none) ∧
    (whileFetch (parseFlowStats m) limit off = .error .diverges ↔ ∀ turns, runLoop (parseFlowStats m) limit turns off = none) ∧
    (whileFetch (parseGroupDesc m) limit off = .error .diverges ↔ ∀ turns, runLoop (parseGroupDesc m) limit turns off = none) ∧
    (whileFetch (parseMeterConfig m) limit off = .error .diverges ↔ ∀ turns, runLoop (parseMeterConfig m) limit turns off = none) :=
  ⟨whileFetch_diverges fun _ _ _ h => (action_step h).elim (by omega) (by omega),
   whileFetch_diverges fun _ _ _ h => (instr_step h).elim (by omega) (by omega),
   whileFetch_diverges fun _ _ _ h => Nat.le_of_lt (bucket_step h),
   whileFetch_diverges fun _ _ _ h => (band_step h).elim (by omega) (by omega),
   whileFetch_diverges fun _ _ _ h => Nat.le_of_lt (flowStats_step h),
   whileFetch_diverges fun _ _ _ h => Nat.le_of_lt (groupDesc_step h),
   whileFetch_diverges fun _ _ _ h => Nat.le_of_lt (meterConfig_step h)⟩

/-! ### C55: queue configuration replies and experimenter messages -/

/-- C55, in part: QUEUE_GET_CONFIG_REPLY with any list of queues without properties.  Missing: queues with properties and
experimenter messages, which do not come back at all. -/
theorem C55_queue_reply_partial (rnd : Nat) (h : HdrArg) (p : Nat) (qs : Seq Queue) (bs pre post : Bytes)
    (hb : buildQueueRep rnd h p qs = .ok bs) (hq : qs.All Queue.Parseable) :
    parse (pre ++ (bs ++ post)) pre.length = .ok (.queueRep ⟨4, 23, bs.length, h.xid rnd⟩ p
      (qs.values.map fun q => ⟨q.queueId, q.port, some 16, .items []⟩)) :=
  queueRep_at hb hq (At.intro pre bs post _ rfl)

/-- C55 is false of the code: if the first queue has a property (or anything of eight bytes in the place of properties),
parsing the built message raises NameError. -/
theorem C55_queue_properties_refuted (rnd : Nat) (h : HdrArg) (p : Nat) (q : Queue) (qs : List (Elem Queue)) (bs pre post pb : Bytes)
    (hq : seqBytes buildQProp q.properties = .ok pb) (hpb : 8 ≤ pb.length)
    (hb : buildQueueRep rnd h p (.items (.tup q :: qs)) = .ok bs) :
    parse (pre ++ (bs ++ post)) pre.length = .error .nameError := by
  simp only [buildQueueRep, bind_ok, pack_eq_ok] at hb
  obtain ⟨kb, hkb, _, ⟨hf, rfl⟩, hb⟩ := hb
  have hb := built_one hb (At.intro pre bs post _ rfl)
  have hkb : join buildQueue (.tup q :: qs) = .ok kb := hkb
  obtain ⟨b, bs', h1, h2, rfl⟩ := join_ok_cons.1 hkb
  have h1 : buildQueue q = .ok b := h1
  simp only [buildQueue, bind_ok, pack_eq_ok, pyAssert_ok, ok_inj, exists_const] at h1
  obtain ⟨pb', hq', _, ⟨hf2, rfl⟩, _, rfl⟩ := h1
  rw [hq] at hq'; injection hq' with hq'; subst hq'
  rw [hb.parse]
  show parseQueueRep _ _ = _
  rw [parseQueueRep, hb.hdr, ok_bind]
  have hbody := hb.body
  refine (rd_bind hbody.left hf (by simp [exact]) (by rfl)).trans ?_
  have hk := hbody.right (pre.length + 8 + 8) (by simp [enc])
  have hlen := hb.len
  have hq1 : parseQueue (pre ++ (bs ++ post)) (pre.length + 8 + 8) = .error .nameError := by
    rw [parseQueue]
    refine (rd_bind hk.left.left hf2 (by simp [exact]) (by rfl)).trans ?_
    have e16 : calcsize [I, I, H, X 6] = 16 := rfl
    simp only [e16]
    have hp2 := hk.left.right (pre.length + 8 + 8 + 16) (by simp [enc])
    have hr : ∃ ab, rd [H, H, X 4] (pre ++ (bs ++ post)) (pre.length + 8 + 8 + 16) (two fun a b => (a, b)) = .ok ab := by
      obtain ⟨p1, p2, e1, e2⟩ := hp2
      have : calcsize [H, H, X 4] = 8 := rfl
      have hle : pre.length + 8 + 8 + 16 + 8 ≤ (pre ++ (bs ++ post)).length := by rw [e1, e2]; simp; omega
      have h4 : pre.length + 8 + 8 + 16 + 4 ≤ (pre ++ (bs ++ post)).length := by omega
      refine ⟨((u16 (pre ++ (bs ++ post)) (pre.length + 8 + 8 + 16), u16 (pre ++ (bs ++ post)) (pre.length + 8 + 8 + 16 + 2)), pre.length + 8 + 8 + 16 + 8), ?_⟩
      unfold rd unpackFrom
      rw [this, if_pos hle, dec_HH _ _ _ h4]
      simp [dec, two]
    obtain ⟨ab, hr⟩ := hr
    rw [whileFetch, if_pos (by omega), hr, ok_bind]
    rfl
  have e8 : calcsize [I, X 4] = 8 := rfl
  simp only [e8, listFetch]
  rw [whileFetch, if_pos (by rw [hlen]; simp [enc]; omega), hq1]
  rfl

/-- C55 is false of the code: parsing any built experimenter message raises NameError. -/
theorem C55_experimenter_refuted (rnd : Nat) (h : HdrArg) (e t : Nat) (d bs pre post : Bytes)
    (hb : buildExperimenter rnd h e t d = .ok bs) : parse (pre ++ (bs ++ post)) pre.length = .error .nameError := by
  simp only [buildExperimenter, bind_ok, pack_eq_ok] at hb
  obtain ⟨_, ⟨hf, rfl⟩, hb⟩ := hb
  have hb := built_one hb (At.intro pre bs post _ rfl)
  rw [hb.parse]
  show parseExperimenter _ _ = _
  rw [parseExperimenter, hb.hdr, ok_bind]
  refine (rd_bind hb.body.left hf (by simp [exact]) (by rfl)).trans ?_
  rfl

example : (∃ bs, buildQueueRep 1 .none 2 (tups [⟨3, 4, none, .none⟩, ⟨5, 6, none, .items []⟩]) = .ok bs) ∧
    (∃ bs, buildQueueRep 1 .none 2 (.items (.tup ⟨3, 4, none, tups [.minRate .none 5]⟩ :: [])) = .ok bs) ∧
    (∃ bs, buildExperimenter 1 .none 2 3 [4] = .ok bs) := ⟨⟨_, rfl⟩, ⟨_, rfl⟩, ⟨_, rfl⟩⟩

end Twink.Of13
