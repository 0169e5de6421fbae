import Verif.Proof.Of14Messages

/-!
# C70: OpenFlow 1.4 messages carry their true length
-/

namespace Twink.Of14
open Fmt Of13 Spec

/-- What the header of a message should say. -/
def GoodHeader (rnd : Nat) (h : HdrArg) (types : List Nat) (bs : Bytes) : Prop :=
  8 ≤ bs.length ∧ bs.length ≤ 65535 ∧ u8 bs 0 = 5 ∧ u8 bs 0 = version h ∧ u8 bs 1 ∈ types ∧
    (∀ d ∈ types, types = [d] ∨ h.type 0 = u8 bs 1) ∧ (h.type (u8 bs 1) = u8 bs 1) ∧
    u16 bs 2 = bs.length ∧ u32 bs 4 = h.xid rnd

theorem hdr_version {rnd h ta v t x} (hh : hdrFields rnd h ta = .ok (v, t, x)) :
    v.getD 5 = version h ∧ ∀ t', t = some t' → h.type t' = t' := by
  cases h with
  | none => cases ta <;> simp [hdrFields] at hh; obtain ⟨rfl, rfl, rfl⟩ := hh; exact ⟨rfl, fun t' _ => rfl⟩
  | bad => simp [hdrFields] at hh
  | tup v' t' l' x' =>
    have hv : v = v' ∧ (∀ t'', t' = some t'' → t = some t'') := by
      simp only [hdrFields] at hh
      cases ta <;> cases t' <;> simp [bind_ok] at hh <;> simp_all
    obtain ⟨rfl, ht⟩ := hv
    refine ⟨by cases v <;> rfl, fun t2 h2 => ?_⟩
    cases t' with
    | none => rfl
    | some t3 => have := ht t3 rfl; rw [h2] at this; injection this with this; subst this; rfl
  | raw b =>
    simp only [hdrFields, bind_ok] at hh
    obtain ⟨vs, h1, h2⟩ := hh
    have hlen : 8 ≤ b.length := by
      by_contra hc
      have : ¬ calcsize hdrFmt ≤ b.length := by simp [hdrFmt, calcsize, Item.width]; omega
      simp [unpackFrom, this] at h1
    have h3 := parseHeader_fields b hlen
    rw [parseHeader, h1, ok_bind] at h3
    split at h2
    · rename_i v' t' l' x'
      simp only [ok_inj, Prod.mk.injEq] at h3
      have : v = some v' ∧ t = some t' := by cases ta <;> simp [bind_ok] at h2 <;> simp [h2]
      obtain ⟨rfl, rfl⟩ := this
      exact ⟨h3.1, fun t2 h4 => by injection h4 with h4; subst h4; exact h3.2.1.symm⟩
    · simp at h2

theorem goodHeader_of {rnd h data ta bs types} (hb : ofp_ rnd h data ta = .ok bs)
    (hta : (∃ t, ta = .one t ∧ types = [t]) ∨ (∃ ts, ta = .among ts ∧ ∀ t, t ∈ ts ↔ t ∈ types) ∨ (ta = .any ∧ types = [h.type 0])) :
    GoodHeader rnd h types bs := by
  have key : ∃ t, t ∈ types ∧ (types = [t] ∨ h.type 0 = t) ∧ h.type t = t ∧ version h = 5 ∧ Made bs t (h.xid rnd) data := by
    have hb' := hb
    simp only [ofp_, bind_ok, ok_inj] at hb'
    obtain ⟨⟨v, t, x⟩, h1, hd, h2, _⟩ := hb'
    have hv := hdr_version h1
    have hv5 : v.getD 5 = 5 := by
      simp only [ofpHeader, bind_ok, pyAssert_ok, exists_const] at h2; exact h2.1
    rcases hta with ⟨t', rfl, rfl⟩ | ⟨ts, rfl, hts⟩ | ⟨rfl, rfl⟩
    · obtain ⟨rfl, _⟩ := hdrFields_one h1
      exact ⟨t', by simp, .inl rfl, hv.2 t' rfl, by rw [← hv.1, hv5], made_one hb⟩
    · obtain ⟨rfl, _, _⟩ := hdrFields_named (fun _ e => by cases e) h1 0
      obtain ⟨h3, h4⟩ := made_among hb 0
      exact ⟨h.type 0, (hts _).1 h3, .inr rfl, hv.2 _ rfl, by rw [← hv.1, hv5], h4⟩
    · obtain ⟨rfl, _, _⟩ := hdrFields_named (fun _ e => by cases e) h1 0
      obtain ⟨_, h4⟩ := made_named (fun _ e => by cases e) hb 0
      exact ⟨h.type 0, by simp, .inr rfl, hv.2 _ rfl, by rw [← hv.1, hv5], h4⟩
  obtain ⟨t, ht, ht1, ht2, hv, hf, rfl⟩ := key
  have hl : (enc hdrFmt [.int 5, .int t, .int (8 + data.length), .int (h.xid rnd)] ++ data).length = 8 + data.length := by
    rw [List.length_append, hdr_length]
  have h8 : 8 ≤ (enc hdrFmt [.int 5, .int t, .int (8 + data.length), .int (h.xid rnd)] ++ data).length := by omega
  have hp := parseHeader_fields _ h8
  have hd := unpackFrom_enc' hdrFmt _ [] data 0 rfl hf (by simp [exact, hdrFmt])
  rw [List.nil_append] at hd
  rw [parseHeader, hd, ok_bind] at hp
  simp only [ok_inj, Prod.mk.injEq] at hp
  obtain ⟨e1, e2, e3, e4⟩ := hp
  have hlim : 8 + data.length < 65536 := by simp [fits, hdrFmt] at hf; omega
  refine ⟨h8, by omega, e1.symm, by rw [← e1, hv], by rw [← e2]; exact ht, ?_, by rw [← e2]; exact ht2, by rw [hl, ← e3], e4.symm⟩
  intro d hdm
  rcases ht1 with rfl | h5
  · left; simp at hdm; rw [hdm]
  · right; exact h5.trans e2

/-- C70, in part. Whatever the arguments, messages inside messages included: a message made by one of the builders has
at least 8 bytes, its header says version 5, which is the version asked for, one of the types of the function called,
and the one asked for by the `header` argument if it names one, its length field is the number of bytes of the
message, which is at most 65535 (so that longer messages are refused), and its transaction id is the one given, or the
drawn one.  Missing: METER_MOD (`C70_meter_mod_refuted`) and ROLE_STATUS (`C70_role_status_refuted`); no PORT_STATUS can
be made at all (`C70_port_status_refuted`). -/
theorem C70_header_partial (rnd : Nat) (h : HdrArg) (c : Call) (bs : Bytes) (hc : ∀ a b d e, c ≠ .meterMod a b d e)
    (hr : ∀ a b d e, c ≠ .roleStatus a b d e) (hb : c.run rnd h = .ok bs) : GoodHeader rnd h (c.types.getD [h.type 0]) bs := by
  cases c <;> simp only [Call.run, buildHello, buildError, buildErrorExp, buildFeatures, buildConfig, buildPacketIn, buildFlowRemoved,
    buildPortStatus, buildPacketOut, buildFlowMod, buildGroupMod, buildPortMod, buildTableMod, buildMpRequest, buildMpReply,
    buildRole, buildAsync, buildRoleStatus, buildTableStatus, buildBundleCtrl, buildBundleAdd, buildRequestForward,
    buildExperimenter, bind_ok, pyAssert_ok, ok_inj, exists_const] at hb
  case meterMod => exact absurd rfl (hc _ _ _ _)
  case hello => obtain ⟨_, _, hb⟩ := hb; exact goodHeader_of hb (.inl ⟨_, rfl, rfl⟩)
  case error => obtain ⟨_, _, hb⟩ := hb; exact goodHeader_of hb (.inl ⟨_, rfl, rfl⟩)
  case errorExp => obtain ⟨_, _, hb⟩ := hb; exact goodHeader_of hb (.inl ⟨_, rfl, rfl⟩)
  case features => obtain ⟨_, _, _, hb, _, rfl⟩ := hb; exact goodHeader_of hb (.inl ⟨_, rfl, rfl⟩)
  case config =>
    obtain ⟨_, _, _, hb, _, rfl⟩ := hb
    exact goodHeader_of hb (.inr (.inl ⟨_, rfl, fun t => by simp [Call.types, or_comm]⟩))
  case packetIn => obtain ⟨_, _, _, _, hb⟩ := hb; exact goodHeader_of hb (.inl ⟨_, rfl, rfl⟩)
  case flowRemoved => obtain ⟨_, _, _, _, hb⟩ := hb; exact goodHeader_of hb (.inl ⟨_, rfl, rfl⟩)
  case portStatus => simp at hb
  case packetOut => obtain ⟨_, _, _, _, hb⟩ := hb; exact goodHeader_of hb (.inl ⟨_, rfl, rfl⟩)
  case flowMod => obtain ⟨_, _, _, _, _, _, hb⟩ := hb; exact goodHeader_of hb (.inl ⟨_, rfl, rfl⟩)
  case groupMod => obtain ⟨_, _, _, _, hb⟩ := hb; exact goodHeader_of hb (.inl ⟨_, rfl, rfl⟩)
  case portMod => obtain ⟨_, _, _, _, hb⟩ := hb; exact goodHeader_of hb (.inl ⟨_, rfl, rfl⟩)
  case tableMod t cf ps =>
    obtain ⟨_, _, hb⟩ := hb
    cases ps <;> simp only [reduceCtorEq] at hb
    exact goodHeader_of hb (.inl ⟨_, rfl, rfl⟩)
  case tableModOf => obtain ⟨_, _, _, _, hb⟩ := hb; exact goodHeader_of hb (.inl ⟨_, rfl, rfl⟩)
  case mpRequest => obtain ⟨_, _, _, _, hb⟩ := hb; exact goodHeader_of hb (.inl ⟨_, rfl, rfl⟩)
  case mpRequestOf => obtain ⟨_, _, _, _, _, _, hb⟩ := hb; exact goodHeader_of hb (.inl ⟨_, rfl, rfl⟩)
  case mpReply => obtain ⟨_, _, _, _, hb⟩ := hb; exact goodHeader_of hb (.inl ⟨_, rfl, rfl⟩)
  case role => obtain ⟨_, _, hb⟩ := hb; exact goodHeader_of hb (.inr (.inl ⟨_, rfl, fun t => by simp [Call.types]⟩))
  case async => obtain ⟨_, _, hb⟩ := hb; exact goodHeader_of hb (.inr (.inl ⟨_, rfl, fun t => by simp [Call.types]⟩))
  case roleStatus => exact absurd rfl (hr _ _ _ _)
  case tableStatus => obtain ⟨_, _, _, _, hb⟩ := hb; exact goodHeader_of hb (.inl ⟨_, rfl, rfl⟩)
  case bundleCtrl => obtain ⟨_, _, _, _, hb⟩ := hb; exact goodHeader_of hb (.inl ⟨_, rfl, rfl⟩)
  case bundleAdd => obtain ⟨_, _, _, _, _, _, _, _, hb⟩ := hb; exact goodHeader_of hb (.inl ⟨_, rfl, rfl⟩)
  case requestForward => obtain ⟨_, _, _, _, hb⟩ := hb; exact goodHeader_of hb (.inl ⟨_, rfl, rfl⟩)
  case experimenter => obtain ⟨_, _, hb⟩ := hb; exact goodHeader_of hb (.inl ⟨_, rfl, rfl⟩)
  case other => exact goodHeader_of hb (.inr (.inr ⟨rfl, rfl⟩))

/-- C70. The function `ofp_` behind the builders makes a message whenever the header leaves version and length open,
names an admissible type, and the data leave the message short enough. -/
theorem C70_builds (rnd : Nat) (x : Option Nat) (t : Nat) (data : Bytes) (ht : t < 256) (hx : x.getD rnd < 2 ^ 32)
    (hd : data.length ≤ 65527) : ∃ bs, ofp_ rnd (.tup none (some t) none x) data (.one t) = .ok bs ∧ bs.drop 8 = data := by
  have hf : fits hdrFmt [.int 5, .int t, .int (8 + data.length), .int (x.getD rnd)] = true := by
    simp [fits, hdrFmt, ht]; omega
  refine ⟨enc hdrFmt [.int 5, .int t, .int (8 + data.length), .int (x.getD rnd)] ++ data, ?_, ?_⟩
  · simp [ofp_, hdrFields, pyAssert, ofpHeader, packOpt, pack, hf, bind, Except.bind]
  · exact List.drop_left' (hdr_length _ _ _ _)

/-- C70 is false of the code: `ofp_meter_mod` packs the header as it stands.  Without a length in the header the length
field says 8, whatever the bands; and without a header there is no message. -/
theorem C70_meter_mod_refuted (rnd : Nat) (v t x : Option Nat) (c f mt : Nat) (bd : Seq Band) (bs : Bytes) :
    ((Call.meterMod c f mt bd).run rnd (.tup v t none x) = .ok bs → u16 bs 2 = 8 ∧ 16 ≤ bs.length) ∧
    (Call.meterMod c f mt bd).run rnd .none ≠ .ok bs := by
  refine ⟨fun h => ?_, fun h => ?_⟩
  · simp only [Call.run, buildMeterMod, bind_ok, pack_eq_ok, ok_inj] at h
    obtain ⟨kb, _, hd, hhd, _, ⟨hf, rfl⟩, rfl⟩ := h
    obtain ⟨t', rfl, h1, rfl⟩ := ofpHeader_ok hhd
    have he : enc [S 8, H, H, I] [.str (enc hdrFmt [.int 5, .int t', .int 8, .int (x.getD rnd)]), .int c, .int f, .int mt] =
        enc hdrFmt [.int 5, .int t', .int 8, .int (x.getD rnd)] ++ enc [H, H, I] [.int c, .int f, .int mt] := by
      show padTo 8 _ ++ _ = _
      rw [padTo_eq 8 _ (by rw [hdr_length])]
    have hl := enc_length _ _ hf
    have h16 : calcsize [S 8, H, H, I] = 16 := rfl
    refine ⟨?_, by rw [List.length_append]; omega⟩
    have h8 : 8 ≤ (enc hdrFmt [.int 5, .int t', .int 8, .int (x.getD rnd)] ++ (enc [H, H, I] [.int c, .int f, .int mt] ++ kb)).length := by
      rw [List.length_append, hdr_length]; omega
    have hp := parseHeader_fields _ h8
    have hd := unpackFrom_enc' hdrFmt _ [] (enc [H, H, I] [.int c, .int f, .int mt] ++ kb) 0 rfl h1 (by simp [exact, hdrFmt])
    rw [List.nil_append] at hd
    rw [parseHeader] at hp
    simp only [Option.getD_none] at hd
    rw [hd, ok_bind] at hp
    simp only [ok_inj, Prod.mk.injEq] at hp
    simp only [Option.getD_none]
    rw [he, List.append_assoc]
    exact hp.2.2.1.symm
  · simp [Call.run, buildMeterMod, objHdr, bind_ok] at h

/-- C70 is false of the code: a message made by `ofp_role_status` never has the type of ROLE_STATUS, 30. -/
theorem C70_role_status_refuted (rnd : Nat) (h : HdrArg) (r rs g : Nat) (ps : Seq Pr) (bs : Bytes)
    (hb : (Call.roleStatus r rs g ps).run rnd h = .ok bs) : u8 bs 1 = 24 ∨ u8 bs 1 = 25 := by
  simp only [Call.run, buildRoleStatus, bind_ok] at hb
  obtain ⟨_, _, _, _, hb⟩ := hb
  have := (goodHeader_of (types := [24, 25]) hb (.inr (.inl ⟨_, rfl, fun t => Iff.rfl⟩))).2.2.2.2.1
  simpa using this

/-- C70 is false of the code: `ofp_port_status` never returns a message. -/
theorem C70_port_status_refuted (rnd : Nat) (h : HdrArg) (r : Nat) (p : Elem PortT) (bs : Bytes) :
    (Call.portStatus r p).run rnd h ≠ .ok bs := by
  intro hb
  simp [Call.run, buildPortStatus, bind_ok] at hb

/-- A flow modification inside a bundle inside a forwarded request can be built, a meter modification and a role status. -/
example : (∃ bs, (Call.requestForward 1 (.tup none (some 34) none (some 9)) (.bundleAdd 5 1 2 .none (.flowMod 1 0 2 0 10 20 30 none none none 0 0
    (.tup ⟨none, none, .raw [1, 2, 3]⟩) (tups [.actions (some 3) none (tups [.output none none 5 128]), .gotoTable none none 3])) .none)).run 77 .none =
      .ok bs ∧ u16 bs 2 = 112 ∧ u32 bs 4 = 77) ∧
    (∃ bs, (Call.meterMod 1 2 3 (tups [.drop none none 1 2])).run 77 (.tup none (some 29) none none) = .ok bs ∧ bs.length = 32) ∧
    (∃ bs, (Call.roleStatus 1 2 3 .none).run 77 (.tup none (some 24) none none) = .ok bs) := by
  refine ⟨⟨_, rfl, ?_⟩, ⟨_, rfl, ?_⟩, ⟨_, rfl⟩⟩
  · decide
  · decide

end Twink.Of14
