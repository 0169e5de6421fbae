import Verif.Spec.Of13Calls
import Verif.Proof.Of13Messages

/-!
# C38: OpenFlow 1.3 messages carry their true length
-/

namespace Twink.Of13
open Fmt Spec

/-- What `ofp_` says about the header of its result. -/
def GoodHeader (rnd : Nat) (h : HdrArg) (types : List Nat) (bs : Bytes) : Prop :=
  8 ≤ bs.length ∧ bs.length ≤ 65535 ∧ u8 bs 0 = 4 ∧ u8 bs 0 = h.version ∧ u8 bs 1 ∈ types ∧
    (∀ d ∈ types, types = [d] ∨ h.type 0 = u8 bs 1) ∧ (h.type (u8 bs 1) = u8 bs 1) ∧
    u16 bs 2 = bs.length ∧ u32 bs 4 = h.xid rnd

theorem hdr_version {rnd h ta v t x} (hh : hdrFields rnd h ta = .ok (v, t, x)) : v.getD 4 = h.version ∧ ∀ t', t = some t' → h.type t' = t' := by
  cases h with
  | none => cases ta <;> simp [hdrFields] at hh; obtain ⟨rfl, rfl, rfl⟩ := hh; exact ⟨rfl, fun t' _ => rfl⟩
  | bad => simp [hdrFields] at hh
  | tup v' t' l' x' =>
    have hv : v = v' ∧ (∀ t'', t' = some t'' → t = some t'') := by
      simp only [hdrFields] at hh
      cases ta <;> cases t' <;> simp [bind_ok] at hh <;> simp_all
    obtain ⟨rfl, ht⟩ := hv
    refine ⟨by cases v <;> rfl, fun t2 h2 => ?_⟩
    cases t' with
    | none => rfl
    | some t3 => have := ht t3 rfl; rw [h2] at this; injection this with this; subst this; rfl
  | raw b =>
    simp only [hdrFields, bind_ok] at hh
    obtain ⟨vs, h1, h2⟩ := hh
    have hlen : 8 ≤ b.length := by
      by_contra hc
      have : ¬ calcsize hdrFmt ≤ b.length := by simp [hdrFmt, calcsize, Item.width]; omega
      simp [unpackFrom, this] at h1
    have h3 := parseHeader_fields b hlen
    rw [parseHeader, h1, ok_bind] at h3
    split at h2
    · rename_i v' t' l' x'
      simp only [ok_inj, Prod.mk.injEq] at h3
      have : v = some v' ∧ t = some t' := by cases ta <;> simp [bind_ok] at h2 <;> simp [h2]
      obtain ⟨rfl, rfl⟩ := this
      exact ⟨h3.1, fun t2 h4 => by injection h4 with h4; subst h4; exact h3.2.1.symm⟩
    · simp at h2

theorem goodHeader_of {rnd h data ta bs types} (hb : ofp_ rnd h data ta = .ok bs)
    (hta : (∃ t, ta = .one t ∧ types = [t]) ∨ (∃ ts, ta = .among ts ∧ ∀ t, t ∈ ts ↔ t ∈ types)) :
    GoodHeader rnd h types bs := by
  have key : ∃ t, t ∈ types ∧ (types = [t] ∨ h.type 0 = t) ∧ h.type t = t ∧ h.version = 4 ∧
      fits hdrFmt [.int 4, .int t, .int (8 + data.length), .int (h.xid rnd)] = true ∧
      bs = enc hdrFmt [.int 4, .int t, .int (8 + data.length), .int (h.xid rnd)] ++ data := by
    have hb' := hb
    simp only [ofp_, bind_ok, ok_inj] at hb'
    obtain ⟨⟨v, t, x⟩, h1, hd, h2, _⟩ := hb'
    have hv := hdr_version h1
    have hv4 : v.getD 4 = 4 := by
      simp only [ofpHeader, bind_ok, pyAssert_ok, exists_const] at h2; exact h2.1
    rcases hta with ⟨t', rfl, rfl⟩ | ⟨ts, rfl, hts⟩
    · obtain ⟨rfl, _⟩ := hdrFields_one h1
      exact ⟨t', by simp, .inl rfl, hv.2 t' rfl, by rw [← hv.1, hv4], ofp_one hb⟩
    · obtain ⟨rfl, _, _⟩ := hdrFields_among h1 0
      obtain ⟨h3, h4⟩ := ofp_among hb 0
      exact ⟨h.type 0, (hts _).1 h3, .inr rfl, hv.2 _ rfl, by rw [← hv.1, hv4], h4⟩
  obtain ⟨t, ht, ht1, ht2, hv, hf, rfl⟩ := key
  have hl : (enc hdrFmt [.int 4, .int t, .int (8 + data.length), .int (h.xid rnd)] ++ data).length = 8 + data.length := by
    rw [List.length_append, hdr_length]
  have h8 : 8 ≤ (enc hdrFmt [.int 4, .int t, .int (8 + data.length), .int (h.xid rnd)] ++ data).length := by omega
  have hp := parseHeader_fields _ h8
  have hd := unpackFrom_enc' hdrFmt _ [] data 0 rfl hf (by simp [exact, hdrFmt])
  rw [List.nil_append] at hd
  rw [parseHeader, hd, ok_bind] at hp
  simp only [ok_inj, Prod.mk.injEq] at hp
  obtain ⟨e1, e2, e3, e4⟩ := hp
  have hlim : 8 + data.length < 65536 := by simp [fits, hdrFmt] at hf; omega
  refine ⟨h8, by omega, e1.symm, by rw [← e1, hv], by rw [← e2]; exact ht, ?_, by rw [← e2]; exact ht2, by rw [hl, ← e3], e4.symm⟩
  intro d hdm
  rcases ht1 with rfl | h5
  · left; simp at hdm; rw [hdm]
  · right; exact h5.trans e2

/-- C38. Whatever the arguments: a message made by one of the builders has at least 8 bytes, its header says version
4, which is the version asked for, one of the types of the function called, and the one asked for by the `header`
argument if it names one, its length field is the number of bytes of the message, which is at most 65535 (so that
longer messages are refused), and its transaction id is the one given, or the drawn one. -/
theorem C38_header (rnd : Nat) (h : HdrArg) (c : Call) (bs : Bytes) (hb : c.run rnd h = .ok bs) :
    GoodHeader rnd h c.types bs := by
  cases c <;> simp only [Call.run, buildHello, buildError, buildFeatures, buildConfig, buildPacketIn, buildFlowRemoved,
    buildPortStatus, buildPacketOut, buildFlowMod, buildGroupMod, buildPortMod, buildTableMod, buildMpRequest, buildMpReply,
    buildQueueReq, buildQueueRep, buildRole, buildAsync, buildMeterMod, buildExperimenter, bind_ok, pyAssert_ok, ok_inj,
    exists_const] at hb
  case hello => obtain ⟨_, _, hb⟩ := hb; exact goodHeader_of hb (.inl ⟨_, rfl, rfl⟩)
  case error => obtain ⟨_, _, hb⟩ := hb; exact goodHeader_of hb (.inl ⟨_, rfl, rfl⟩)
  case features => obtain ⟨_, _, _, hb, _, rfl⟩ := hb; exact goodHeader_of hb (.inl ⟨_, rfl, rfl⟩)
  case config =>
    obtain ⟨_, _, _, hb, _, rfl⟩ := hb
    exact goodHeader_of hb (.inr ⟨_, rfl, fun t => by simp [Call.types, or_comm]⟩)
  case packetIn => obtain ⟨_, _, _, _, hb⟩ := hb; exact goodHeader_of hb (.inl ⟨_, rfl, rfl⟩)
  case flowRemoved => obtain ⟨_, _, _, _, hb⟩ := hb; exact goodHeader_of hb (.inl ⟨_, rfl, rfl⟩)
  case portStatus => obtain ⟨_, _, _, _, hb⟩ := hb; exact goodHeader_of hb (.inl ⟨_, rfl, rfl⟩)
  case packetOut => obtain ⟨_, _, _, _, hb⟩ := hb; exact goodHeader_of hb (.inl ⟨_, rfl, rfl⟩)
  case flowMod => obtain ⟨_, _, _, _, _, _, hb⟩ := hb; exact goodHeader_of hb (.inl ⟨_, rfl, rfl⟩)
  case groupMod => obtain ⟨_, _, _, _, hb⟩ := hb; exact goodHeader_of hb (.inl ⟨_, rfl, rfl⟩)
  case portMod => obtain ⟨_, _, _, hb, _, rfl⟩ := hb; exact goodHeader_of hb (.inl ⟨_, rfl, rfl⟩)
  case tableMod => obtain ⟨_, _, _, hb, _, rfl⟩ := hb; exact goodHeader_of hb (.inl ⟨_, rfl, rfl⟩)
  case mpRequest => obtain ⟨_, _, _, _, hb⟩ := hb; exact goodHeader_of hb (.inl ⟨_, rfl, rfl⟩)
  case mpReply => obtain ⟨_, _, _, _, hb⟩ := hb; exact goodHeader_of hb (.inl ⟨_, rfl, rfl⟩)
  case queueReq => obtain ⟨_, _, hb⟩ := hb; exact goodHeader_of hb (.inl ⟨_, rfl, rfl⟩)
  case queueRep => obtain ⟨_, _, _, _, hb⟩ := hb; exact goodHeader_of hb (.inl ⟨_, rfl, rfl⟩)
  case role => obtain ⟨_, _, hb⟩ := hb; exact goodHeader_of hb (.inr ⟨_, rfl, fun t => by simp [Call.types]⟩)
  case async => obtain ⟨_, _, hb⟩ := hb; exact goodHeader_of hb (.inr ⟨_, rfl, fun t => by simp [Call.types]⟩)
  case meterMod => obtain ⟨_, _, _, _, hb⟩ := hb; exact goodHeader_of hb (.inl ⟨_, rfl, rfl⟩)
  case experimenter => obtain ⟨_, _, hb⟩ := hb; exact goodHeader_of hb (.inl ⟨_, rfl, rfl⟩)

/-- C38. The function `ofp_` behind all builders makes a message whenever the header leaves version and length
open, names an admissible type, and the data leave the message short enough. -/
theorem C38_builds (rnd : Nat) (x : Option Nat) (t : Nat) (data : Bytes) (ht : t < 256) (hx : x.getD rnd < 2 ^ 32)
    (hd : data.length ≤ 65527) : ∃ bs, ofp_ rnd (.tup none (some t) none x) data (.one t) = .ok bs ∧ bs.drop 8 = data := by
  have hf : fits hdrFmt [.int 4, .int t, .int (8 + data.length), .int (x.getD rnd)] = true := by
    simp [fits, hdrFmt, ht]; omega
  refine ⟨enc hdrFmt [.int 4, .int t, .int (8 + data.length), .int (x.getD rnd)] ++ data, ?_, ?_⟩
  · simp [ofp_, hdrFields, pyAssert, ofpHeader, packOpt, pack, hf, bind, Except.bind]
  · exact List.drop_left' (hdr_length _ _ _ _)

/-- A concrete flow modification with a match, a write-actions and a goto-table instruction can be built. -/
example : ∃ bs, (Call.flowMod 1 0 2 0 10 20 30 none none none 0 (.tup ⟨none, none, .raw [1, 2, 3]⟩)
    (tups [.actions (some 3) none (tups [.output none none 5 128]), .gotoTable none none 3])).run 77 .none = .ok bs ∧
    u16 bs 2 = 88 ∧ u32 bs 4 = 77 := by
  refine ⟨_, rfl, ?_⟩
  decide

end Twink.Of13
