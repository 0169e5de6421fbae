import Verif.Spec.Of14Sizes
import Verif.Props.Of13Sizes
import Verif.Props.Of14

/-! # Lengths inside parsed OpenFlow 1.4 messages (C94) -/

namespace Twink.Of14
open Fmt Of13

theorem action_size {m off a o} (h : parseAction m off = .ok (a, o)) : o = off + a.wireSize := by
  simp only [parseAction, bind_ok] at h
  obtain ⟨r, h1, h2⟩ := h
  simp only [parseActionOf] at h2
  split_ifs at h2
  · obtain ⟨e, _, k⟩ := rd_ok h2; obtain ⟨_, _, _, _, rfl⟩ := four_some k; exact e
  · obtain ⟨e, _, k⟩ := rd_ok h2; obtain ⟨_, _, _, rfl⟩ := three_some k; exact e
  · obtain ⟨e, _, k⟩ := rd_ok h2; obtain ⟨_, _, _, rfl⟩ := three_some k; exact e
  · obtain ⟨e, _, k⟩ := rd_ok h2; obtain ⟨_, _, _, rfl⟩ := three_some k; exact e
  · obtain ⟨e, _, k⟩ := rd_ok h2; obtain ⟨_, _, _, rfl⟩ := three_some k; exact e
  · obtain ⟨e, _, k⟩ := rd_ok h2; obtain ⟨_, _, _, rfl⟩ := three_some k; exact e
  · simp only [bind_ok, ok_inj, Prod.mk.injEq] at h2
    obtain ⟨r, _, rfl, rfl⟩ := h2; rfl
  · simp only [bind_ok, ok_inj, Prod.mk.injEq] at h2
    obtain ⟨r, _, rfl, rfl⟩ := h2; rfl
  · obtain ⟨e, _, k⟩ := rd_ok h2; obtain ⟨_, _, rfl⟩ := two_some k; exact e

/-- The length field of an instruction with actions is the number of bytes of the instruction. -/
def Instr.Counted : Instr → Prop
  | .actions _ len l => len = some (8 + (l.values.map Action.wireSize).sum)
  | _ => True

theorem instr_size {m off i o} (h : parseInstr m off = .ok (i, o)) : o = off + i.wireSize ∧ i.Counted := by
  simp only [parseInstr, bind_ok] at h
  obtain ⟨r, h1, h2⟩ := h
  simp only [parseInstrOf] at h2
  split_ifs at h2 with c1 c2 c3 c4 c5
  · obtain ⟨e, _, k⟩ := rd_ok h2; obtain ⟨_, _, _, rfl⟩ := three_some k; exact ⟨e, trivial⟩
  · obtain ⟨e, _, k⟩ := rd_ok h2; obtain ⟨_, _, _, _, rfl⟩ := four_some k; exact ⟨e, trivial⟩
  · simp only [bind_ok, pyAssert_ok, ok_inj, Prod.mk.injEq, exists_const] at h2
    obtain ⟨r, h3, r', h4, h5, rfl, rfl⟩ := h2
    obtain ⟨_, rfl⟩ := rd_HH h3
    obtain ⟨h6, _⟩ := whileFetch_sum (size := Action.wireSize) (good := fun _ => True) (fun _ _ _ h => ⟨action_size h, trivial⟩) h4
    have h7 : calcsize [H, H, X 4] = 8 := rfl
    have h5 : r'.2 = off + Spec.u16 m (off + 2) := h5
    rw [h7] at h6
    refine ⟨by simp only [Instr.wireSize, values_tups]; omega, ?_⟩
    simp only [Instr.Counted, values_tups, Option.some.injEq]
    omega
  · obtain ⟨e, _, k⟩ := rd_ok h2; obtain ⟨_, _, _, rfl⟩ := three_some k; exact ⟨e, trivial⟩
  · simp only [bind_ok, ok_inj, Prod.mk.injEq] at h2
    obtain ⟨r, _, rfl, rfl⟩ := h2; exact ⟨rfl, trivial⟩

theorem hdr_end {m off h o} (h1 : parseHdr m off = .ok (h, o)) : o = off + 8 := by
  simp only [parseHdr, bind_ok, pyAssert_ok, exists_const, ok_inj] at h1
  obtain ⟨r, h6, _, rfl⟩ := h1
  exact (rd_ok h6).1

/-- C94 for FLOW_MOD: in every FLOW_MOD that is parsed without exception, the announced length of the message is the sum of header, fixed part,
match with its padding, and instructions, the cursor ends there, and the length of every instruction with actions is the sum of its actions.
(Partial: other lengths are not checked, see the refutations.) -/
theorem C94_flow_mod_partial (m : Bytes) (off o : Nat) (h : Hdr) (c cm t cmd i hd p b op og f im : Nat) (mt : MatchT) (is : List Instr)
    (hp : parseFlowMod m off = .ok (.flowMod h c cm t cmd i hd p b op og f im mt is, o)) :
    ∃ l, mt.length = some l ∧ h.length = 48 + align l + (is.map Instr.wireSize).sum ∧ o = off + h.length ∧
      ∀ i ∈ is, ∀ t len as, i = .actions t len as → i.lenField = some i.wireSize := by
  simp only [parseFlowMod, bind_ok, ok_inj, Prod.mk.injEq] at hp
  obtain ⟨⟨h', o1⟩, h1, ⟨k, o2⟩, h2, ⟨mt', o3⟩, h3, ⟨is', o4⟩, h4, h5, rfl⟩ := hp
  have e1 := hdr_end h1
  have e2 : o2 = o1 + 40 := (rd_ok h2).1
  have hk : ∃ c cm t cmd i hd p b op og f im, k = Msg.flowMod h' c cm t cmd i hd p b op og f im := by
    have := (rd_ok h2).2.2
    split at this
    · injection this with this
      exact ⟨_, _, _, _, _, _, _, _, _, _, _, _, this.symm⟩
    · cases this
  obtain ⟨c', cm', t', cmd', i', hd', p', b', op', og', f', im', hk⟩ := hk
  rw [hk] at h5
  simp only [Msg.flowMod.injEq] at h5
  obtain ⟨rfl, -, -, -, -, -, -, -, -, -, -, -, -, rfl, rfl⟩ := h5
  obtain ⟨l, hl, e3⟩ := match_size h3
  simp only [listFetch, bind_ok, pyAssert_ok, exists_const, ok_inj] at h4
  obtain ⟨r, h6, h7, rfl⟩ := h4
  obtain ⟨h8, h9⟩ := whileFetch_sum (size := Instr.wireSize) (good := Instr.Counted) (fun _ _ _ h => instr_size h) h6
  have h7 : o4 = off + h'.length := h7
  refine ⟨l, hl, by omega, h7, fun i hi t len as hia => ?_⟩
  subst hia
  exact h9 _ hi

/-- C94 for flow statistics, likewise. -/
theorem C94_flow_stats_partial (m : Bytes) (off o : Nat) (r : Rec) (hp : parseFlowStats m off = .ok (r, o)) :
    ∃ len l t ds dn p i h f c pc bc mt is, r = .flowStats (some len) t ds dn p i h f c pc bc (.tup mt) (tups is) ∧ mt.length = some l ∧
      len = 48 + align l + (is.map Instr.wireSize).sum ∧ o = off + len ∧
      ∀ i ∈ is, ∀ t len as, i = .actions t len as → i.lenField = some i.wireSize := by
  simp only [parseFlowStats, bind_ok, ok_inj, Prod.mk.injEq] at hp
  obtain ⟨⟨⟨len, k⟩, o1⟩, h1, ⟨mt, o2⟩, h2, ⟨is, o3⟩, h3, rfl, rfl⟩ := hp
  have e1 : o1 = off + 48 := (rd_ok h1).1
  have hk : ∃ t ds dn p i h f c pc bc, k = Rec.flowStats (some len) t ds dn p i h f c pc bc := by
    have := (rd_ok h1).2.2
    split at this
    · simp only [Option.some.injEq, Prod.mk.injEq] at this
      obtain ⟨rfl, rfl⟩ := this
      exact ⟨_, _, _, _, _, _, _, _, _, _, rfl⟩
    · cases this
  obtain ⟨t, ds, dn, p, i, h, f, c, pc, bc, rfl⟩ := hk
  obtain ⟨l, hl, e2⟩ := match_size h2
  simp only [listFetch, bind_ok, pyAssert_ok, exists_const, ok_inj] at h3
  obtain ⟨r, h6, h7, rfl⟩ := h3
  obtain ⟨h8, h9⟩ := whileFetch_sum (size := Instr.wireSize) (good := Instr.Counted) (fun _ _ _ h => instr_size h) h6
  have h7 : o3 = off + len := h7
  refine ⟨len, l, t, ds, dn, p, i, h, f, c, pc, bc, mt, is, rfl, hl, by omega, by omega, fun i hi t len as hia => ?_⟩
  subst hia
  exact h9 _ hi

/-- C94 for buckets: what is taken up is the fixed part and the actions; the announced length is not more than that, and all actions but the
last begin inside of it. (Partial: equality is not ensured, see `C94_bucket_refuted`.) -/
theorem C94_bucket_partial (m : Bytes) (off o : Nat) (b : Bucket) (hp : parseBucket m off = .ok (b, o)) :
    ∃ len, b.len = some len ∧ o = off + b.wireSize ∧ len ≤ b.wireSize ∧
      (b.actions.values ≠ [] → 16 + (b.actions.values.dropLast.map Action.wireSize).sum < len) := by
  simp only [parseBucket, bind_ok, ok_inj, Prod.mk.injEq] at hp
  obtain ⟨⟨⟨len, w, wp, wg⟩, o1⟩, h1, ⟨as, o2⟩, h2, rfl, e6⟩ := hp
  have e7 : o1 = off + 16 := (rd_ok h1).1
  obtain ⟨h3, _⟩ := whileFetch_sum (size := Action.wireSize) (good := fun _ => True) (fun _ _ _ h => ⟨action_size h, trivial⟩) h2
  obtain ⟨h4, h5⟩ := whileFetch_limit (size := Action.wireSize) (fun _ _ _ h => action_size h) h2
  simp only at e6 h3 h4 h5
  subst e6 e7
  refine ⟨len, rfl, ?_⟩
  simp only [Bucket.wireSize, values_tups]
  refine ⟨by omega, by omega, fun hne => ?_⟩
  have := h5 hne
  omega

/-- C94 for GROUP_MOD: the message is not longer than header, fixed part and buckets, and all buckets but the last begin inside of it. -/
theorem C94_group_mod_partial (m : Bytes) (off o : Nat) (h : Hdr) (c t g : Nat) (bs : List Bucket)
    (hp : parseGroupMod m off = .ok (.groupMod h c t g bs, o)) :
    o = off + 16 + (bs.map Bucket.wireSize).sum ∧ h.length ≤ 16 + (bs.map Bucket.wireSize).sum ∧
      (bs ≠ [] → 16 + (bs.dropLast.map Bucket.wireSize).sum < h.length) := by
  simp only [parseGroupMod, bind_ok, ok_inj, Prod.mk.injEq] at hp
  obtain ⟨⟨h', o1⟩, h1, ⟨k, o2⟩, h2, ⟨bs', o3⟩, h3, h4, rfl⟩ := hp
  have e1 := hdr_end h1
  have e2 : o2 = o1 + 8 := (rd_ok h2).1
  obtain ⟨_, _, _, hk⟩ := three_some (rd_ok h2).2.2
  rw [hk] at h4
  simp only [Msg.groupMod.injEq] at h4
  obtain ⟨rfl, -, -, -, rfl⟩ := h4
  have hb : ∀ off (b : Bucket) o, parseBucket m off = .ok (b, o) → o = off + b.wireSize := fun off b o h => by
    obtain ⟨_, _, h, _⟩ := C94_bucket_partial m off o b h; exact h
  obtain ⟨h5, _⟩ := whileFetch_sum (size := Bucket.wireSize) (good := fun _ => True) (fun off b o h => ⟨hb off b o h, trivial⟩) h3
  obtain ⟨h6, h7⟩ := whileFetch_limit (size := Bucket.wireSize) hb h3
  simp only at h5 h6 h7
  refine ⟨by omega, by omega, fun hne => ?_⟩
  have := h7 hne
  omega

/-- C94 for PACKET_OUT: the announced length of the actions is not more than the actions take up, and all actions but the last begin inside
of it; the data is the rest of the message behind the actions. -/
theorem C94_packet_out_partial (m : Bytes) (off o : Nat) (h : Hdr) (buf inPort alen : Nat) (as : List Action) (d : Bytes)
    (hp : parsePacketOut m off = .ok (.packetOut h buf inPort alen as d, o)) :
    alen ≤ (as.map Action.wireSize).sum ∧ (as ≠ [] → (as.dropLast.map Action.wireSize).sum < alen) ∧
      d = (m.take (off + h.length)).drop (off + 24 + (as.map Action.wireSize).sum) ∧ o = off + h.length := by
  simp only [parsePacketOut, bind_ok, ok_inj, Prod.mk.injEq, Msg.packetOut.injEq] at hp
  obtain ⟨⟨h', o1⟩, h1, ⟨⟨b', i', a'⟩, o2⟩, h2, ⟨as', o3⟩, h3, ⟨rfl, rfl, rfl, rfl, rfl, rfl⟩, rfl⟩ := hp
  have e1 := hdr_end h1
  have e2 : o2 = o1 + 16 := (rd_ok h2).1
  obtain ⟨h4, _⟩ := whileFetch_sum (size := Action.wireSize) (good := fun _ => True) (fun _ _ _ h => ⟨action_size h, trivial⟩) h3
  obtain ⟨h5, h6⟩ := whileFetch_limit (size := Action.wireSize) (fun _ _ _ h => action_size h) h3
  simp only at h4 h5 h6
  subst e1 e2
  refine ⟨?_, fun hne => ?_, ?_, rfl⟩
  · show a' ≤ (as'.map Action.wireSize).sum
    omega
  · have := h6 hne
    show (as'.dropLast.map Action.wireSize).sum < a'
    omega
  · rw [slice, List.drop_take, h4]

theorem pair_size {m off p o} (h : parsePair m off = .ok (p, o)) : o = off + 16 := (rd_ok h).1

theorem sum_const {α : Type} (k : Nat) (l : List α) : (l.map fun _ => k).sum = k * l.length := by
  induction l with
  | nil => rfl
  | cons a l ih => rw [List.map_cons, List.sum_cons, ih, List.length_cons, Nat.mul_succ, Nat.add_comm]

theorem reasons_size {m off p o} (h : parseAsyncProp m off = .ok (p, o)) : o = off + 8 := by
  simp only [parseAsyncProp, bind_ok] at h
  obtain ⟨r, h1, h2⟩ := h
  split_ifs at h2
  exact (rd_ok h2).1

/-- C94 for asynchronous configuration: every property takes up 8 bytes; the message is as long as header and properties, rounded down at most
by what would be less than one property. -/
theorem C94_async_partial (m : Bytes) (off o : Nat) (h : Hdr) (ps : List Pr) (hp : parseAsync m off = .ok (.async h ps, o)) :
    o = off + 8 + 8 * ps.length ∧ h.length ≤ 8 + 8 * ps.length ∧ (ps ≠ [] → 8 * ps.length < h.length) := by
  simp only [parseAsync, bind_ok, ok_inj, Prod.mk.injEq, Msg.async.injEq] at hp
  obtain ⟨⟨h', o1⟩, h1, ⟨ps', o2⟩, h2, ⟨rfl, rfl⟩, rfl⟩ := hp
  have e1 := hdr_end h1
  obtain ⟨h5, _⟩ := whileFetch_sum (size := fun _ => 8) (good := fun _ => True) (fun off b o h => ⟨reasons_size h, trivial⟩) h2
  obtain ⟨h6, h7⟩ := whileFetch_limit (size := fun _ => 8) (fun _ _ _ h => reasons_size h) h2
  simp only [sum_const, List.length_dropLast] at h5 h6 h7
  show o2 = off + 8 + 8 * ps'.length ∧ h'.length ≤ 8 + 8 * ps'.length ∧ (ps' ≠ [] → 8 * ps'.length < h'.length)
  refine ⟨by omega, by omega, fun hne => ?_⟩
  have := h7 hne
  have : ps'.length ≠ 0 := by simpa using hne
  omega

/-- C94 for bundles: the nested message stands behind the fixed part; the bundle message is not longer than the two. -/
theorem C94_bundle_add_partial (m : Bytes) (off o : Nat) (h : Hdr) (b f : Nat) (msg : Msg) (ps : List Pr)
    (nested : Py (Msg × Nat)) (hp : parseBundleAdd m off nested = .ok (.bundleAdd h b f msg ps, o)) :
    nested = .ok (msg, o) ∧ ps = [] ∧ off + h.length ≤ o := by
  simp only [parseBundleAdd, bind_ok] at hp
  obtain ⟨⟨h', o1⟩, h1, ⟨k, o2⟩, h2, ⟨msg', o3⟩, h3, h4⟩ := hp
  obtain ⟨_, _, hk⟩ := two_some (rd_ok h2).2.2
  simp only at h4 hk
  split_ifs at h4 with c
  simp only [hk, ok_inj, Prod.mk.injEq, Msg.bundleAdd.injEq] at h4
  obtain ⟨⟨rfl, -, -, rfl, rfl⟩, rfl⟩ := h4
  exact ⟨h3, rfl, by omega⟩

/-- C94 for group statistics: the announced length is that of the fixed part and the counters of the buckets. -/
theorem C94_group_stats (m : Bytes) (off o : Nat) (r : Rec) (hp : parseGroupStats m off = .ok (r, o)) :
    ∃ len g rc p b ds dn cs, r = .groupStats (some len) g rc p b ds dn (tups cs) ∧ len = 40 + 16 * cs.length ∧ o = off + len := by
  simp only [parseGroupStats, bind_ok, ok_inj, Prod.mk.injEq] at hp
  obtain ⟨⟨⟨len, k⟩, o1⟩, h1, ⟨cs, o2⟩, h2, rfl, rfl⟩ := hp
  have e1 : o1 = off + 40 := (rd_ok h1).1
  have hk : ∃ g rc p b ds dn, k = Rec.groupStats (some len) g rc p b ds dn := by
    have := (rd_ok h1).2.2
    split at this
    · simp only [Option.some.injEq, Prod.mk.injEq] at this
      obtain ⟨rfl, rfl⟩ := this
      exact ⟨_, _, _, _, _, _, rfl⟩
    · cases this
  obtain ⟨g, rc, p, b, ds, dn, rfl⟩ := hk
  simp only [listFetch, bind_ok, pyAssert_ok, exists_const, ok_inj] at h2
  obtain ⟨r, h6, h7, rfl⟩ := h2
  obtain ⟨h8, _⟩ := whileFetch_sum (size := fun _ => 16) (good := fun _ => True) (fun _ _ _ h => ⟨pair_size h, trivial⟩) h6
  have h7 : o2 = off + len := h7
  rw [sum_const] at h8
  exact ⟨len, g, rc, p, b, ds, dn, cs, rfl, by omega, h7⟩

/-- C94 for meter statistics likewise. -/
theorem C94_meter_stats (m : Bytes) (off o : Nat) (r : Rec) (hp : parseMeterStats m off = .ok (r, o)) :
    ∃ mt len f p b ds dn bs, r = .meterStats mt (some len) f p b ds dn (tups bs) ∧ len = 40 + 16 * bs.length ∧ o = off + len := by
  simp only [parseMeterStats, bind_ok, ok_inj, Prod.mk.injEq] at hp
  obtain ⟨⟨⟨len, k⟩, o1⟩, h1, ⟨cs, o2⟩, h2, rfl, rfl⟩ := hp
  have e1 : o1 = off + 40 := (rd_ok h1).1
  have hk : ∃ mt f p b ds dn, k = Rec.meterStats mt (some len) f p b ds dn := by
    have := (rd_ok h1).2.2
    split at this
    · simp only [Option.some.injEq, Prod.mk.injEq] at this
      obtain ⟨rfl, rfl⟩ := this
      exact ⟨_, _, _, _, _, _, rfl⟩
    · cases this
  obtain ⟨mt, f, p, b, ds, dn, rfl⟩ := hk
  simp only [listFetch, bind_ok, pyAssert_ok, exists_const, ok_inj] at h2
  obtain ⟨r, h6, h7, rfl⟩ := h2
  obtain ⟨h8, _⟩ := whileFetch_sum (size := fun _ => 16) (good := fun _ => True) (fun _ _ _ h => ⟨pair_size h, trivial⟩) h6
  have h7 : o2 = off + len := h7
  rw [sum_const] at h8
  exact ⟨mt, len, f, p, b, ds, dn, cs, rfl, by omega, h7⟩

/-- C94 for group descriptions: the announced length is that of the fixed part and the buckets (whose own length fields may differ). -/
theorem C94_group_desc_partial (m : Bytes) (off o : Nat) (r : Rec) (hp : parseGroupDesc m off = .ok (r, o)) :
    ∃ len t g bs, r = .groupDesc (some len) t g (tups bs) ∧ len = 8 + (bs.map Bucket.wireSize).sum ∧ o = off + len := by
  simp only [parseGroupDesc, bind_ok, ok_inj, Prod.mk.injEq] at hp
  obtain ⟨⟨⟨len, k⟩, o1⟩, h1, ⟨bs, o2⟩, h2, rfl, rfl⟩ := hp
  have e1 : o1 = off + 8 := (rd_ok h1).1
  obtain ⟨l, t, g, hk⟩ := three_some (rd_ok h1).2.2
  simp only [Prod.mk.injEq] at hk
  obtain ⟨rfl, rfl⟩ := hk
  simp only [listFetch, bind_ok, pyAssert_ok, exists_const, ok_inj] at h2
  obtain ⟨r, h6, h7, rfl⟩ := h2
  obtain ⟨h8, _⟩ := whileFetch_sum (size := Bucket.wireSize) (good := fun _ => True) (fun off b o h => by
    obtain ⟨_, _, h, _⟩ := C94_bucket_partial m off o b h; exact ⟨h, trivial⟩) h6
  have h7 : o2 = off + len := h7
  exact ⟨len, t, g, bs, rfl, by omega, h7⟩

/-- C94 is false of forwarded requests: whatever length the outer message announces, it is accepted. -/
theorem C94_forward_refuted (x y : UInt8) :
    parseAt [5, 32, x, y, 0, 0, 0, 1, 5, 2, 0, 8, 0, 0, 0, 7] 0 =
      .ok (.requestForward ⟨5, 32, x.toNat * 256 + y.toNat, 1⟩ (.other ⟨5, 2, 8, 7⟩ []), 16) := by
  have h1 : parseHdr [5, 32, x, y, 0, 0, 0, 1, 5, 2, 0, 8, 0, 0, 0, 7] 0 = .ok (⟨5, 32, x.toNat * 256 + y.toNat, 1⟩, 8) := by
    simp [parseHdr, hdrFmt, rd, unpackFrom, calcsize, Item.width, dec, decBE, four, bind, Except.bind, pyAssert]
  have h2 : parseHdr [5, 32, x, y, 0, 0, 0, 1, 5, 2, 0, 8, 0, 0, 0, 7] 8 = .ok (⟨5, 2, 8, 7⟩, 16) := by
    simp [parseHdr, hdrFmt, rd, unpackFrom, calcsize, Item.width, dec, decBE, four, bind, Except.bind, pyAssert]
  have h3 : parseAt [5, 32, x, y, 0, 0, 0, 1, 5, 2, 0, 8, 0, 0, 0, 7] (0 + 8) = .ok (.other ⟨5, 2, 8, 7⟩ [], 16) := by
    rw [parseAt_of h2]
    show parseOther _ 8 = _
    rw [parseOther, h2, ok_bind]
    simp [slice]
  rw [parseAt_of h1]
  show parseRequestForward _ 0 _ = _
  rw [parseRequestForward, h1, ok_bind, h3]
  rfl

/-- C94 is false of instructions of fixed size: the length field is not looked at. -/
theorem C94_goto_refuted (x y t : UInt8) :
    parseInstr [0, 1, x, y, t, 0, 0, 0] 0 = .ok (.gotoTable (some 1) (some (x.toNat * 256 + y.toNat)) t.toNat, 8) := by
  have h1 : rd [H, H] [0, 1, x, y, t, 0, 0, 0] 0 (two fun a b => (a, b)) = .ok ((1, x.toNat * 256 + y.toNat), 4) := by
    simp [rd, unpackFrom, calcsize, Item.width, dec, decBE, two]
  have h2 : rd [H, H, B, X 3] [0, 1, x, y, t, 0, 0, 0] 0 (three fun t l => Instr.gotoTable (some t) (some l)) =
      .ok (.gotoTable (some 1) (some (x.toNat * 256 + y.toNat)) t.toNat, 8) := by
    simp [rd, unpackFrom, calcsize, Item.width, dec, decBE, three]
  rw [parseInstr, h1, ok_bind]
  exact h2

/-- C94 is false of buckets: one that announces fewer bytes (24) than it takes up (32) is accepted. -/
theorem C94_bucket_refuted :
    parseBucket exShortBucket 0 = .ok (⟨some 24, 0, 0, 0, tups [.output (some 0) (some 16) 1 0xffff]⟩, 32) := by
  decide +kernel

/-- C94 is false of PACKET_OUT: the actions run over the announced length, into what the sender says is data. -/
theorem C94_packet_out_refuted : parsePacketOut (exShortOut.set 0 5) 0 =
    .ok (.packetOut ⟨5, 13, 42, 1⟩ 0xffffffff 1 8 [.output (some 0) (some 16) 1 0xffff] [1, 2], 42) := by
  decide +kernel

/-- An asynchronous configuration of 12 bytes, behind which 4 other bytes follow. -/
def exShortAsync : Bytes := [5, 28, 0, 12, 0, 0, 0, 1, 0, 0, 0, 8, 1, 2, 3, 4]

/-- C94 is false of asynchronous configuration: the property of a message of 12 bytes is read from 16. -/
theorem C94_async_refuted : parseAsync exShortAsync 0 = .ok (.async ⟨5, 28, 12, 1⟩ [.reasons (some 0) (some 8) 0x01020304], 16) := by
  decide +kernel

example : ∃ r, parseFlowMod (exSizes.set 0 5) 0 = .ok r := ok_of (by decide +kernel)
example : ∃ r, parseFlowStats exStatSizes 0 = .ok r := ok_of (by decide +kernel)

/-- A GROUP_MOD with one bucket. -/
def exGroupSizes : Bytes := [5, 15, 0, 48, 0, 0, 0, 1, 0, 0, 0, 0, 0, 0, 0, 1] ++ exShortBucket.set 1 32

example : ∃ r, parseGroupMod exGroupSizes 0 = .ok r := ok_of (by decide +kernel)

example : ∃ r, parseGroupStats ([0, 56] ++ List.replicate 54 1) 0 = .ok r := ok_of (by decide +kernel)
example : ∃ r, parseMeterStats ([0, 0, 0, 9, 0, 56] ++ List.replicate 50 1) 0 = .ok r := ok_of (by decide +kernel)
example : ∃ r, parseGroupDesc ([0, 40, 0, 0, 0, 0, 0, 1] ++ exShortBucket) 0 = .ok r := ok_of (by decide +kernel)

example : ∃ r, parseBundleAdd [5, 34, 0, 24, 0, 0, 0, 1, 0, 0, 0, 9, 0, 0, 0, 2] 0 (.ok (.other ⟨5, 2, 8, 7⟩ [], 24)) = .ok r := ok_of (by decide +kernel)

end Twink.Of14
