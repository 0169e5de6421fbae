import Verif.Spec.Of13Sizes
import Verif.Props.Of13

/-! # Lengths inside parsed messages (C69) -/

namespace Twink.Of13
open Fmt

theorem two_some {k : Nat → Nat → α} {vs a} (h : two k vs = some a) : ∃ x y, a = k x y := by
  unfold two at h; split at h
  · injection h with h; exact ⟨_, _, h.symm⟩
  · cases h

theorem three_some {k : Nat → Nat → Nat → α} {vs a} (h : three k vs = some a) : ∃ x y z, a = k x y z := by
  unfold three at h; split at h
  · injection h with h; exact ⟨_, _, _, h.symm⟩
  · cases h

theorem four_some {k : Nat → Nat → Nat → Nat → α} {vs a} (h : four k vs = some a) : ∃ x y z w, a = k x y z w := by
  unfold four at h; split at h
  · injection h with h; exact ⟨_, _, _, _, h.symm⟩
  · cases h

/-- A loop whose elements advance the cursor by their sizes. -/
theorem whileFetch_sum {fetch : Nat → Py (α × Nat)} {size : α → Nat} {good : α → Prop}
    (hf : ∀ off a o, fetch off = .ok (a, o) → o = off + size a ∧ good a) {limit off : Nat} {l : List α} {o : Nat}
    (h : whileFetch fetch limit off = .ok (l, o)) : o = off + (l.map size).sum ∧ ∀ a ∈ l, good a := by
  rw [whileFetch] at h
  split at h
  · cases hx : fetch off with
    | error e => simp [hx] at h
    | ok r =>
      obtain ⟨a, o'⟩ := r
      simp only [hx] at h
      split at h
      · rename_i hlt
        cases hw : whileFetch fetch limit o' with
        | error e => simp [hw] at h
        | ok r =>
          obtain ⟨as, o''⟩ := r
          simp only [hw, ok_inj, Prod.mk.injEq] at h
          obtain ⟨rfl, rfl⟩ := h
          obtain ⟨h1, h2⟩ := hf off a o' hx
          obtain ⟨h3, h4⟩ := whileFetch_sum hf hw
          refine ⟨by rw [h3, h1, List.map_cons, List.sum_cons]; omega, fun b hb => ?_⟩
          rcases List.mem_cons.1 hb with rfl | hb
          · exact h2
          · exact h4 b hb
      · cases h
  · simp only [ok_inj, Prod.mk.injEq] at h
    obtain ⟨rfl, rfl⟩ := h
    simp
termination_by limit - off

theorem action_size {m off a o} (h : parseAction m off = .ok (a, o)) : o = off + a.wireSize := by
  simp only [parseAction, bind_ok] at h
  obtain ⟨r, h1, h2⟩ := h
  simp only [parseActionOf] at h2
  split_ifs at h2 with c1 c2 c3 c4 c5 c6 c7 c8 c9
  · obtain ⟨e, _, k⟩ := rd_ok h2; obtain ⟨_, _, _, _, rfl⟩ := four_some k; exact e
  · obtain ⟨e, _, k⟩ := rd_ok h2; obtain ⟨_, _, _, rfl⟩ := three_some k; exact e
  · obtain ⟨e, _, k⟩ := rd_ok h2; obtain ⟨_, _, _, rfl⟩ := three_some k; exact e
  · obtain ⟨e, _, k⟩ := rd_ok h2; obtain ⟨_, _, _, rfl⟩ := three_some k; exact e
  · obtain ⟨e, _, k⟩ := rd_ok h2; obtain ⟨_, _, _, rfl⟩ := three_some k; exact e
  · obtain ⟨e, _, k⟩ := rd_ok h2; obtain ⟨_, _, _, rfl⟩ := three_some k; exact e
  · simp only [bind_ok, ok_inj, Prod.mk.injEq] at h2
    obtain ⟨r, _, rfl, rfl⟩ := h2; rfl
  · simp only [bind_ok, ok_inj, Prod.mk.injEq] at h2
    obtain ⟨r, _, rfl, rfl⟩ := h2; rfl
  · obtain ⟨e, _, k⟩ := rd_ok h2; obtain ⟨_, _, rfl⟩ := two_some k; exact e

/-- The length field of an instruction with actions is the number of bytes of the instruction. -/
def Instr.Counted : Instr → Prop
  | .actions _ len l => len = some (8 + (l.values.map Action.wireSize).sum)
  | _ => True

theorem instr_size {m off i o} (h : parseInstr m off = .ok (i, o)) : o = off + i.wireSize ∧ i.Counted := by
  simp only [parseInstr, bind_ok] at h
  obtain ⟨r, h1, h2⟩ := h
  simp only [parseInstrOf] at h2
  split_ifs at h2 with c1 c2 c3 c4 c5
  · obtain ⟨e, _, k⟩ := rd_ok h2; obtain ⟨_, _, _, rfl⟩ := three_some k; exact ⟨e, trivial⟩
  · obtain ⟨e, _, k⟩ := rd_ok h2; obtain ⟨_, _, _, _, rfl⟩ := four_some k; exact ⟨e, trivial⟩
  · simp only [bind_ok, pyAssert_ok, ok_inj, Prod.mk.injEq, exists_const] at h2
    obtain ⟨r, h3, r', h4, h5, rfl, rfl⟩ := h2
    obtain ⟨_, rfl⟩ := rd_HH h3
    obtain ⟨h6, _⟩ := whileFetch_sum (size := Action.wireSize) (good := fun _ => True) (fun _ _ _ h => ⟨action_size h, trivial⟩) h4
    have h7 : calcsize [H, H, X 4] = 8 := rfl
    have h5 : r'.2 = off + Spec.u16 m (off + 2) := h5
    rw [h7] at h6
    refine ⟨by simp only [Instr.wireSize, values_tups]; omega, ?_⟩
    simp only [Instr.Counted, values_tups, Option.some.injEq]
    omega
  · obtain ⟨e, _, k⟩ := rd_ok h2; obtain ⟨_, _, _, rfl⟩ := three_some k; exact ⟨e, trivial⟩
  · simp only [bind_ok, ok_inj, Prod.mk.injEq] at h2
    obtain ⟨r, _, rfl, rfl⟩ := h2; exact ⟨rfl, trivial⟩

theorem match_size {m off mt o} (h : parseMatch m off = .ok (mt, o)) : ∃ l, mt.length = some l ∧ o = off + align l := by
  simp only [parseMatch, bind_ok, ok_inj, Prod.mk.injEq] at h
  obtain ⟨r, _, rfl, rfl⟩ := h
  exact ⟨_, rfl, rfl⟩

/-- C69 for FLOW_MOD: in every FLOW_MOD that is parsed without exception, the announced length of the message is the sum of header, fixed part,
match with its padding, and instructions; and the length of every instruction with actions is the sum of its actions.
(Partial: other lengths are not checked, see the refutations.) -/
theorem C69_flow_mod_partial (m : Bytes) (off : Nat) (h : Hdr) (c cm t cmd i hd p b op og f : Nat) (mt : MatchT) (is : List Instr)
    (hp : parseFlowMod m off = .ok (.flowMod h c cm t cmd i hd p b op og f mt is)) :
    ∃ l, mt.length = some l ∧ h.length = 48 + align l + (is.map Instr.wireSize).sum ∧
      ∀ i ∈ is, ∀ t len as, i = .actions t len as → i.lenField = some i.wireSize := by
  simp only [parseFlowMod, bind_ok, ok_inj] at hp
  obtain ⟨⟨h', o1⟩, h1, ⟨k, o2⟩, h2, ⟨mt', o3⟩, h3, ⟨is', o4⟩, h4, h5⟩ := hp
  have e1 : o1 = off + 8 := by
    simp only [parseHdr, bind_ok, pyAssert_ok, exists_const, ok_inj] at h1
    obtain ⟨r, h6, _, rfl⟩ := h1
    exact (rd_ok h6).1
  have e2 : o2 = o1 + 40 := (rd_ok h2).1
  have hk : ∃ c cm t cmd i hd p b op og f, k = Msg.flowMod h' c cm t cmd i hd p b op og f := by
    have := (rd_ok h2).2.2
    split at this
    · injection this with this
      exact ⟨_, _, _, _, _, _, _, _, _, _, _, this.symm⟩
    · cases this
  obtain ⟨c', cm', t', cmd', i', hd', p', b', op', og', f', hk⟩ := hk
  rw [hk] at h5
  simp only [Msg.flowMod.injEq] at h5
  obtain ⟨rfl, -, -, -, -, -, -, -, -, -, -, -, rfl, rfl⟩ := h5
  obtain ⟨l, hl, e3⟩ := match_size h3
  simp only [listFetch, bind_ok, pyAssert_ok, exists_const, ok_inj] at h4
  obtain ⟨r, h6, h7, rfl⟩ := h4
  obtain ⟨h8, h9⟩ := whileFetch_sum (size := Instr.wireSize) (good := Instr.Counted) (fun _ _ _ h => instr_size h) h6
  refine ⟨l, hl, ?_, fun i hi t len as hia => ?_⟩
  · have h7 : o4 = off + h'.length := h7
    omega
  · subst hia
    exact h9 _ hi

/-- C69 for flow statistics, likewise. -/
theorem C69_flow_stats_partial (m : Bytes) (off o : Nat) (r : Rec) (hp : parseFlowStats m off = .ok (r, o)) :
    ∃ len l t ds dn p i h f c pc bc mt is, r = .flowStats (some len) t ds dn p i h f c pc bc (.tup mt) (tups is) ∧ mt.length = some l ∧
      len = 48 + align l + (is.map Instr.wireSize).sum ∧ o = off + len ∧
      ∀ i ∈ is, ∀ t len as, i = .actions t len as → i.lenField = some i.wireSize := by
  simp only [parseFlowStats, bind_ok, ok_inj, Prod.mk.injEq] at hp
  obtain ⟨⟨⟨len, k⟩, o1⟩, h1, ⟨mt, o2⟩, h2, ⟨is, o3⟩, h3, rfl, rfl⟩ := hp
  have e1 : o1 = off + 48 := (rd_ok h1).1
  have hk : ∃ t ds dn p i h f c pc bc, k = Rec.flowStats (some len) t ds dn p i h f c pc bc := by
    have := (rd_ok h1).2.2
    split at this
    · simp only [Option.some.injEq, Prod.mk.injEq] at this
      obtain ⟨rfl, rfl⟩ := this
      exact ⟨_, _, _, _, _, _, _, _, _, _, rfl⟩
    · cases this
  obtain ⟨t, ds, dn, p, i, h, f, c, pc, bc, rfl⟩ := hk
  obtain ⟨l, hl, e2⟩ := match_size h2
  simp only [listFetch, bind_ok, pyAssert_ok, exists_const, ok_inj] at h3
  obtain ⟨r, h6, h7, rfl⟩ := h3
  obtain ⟨h8, h9⟩ := whileFetch_sum (size := Instr.wireSize) (good := Instr.Counted) (fun _ _ _ h => instr_size h) h6
  have h7 : o3 = off + len := h7
  refine ⟨len, l, t, ds, dn, p, i, h, f, c, pc, bc, mt, is, rfl, hl, by omega, by omega, fun i hi t len as hia => ?_⟩
  subst hia
  exact h9 _ hi

/-- A loop stops at the first element that ends at or behind the limit. -/
theorem whileFetch_limit {fetch : Nat → Py (α × Nat)} {size : α → Nat} (hf : ∀ off a o, fetch off = .ok (a, o) → o = off + size a)
    {limit off : Nat} {l : List α} {o : Nat} (h : whileFetch fetch limit off = .ok (l, o)) :
    limit ≤ o ∧ (l ≠ [] → off + (l.dropLast.map size).sum < limit) := by
  rw [whileFetch] at h
  split at h
  · rename_i h0
    cases hx : fetch off with
    | error e => simp [hx] at h
    | ok r =>
      obtain ⟨a, o'⟩ := r
      simp only [hx] at h
      split at h
      · rename_i hlt
        cases hw : whileFetch fetch limit o' with
        | error e => simp [hw] at h
        | ok r =>
          obtain ⟨as, o''⟩ := r
          simp only [hw, ok_inj, Prod.mk.injEq] at h
          obtain ⟨rfl, rfl⟩ := h
          have h1 := hf off a o' hx
          obtain ⟨h3, h4⟩ := whileFetch_limit hf hw
          refine ⟨h3, fun _ => ?_⟩
          cases as with
          | nil => simpa using h0
          | cons b bs =>
            have h5 := h4 (by simp)
            simp only [List.dropLast_cons_of_ne_nil (List.cons_ne_nil b bs), List.map_cons, List.sum_cons]
            omega
      · cases h
  · simp only [ok_inj, Prod.mk.injEq] at h
    obtain ⟨rfl, rfl⟩ := h
    simp
    omega
termination_by limit - off

/-- C69 for buckets: what is taken up is the fixed part and the actions; the announced length is not more than that, and all actions but the
last begin inside of it. (Partial: equality is not ensured, see `C69_bucket_refuted`.) -/
theorem C69_bucket_partial (m : Bytes) (off o len w wp wg : Nat) (as : Seq Action)
    (hp : parseBucket m off = .ok (⟨some len, w, wp, wg, as⟩, o)) :
    o = off + 16 + (as.values.map Action.wireSize).sum ∧ len ≤ 16 + (as.values.map Action.wireSize).sum ∧
      (as.values ≠ [] → 16 + (as.values.dropLast.map Action.wireSize).sum < len) := by
  simp only [parseBucket, bind_ok, ok_inj, Prod.mk.injEq, Bucket.mk.injEq, Option.some.injEq] at hp
  obtain ⟨⟨⟨len', w', wp', wg'⟩, o1⟩, h1, ⟨as', o2⟩, h2, ⟨e1, e2, e3, e4, e5⟩, e6⟩ := hp
  have e7 : o1 = off + 16 := (rd_ok h1).1
  obtain ⟨h3, _⟩ := whileFetch_sum (size := Action.wireSize) (good := fun _ => True) (fun _ _ _ h => ⟨action_size h, trivial⟩) h2
  obtain ⟨h4, h5⟩ := whileFetch_limit (size := Action.wireSize) (fun _ _ _ h => action_size h) h2
  simp only at e1 e5 e6 h3 h4 h5
  subst e1 e5 e6 e7
  simp only [values_tups]
  refine ⟨h3, by omega, fun hne => ?_⟩
  have := h5 hne
  omega

/-- C69 for PACKET_OUT: the announced length of the actions is not more than the actions take up, and all actions but the last begin inside
of it; the data is the rest of the message behind the actions. -/
theorem C69_packet_out_partial (m : Bytes) (off : Nat) (h : Hdr) (buf inPort alen : Nat) (as : List Action) (d : Bytes)
    (hp : parsePacketOut m off = .ok (.packetOut h buf inPort alen as d)) :
    alen ≤ (as.map Action.wireSize).sum ∧ (as ≠ [] → (as.dropLast.map Action.wireSize).sum < alen) ∧
      d = (m.take (off + h.length)).drop (off + 24 + (as.map Action.wireSize).sum) := by
  simp only [parsePacketOut, bind_ok, ok_inj, Msg.packetOut.injEq] at hp
  obtain ⟨⟨h', o1⟩, h1, ⟨⟨b', i', a'⟩, o2⟩, h2, ⟨as', o3⟩, h3, rfl, rfl, rfl, rfl, rfl, rfl⟩ := hp
  have e1 : o1 = off + 8 := by
    simp only [parseHdr, bind_ok, pyAssert_ok, exists_const, ok_inj] at h1
    obtain ⟨r, h6, _, rfl⟩ := h1
    exact (rd_ok h6).1
  have e2 : o2 = o1 + 16 := (rd_ok h2).1
  obtain ⟨h4, _⟩ := whileFetch_sum (size := Action.wireSize) (good := fun _ => True) (fun _ _ _ h => ⟨action_size h, trivial⟩) h3
  obtain ⟨h5, h6⟩ := whileFetch_limit (size := Action.wireSize) (fun _ _ _ h => action_size h) h3
  simp only at h4 h5 h6
  subst e1 e2
  refine ⟨?_, fun hne => ?_, ?_⟩
  · show a' ≤ (as'.map Action.wireSize).sum
    omega
  · have := h6 hne
    show (as'.dropLast.map Action.wireSize).sum < a'
    omega
  · rw [slice, List.drop_take, h4]

/-- C69 is false of instructions of fixed size: the length field is not looked at. Whatever its two bytes are, the instruction is
accepted and 8 bytes are taken up. -/
theorem C69_goto_refuted (x y t : UInt8) :
    parseInstr [0, 1, x, y, t, 0, 0, 0] 0 = .ok (.gotoTable (some 1) (some (x.toNat * 256 + y.toNat)) t.toNat, 8) := by
  have h1 : rd [H, H] [0, 1, x, y, t, 0, 0, 0] 0 (two fun a b => (a, b)) = .ok ((1, x.toNat * 256 + y.toNat), 4) := by
    simp [rd, unpackFrom, calcsize, Item.width, dec, decBE, two]
  have h2 : rd [H, H, B, X 3] [0, 1, x, y, t, 0, 0, 0] 0 (three fun t l => Instr.gotoTable (some t) (some l)) =
      .ok (.gotoTable (some 1) (some (x.toNat * 256 + y.toNat)) t.toNat, 8) := by
    simp [rd, unpackFrom, calcsize, Item.width, dec, decBE, three]
  rw [parseInstr, h1, ok_bind]
  exact h2

/-- A bucket announcing 24 bytes, with an output action of 16 bytes behind its fixed part of 16. -/
def exShortBucket : Bytes := [0, 24, 0, 0, 0, 0, 0, 0, 0, 0, 0, 0, 0, 0, 0, 0, 0, 0, 0, 16, 0, 0, 0, 1, 0xff, 0xff, 0, 0, 0, 0, 0, 0]

/-- C69 is false of buckets: one that announces fewer bytes than it takes up is accepted. -/
theorem C69_bucket_refuted :
    parseBucket exShortBucket 0 = .ok (⟨some 24, 0, 0, 0, tups [.output (some 0) (some 16) 1 0xffff]⟩, 32) := by
  decide +kernel

/-- A PACKET_OUT announcing 8 bytes of actions, with an output action of 16 bytes and then the data 1, 2. -/
def exShortOut : Bytes := [4, 13, 0, 42, 0, 0, 0, 1, 0xff, 0xff, 0xff, 0xff, 0, 0, 0, 1, 0, 8, 0, 0, 0, 0, 0, 0,
  0, 0, 0, 16, 0, 0, 0, 1, 0xff, 0xff, 0, 0, 0, 0, 0, 0, 1, 2]

/-- C69 is false of PACKET_OUT: the actions run over the announced length, into what the sender says is data. -/
theorem C69_packet_out_refuted : parsePacketOut exShortOut 0 =
    .ok (.packetOut ⟨4, 13, 42, 1⟩ 0xffffffff 1 8 [.output (some 0) (some 16) 1 0xffff] [1, 2]) := by
  decide +kernel

/-- A FLOW_MOD with a match of 4 bytes, padded to 8, an instruction with one output action, and a jump to table 2. -/
def exSizes : Bytes := [4, 14, 0, 88, 0, 0, 0, 1] ++ List.replicate 40 0 ++ [0, 1, 0, 4, 0, 0, 0, 0] ++
  [0, 4, 0, 24, 0, 0, 0, 0, 0, 0, 0, 16, 0, 0, 0, 1, 0xff, 0xff, 0, 0, 0, 0, 0, 0] ++ [0, 1, 0, 8, 2, 0, 0, 0]

example : ∃ r, parseFlowMod exSizes 0 = .ok r := ok_of (by decide +kernel)

/-- Flow statistics likewise. -/
def exStatSizes : Bytes := [0, 88] ++ List.replicate 46 0 ++ [0, 1, 0, 4, 0, 0, 0, 0] ++
  [0, 4, 0, 24, 0, 0, 0, 0, 0, 0, 0, 16, 0, 0, 0, 1, 0xff, 0xff, 0, 0, 0, 0, 0, 0] ++ [0, 1, 0, 8, 2, 0, 0, 0]

example : ∃ r, parseFlowStats exStatSizes 0 = .ok r := ok_of (by decide +kernel)

end Twink.Of13
