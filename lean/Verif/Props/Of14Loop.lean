import Verif.Proof.Of14Loop
import Verif.Proof.Of14Refute
import Verif.Props.Of13

/-!
# C75: the OpenFlow 1.4 parser ends
-/

namespace Twink.Of14
open Fmt Of13 Spec

theorem rd_some {f m off} {k : List Val → Option α} {a} (h : off + calcsize f ≤ m.length) (hk : k (dec f (m.drop off)) = some a) :
    rd f m off k = .ok (a, off + calcsize f) := by
  unfold rd unpackFrom
  rw [if_pos h]
  simp only [hk]

theorem decBE_one (m : Bytes) (o : Nat) (h : o < m.length) : decBE ((m.drop o).take 1) = u8 m o := by
  have : (m.drop o).take 1 = [m.getD o 0] := by
    apply List.ext_getElem
    · simp; omega
    · intro i h1 h2
      simp at h2
      subst h2
      simp [List.getD_eq_getElem?_getD, List.getElem?_eq_getElem h]
  rw [this]
  simp [decBE, u8]

theorem parseHdr_of {m off} (h : off + 8 ≤ m.length) (hv : u8 m off = 5) :
    ∃ x, parseHdr m off = .ok (⟨5, u8 m (off + 1), u16 m (off + 2), x⟩, off + 8) := by
  refine ⟨decBE ((m.drop (off + 4)).take 4), ?_⟩
  have h1 : dec hdrFmt (m.drop off) = [.int 5, .int (u8 m (off + 1)), .int (u16 m (off + 2)), .int (decBE ((m.drop (off + 4)).take 4))] := by
    simp only [hdrFmt, dec, List.drop_drop]
    rw [decBE_one m off (by omega), decBE_one m (off + 1) (by omega), decBE_two m (off + 2) (by omega), hv]
  rw [parseHdr, rd_some (k := four Hdr.mk) h (by rw [h1]; rfl), ok_bind, pyAssert_true rfl]
  rfl

theorem rd_two_of {f m off} (k : Nat → Nat → α) (h : off + calcsize (H :: H :: f) ≤ m.length) (hf : ∀ d, dec f d = []) :
    rd (H :: H :: f) m off (two k) = .ok (k (u16 m off) (u16 m (off + 2)), off + calcsize (H :: H :: f)) := by
  refine rd_some h ?_
  rw [dec_HH f m off (by simp [calcsize, Item.width] at h; omega), hf]
  rfl

/-! ### counterexamples -/

/-- C75 is false of the code: a PACKET_OUT that has an action of length zero, set-field or experimenter, as its first
action is never parsed, whatever else stands in it. -/
theorem C75_packet_out_refuted (m : Bytes) (off : Nat) (h : off + 32 ≤ m.length) (hv : u8 m off = 5) (ht : u8 m (off + 1) = 13)
    (ha : 0 < u16 m (off + 16)) (hz : ZeroLength m (off + 24)) : parse m off = .error .diverges := by
  obtain ⟨x, hh⟩ := parseHdr_of (by omega) hv
  apply parse_error
  rw [parseAt_of hh, ht]
  show parsePacketOut m off = _
  rw [parsePacketOut, hh, ok_bind]
  have h1 : rd [I, I, H, X 6] m (off + 8) (three fun a b c => (a, b, c)) =
      .ok ((decBE ((m.drop (off + 8)).take 4), decBE ((m.drop (off + 12)).take 4), u16 m (off + 16)), off + 24) := by
    refine rd_some (by simp [calcsize, Item.width]; omega) ?_
    simp only [dec, List.drop_drop, Nat.add_assoc, Nat.reduceAdd]
    rw [decBE_two m (off + 16) (by omega)]
    rfl
  simp only
  rw [h1, ok_bind]
  obtain ⟨z1, z2, z3⟩ := hz
  have h2 : ∃ a, parseAction m (off + 24) = .ok (a, off + 24) := by
    rw [parseAction, rd_two_of _ (by simp [calcsize, Item.width]; omega) (fun _ => rfl), ok_bind]
    rcases z2 with z2 | z2
    · refine ⟨.setField (some 25) (some 0) (slice m (off + 24 + 4) (off + 24 + 0)), ?_⟩
      simp only [z2]
      show (rd [H, H] m (off + 24) (two fun a b => (a, b)) >>= _) = _
      rw [rd_two_of _ (by simp [calcsize, Item.width]; omega) (fun _ => rfl), ok_bind, z2, z3]
      rfl
    · refine ⟨.experimenter (some 0xffff) (some 0) (decBE ((m.drop (off + 24 + 4)).take 4)) (slice m (off + 24 + 8) (off + 24 + 0)), ?_⟩
      simp only [z2]
      show (rd [H, H, I] m (off + 24) (three fun a b c => (a, b, c)) >>= _) = _
      rw [rd_some (k := three fun a b c => (a, b, c)) (a := (0xffff, 0, decBE ((m.drop (off + 24 + 4)).take 4))) (by simp [calcsize, Item.width]; omega)
        (by rw [dec_HH _ _ _ (by omega), z2, z3]; rfl), ok_bind]
      rfl
  obtain ⟨a, h2⟩ := h2
  have h3 : whileFetch (parseAction m) (off + 24 + u16 m (off + 16)) (off + 24) = .error .diverges := by
    rw [whileFetch, if_pos (by omega), h2]
    simp
  simp only
  rw [h3]
  rfl

/-- C75 is false of the code: a PORT_MOD is never parsed if the first two bytes behind its header are not the type of a
known property (they are the upper half of the port number, the fixed part not being passed over). -/
theorem C75_port_mod_refuted (m : Bytes) (off : Nat) (h : off + 24 ≤ m.length) (hv : u8 m off = 5) (ht : u8 m (off + 1) = 16)
    (hl : 8 < u16 m (off + 2)) (hu : u16 m (off + 8) ∉ [0, 1, 0xffff]) : parse m off = .error .diverges := by
  obtain ⟨x, hh⟩ := parseHdr_of (by omega) hv
  apply parse_error
  rw [parseAt_of hh, ht]
  show parsePortMod m off = _
  rw [parsePortMod, hh, ok_bind]
  simp only
  rw [rd_some (a := Msg.portMod ⟨5, 16, u16 m (off + 2), x⟩ (decBE ((m.drop off).take 4)) ((((m.drop off).drop 4).drop 4).take 6)
      (decBE (((((((m.drop off).drop 4).drop 4).drop 6).drop 2)).take 4)) (decBE ((((((((m.drop off).drop 4).drop 4).drop 6).drop 2)).drop 4).take 4)))
    h (by rw [ht]; rfl), ok_bind]
  simp only [List.mem_cons, List.not_mem_nil, or_false, not_or] at hu
  have h2 : parsePmProp m (off + 8) = .ok (.header (some (u16 m (off + 8))) none, off + 8) := by
    rw [parsePmProp, rd_two_of _ (by simp [calcsize, Item.width]; omega) (fun _ => rfl), ok_bind]
    simp only [parsePmPropOf, if_neg hu.1, if_neg hu.2.1, if_neg hu.2.2]
  have h3 : whileFetch (parsePmProp m) (off + u16 m (off + 2)) (off + 8) = .error .diverges := by
    rw [whileFetch, if_pos (by omega), h2]
    simp
  rw [h3]
  rfl

/-- C75 is false of the code: PORT_MOD messages made by the library's own builder are never parsed if the port's number is
from 131072 to 4294901759. -/
theorem C75_built_port_mod_refuted (rnd : Nat) (h : HdrArg) (p : Nat) (hw : Bytes) (c k : Nat) (ps : Seq Pr) (bs pre post : Bytes)
    (hp : 131072 ≤ p ∧ p ≤ 4294901759) (hb : buildPortMod rnd h p hw c k ps = .ok bs) :
    parse (pre ++ (bs ++ post)) pre.length = .error .diverges := by
  simp only [buildPortMod, bind_ok, pack_eq_ok] at hb
  obtain ⟨pb, hpb, _, ⟨hf, rfl⟩, hb⟩ := hb
  have hb := made_one hb
  have hl := hb.len
  have hc : calcsize portModFmt = 24 := rfl
  rw [List.length_append, enc_length _ _ hf, hc] at hl
  have hfit := hb.fits
  have hle : bs.length < 65536 := by rw [hb.len]; simp [fits, hdrFmt] at hfit ⊢; omega
  have hpf : p < 4294967296 := by simp [fits, portModFmt] at hf; omega
  have e : ∃ d, bs = b8 5 ++ (b8 16 ++ (be16 bs.length ++ (be32 (h.xid rnd) ++ (be16 (p / 65536) ++ d)))) := by
    rw [hb.len]
    refine ⟨be16 (p % 65536) ++ ((enc portModFmt [.int p, .str hw, .int c, .int k]).drop 4 ++ pb), ?_⟩
    conv_lhs => rw [hb.eq]
    simp [hdrFmt, portModFmt, enc, encBE_1, encBE_2, encBE_4, be16, be32, b8, Nat.div_div_eq_div_mul]
  obtain ⟨d, e⟩ := e
  have g (i : Nat) : (pre ++ (bs ++ post)).getD (pre.length + i) 0 = (bs ++ post).getD i 0 := by
    simp [List.getD_eq_getElem?_getD, List.getElem?_append_right]
  have g8 (i : Nat) : u8 (pre ++ (bs ++ post)) (pre.length + i) = u8 (bs ++ post) i := by simp only [u8, g]
  have gu (i : Nat) : u16 (pre ++ (bs ++ post)) (pre.length + i) = u16 (bs ++ post) i := by
    simp only [u16, Nat.add_assoc, g8]
  refine C75_port_mod_refuted _ _ (by simp only [List.length_append]; omega) ?_ ?_ ?_ ?_
  · refine (g8 0).trans ?_
    rw [e]; simp [u8, b8]
  · refine (g8 1).trans ?_
    rw [e]; simp [u8, b8]
  · rw [gu 2, e]
    simp [u16, u8, be16, b8]
    omega
  · rw [gu 8, e]
    simp [u16, u8, be16, be32, b8]
    omega

/-- C75 is false of the code: a ROLE_STATUS is never parsed if the upper half of its role is 0xffff. -/
theorem C75_role_status_refuted (m : Bytes) (off : Nat) (h : off + 16 ≤ m.length) (hv : u8 m off = 5) (ht : u8 m (off + 1) = 30)
    (hl : 8 < u16 m (off + 2)) (hu : u16 m (off + 8) = 0xffff) : parse m off = .error .diverges := by
  obtain ⟨x, hh⟩ := parseHdr_of (by omega) hv
  apply parse_error
  rw [parseAt_of hh, ht]
  show parseRoleStatus m off = _
  rw [parseRoleStatus, hh, ok_bind]
  simp only
  rw [rd_some (k := three (Msg.roleStatus ⟨5, u8 m (off + 1), u16 m (off + 2), x⟩)) (f := [I, B, X 3, Q]) h rfl, ok_bind]
  have h2 : ∃ a, parseRoleProp off m (off + 8) = .ok (a, off + 8) := by
    rw [parseRoleProp, rd_two_of _ (by simp [calcsize, Item.width]; omega) (fun _ => rfl), ok_bind]
    simp only [hu, if_true]
    rw [rd_some (k := four fun a b c d => (a, b, c, d)) (f := [H, H, I, I]) (by simp [calcsize, Item.width]; omega) rfl, ok_bind]
    exact ⟨_, rfl⟩
  obtain ⟨a, h2⟩ := h2
  have h3 : whileFetch (parseRoleProp off m) (off + u16 m (off + 2)) (off + 8) = .error .diverges := by
    rw [whileFetch, if_pos (by omega), h2]
    simp
  simp only
  rw [h3]
  rfl

/-- C75 is false of the code: METER_MOD messages made by the library's own builder (with the length filled in) are never
parsed if they have an experimenter band, after any drop and DSCP bands, before any others. -/
theorem C75_meter_mod_refuted (rnd : Nat) (v x : Option Nat) (c f mt : Nat) (l1 l2 : List Band) (t l : Option Nat) (r b e : Nat) (d : Bytes)
    (bs pre post : Bytes) (hl : ∀ a ∈ l1, a.Parseable)
    (hb : buildMeterMod rnd (.tup v (some 29) (some bs.length) x) c f mt (tups (l1 ++ .experimenter t l r b e d :: l2)) = .ok bs) :
    parse (pre ++ (bs ++ post)) pre.length = .error .diverges := by
  have hm := At.intro pre bs post _ rfl
  generalize pre ++ (bs ++ post) = m at hm ⊢
  generalize pre.length = n at hm ⊢
  apply parse_error
  simp only [buildMeterMod, bind_ok, pack_eq_ok, ok_inj] at hb
  obtain ⟨kb, hkb, hd, hhd, _, ⟨hf, rfl⟩, hbs⟩ := hb
  have hf2 : fits [H, H, I] [.int c, .int f, .int mt] = true := by simpa [fits] using hf
  obtain ⟨t', ht, h1, rfl⟩ := ofpHeader_ok hhd
  injection ht with ht; subst ht
  have h1 : fits hdrFmt [.int 5, .int 29, .int bs.length, .int (x.getD rnd)] = true := h1
  have he : enc [S 8, H, H, I] [.str (enc hdrFmt [.int 5, .int 29, .int bs.length, .int (x.getD rnd)]), .int c, .int f, .int mt] =
      enc hdrFmt [.int 5, .int 29, .int bs.length, .int (x.getD rnd)] ++ enc [H, H, I] [.int c, .int f, .int mt] := by
    show padTo 8 _ ++ _ = _
    rw [padTo_eq 8 _ (by rw [hdr_length])]
  simp only [Option.getD_some] at hbs
  rw [he, List.append_assoc] at hbs
  have hlen : bs.length = 16 + kb.length := by
    have := congrArg List.length hbs
    rw [List.length_append, List.length_append, hdr_length, enc_length _ _ hf2] at this
    have hc : calcsize [H, H, I] = 8 := rfl
    omega
  have hmm : At m n (enc hdrFmt [.int 5, .int 29, .int bs.length, .int (x.getD rnd)] ++ (enc [H, H, I] [.int c, .int f, .int mt] ++ kb)) := by
    rw [hbs]; exact hm
  have hh : parseHdr m n = .ok (⟨5, 29, bs.length, x.getD rnd⟩, n + 8) := by
    rw [parseHdr, rd_at hmm.left h1 (by simp [exact, hdrFmt]) (four Hdr.mk) ⟨5, 29, bs.length, x.getD rnd⟩ rfl, ok_bind, pyAssert_true rfl]
    rfl
  have hj : ∃ b1 b2 b3, join buildBand (l1.map .tup) = .ok b1 ∧ buildBand (.experimenter t l r b e d) = .ok b2 ∧ kb = b1 ++ (b2 ++ b3) := by
    have hkb : join buildBand ((l1 ++ .experimenter t l r b e d :: l2).map .tup) = .ok kb := hkb
    clear * - hkb
    induction l1 generalizing kb with
    | nil =>
      rw [List.nil_append, List.map_cons, join_ok_cons] at hkb
      obtain ⟨b1, b2, h1, _, rfl⟩ := hkb
      exact ⟨[], b1, b2, rfl, h1, rfl⟩
    | cons a l1 ih =>
      rw [List.cons_append, List.map_cons, join_ok_cons] at hkb
      obtain ⟨b0, bs', h1, h2, rfl⟩ := hkb
      obtain ⟨b1, b2, b3, g1, g2, rfl⟩ := ih bs' h2
      exact ⟨b0 ++ b1, b2, b3, by rw [List.map_cons, join_ok_cons]; exact ⟨b0, b1, h1, g1, rfl⟩, g2, by simp⟩
  obtain ⟨b1, b2, b3, g1, g2, rfl⟩ := hj
  have hparts := (seq_bands (s := tups l1) (all_tups hl) g1).1
  simp only [buildBand, bind_ok, pyAssert_ok, pack_eq_ok, ok_inj, exists_const] at g2
  obtain ⟨ht, _, ⟨hf3, rfl⟩, rfl⟩ := g2
  rw [ht] at hf3 hmm hlen
  rw [parseAt_of hh]
  show parseMeterMod m n = _
  rw [parseMeterMod, hh, ok_bind]
  have hbody := hmm.right (n + 8) (by rw [hdr_length])
  refine (rd_bind hbody.left hf2 (by simp [exact]) (by rfl)).trans ?_
  have hk := hbody.right (n + 8 + 8) (by simp [enc])
  have hdiv : whileFetch (parseBand m) (n + bs.length) (n + 8 + 8) = .error .diverges := by
    refine whileFetch_prefix hparts hk.left ?_ ?_
    · rw [hlen]; simp [enc]; omega
    · have hk2 := hk.right _ rfl
      rw [List.append_assoc] at hk2
      exact bands_diverge hk2 hf3 (by rw [hlen]; simp [enc]; omega)
  have e8 : calcsize [H, H, I] = 8 := rfl
  simp only [e8]
  rw [hdiv]; rfl

/-- C75 is false of the code: a message that is forwarded, or added to a bundle, and never parsed by itself, keeps the
message around it from being parsed. -/
theorem C75_nested_refuted (m : Bytes) (off : Nat) (hv : u8 m off = 5) :
    (u8 m (off + 1) = 32 → parse m (off + 8) = .error .diverges → off + 8 ≤ m.length → parse m off = .error .diverges) ∧
    (u8 m (off + 1) = 34 → parse m (off + 16) = .error .diverges → off + 16 ≤ m.length → parse m off = .error .diverges) := by
  have hin {o} (h : parse m o = .error .diverges) : parseAt m o = .error .diverges :=
    bind_stuck (fun h => h) (fun _ _ => ok_stuck) h
  refine ⟨fun ht hn hl => ?_, fun ht hn hl => ?_⟩
  all_goals
    obtain ⟨x, hh⟩ := parseHdr_of (by omega) hv
    apply parse_error
    rw [parseAt_of hh, ht, hin hn]
  · show parseRequestForward m off _ = _
    rw [parseRequestForward, hh, ok_bind]
    rfl
  · show parseBundleAdd m off _ = _
    rw [parseBundleAdd, hh, ok_bind]
    simp only
    rw [rd_some (k := two (Msg.bundleAdd ⟨5, u8 m (off + 1), u16 m (off + 2), x⟩)) (f := [I, X 2, H]) hl rfl, ok_bind]
    rfl

/-- C75, in part: for every byte string and offset, if the parser does not end, then in the message, or in one nested in it,
stands one of the things that `Blocks` lists.  All other messages are parsed or rejected in finitely many steps.
(The full property, that no message at all makes the parser loop, is false.) -/
theorem C75_termination_partial (m : Bytes) (off : Nat) (h : parse m off = .error .diverges) :
    ∃ p, Inner m off p ∧ ∃ o, p ≤ o ∧ Blocks m p o :=
  parse_stuck h

/-- C75. The result `diverges` of the model means that the `while` loop of the code never ends: however many turns it may
take, it is not finished. -/
theorem C75_diverges_means_forever (m : Bytes) (limit off start : Nat) :
    (whileFetch (parseAction m) limit off = .error .diverges ↔ ∀ turns, runLoop (parseAction m) limit turns off = none) ∧
    (whileFetch (parseInstr m) limit off = .error .diverges ↔ ∀ turns, runLoop (parseInstr m) limit turns off = none) ∧
    (whileFetch (parseBucket m) limit off = .error .diverges ↔ ∀ turns, runLoop (parseBucket m) limit turns off = none) ∧
    (whileFetch (parsePmProp m) limit off = .error .diverges ↔ ∀ turns, runLoop (parsePmProp m) limit turns off = none) ∧
    (whileFetch (parseRoleProp start m) limit off = .error .diverges ↔ ∀ turns, runLoop (parseRoleProp start m) limit turns off = none) ∧
    (whileFetch (parseFlowStats m) limit off = .error .diverges ↔ ∀ turns, runLoop (parseFlowStats m) limit turns off = none) ∧
    (whileFetch (parseGroupDesc m) limit off = .error .diverges ↔ ∀ turns, runLoop (parseGroupDesc m) limit turns off = none) ∧
    (whileFetch (parseMeterConfig m) limit off = .error .diverges ↔ ∀ turns, runLoop (parseMeterConfig m) limit turns off = none) ∧
    (whileFetch (parseQueueDesc m) limit off = .error .diverges ↔ ∀ turns, runLoop (parseQueueDesc m) limit turns off = none) :=
  ⟨whileFetch_diverges fun _ _ _ h => (action_step h).elim (by omega) (by omega),
   whileFetch_diverges fun _ _ _ h => (instr_step h).elim (by omega) (by omega),
   whileFetch_diverges fun _ _ _ h => Nat.le_of_lt (bucket_step h),
   whileFetch_diverges fun _ _ _ h => (pmProp_step h).elim (by omega) (by omega),
   whileFetch_diverges fun _ _ _ h => Nat.le_of_eq (roleProp_ok h).1.symm,
   whileFetch_diverges fun _ _ _ h => Nat.le_of_lt (flowStats_step h),
   whileFetch_diverges fun _ _ _ h => Nat.le_of_lt (groupDesc_step h),
   whileFetch_diverges fun _ _ _ h => Nat.le_of_lt (meterConfig_step h),
   whileFetch_diverges fun _ _ _ h => Nat.le_of_lt (queueDesc_step h)⟩

/-- Messages that meet the hypotheses: a PACKET_OUT inside of a bundle inside of a forwarded request, a PORT_MOD, a METER_MOD. -/
example : (∃ m : Bytes, u8 m 0 = 5 ∧ u8 m 1 = 32 ∧ u8 m 8 = 5 ∧ u8 m 9 = 34 ∧ u8 m 24 = 5 ∧ u8 m 25 = 13 ∧ 0 < u16 m 40 ∧
      ZeroLength m 48 ∧ 56 ≤ m.length ∧ parse m 0 = .error .diverges) ∧
    (∃ bs, buildPortMod 1 .none 0x20000 [1, 2, 3, 4, 5, 6] 2 3 .none = .ok bs) ∧
    (∃ bs : Bytes, buildMeterMod 1 (.tup none (some 29) (some 48) none) 1 2 3
      (tups ([.drop none none 1 2] ++ .experimenter none none 1 2 3 [] :: [])) = .ok bs ∧ bs.length = 48) ∧
    (∃ m : Bytes, u8 m 0 = 5 ∧ u8 m 1 = 30 ∧ 16 ≤ m.length ∧ 8 < u16 m 2 ∧ u16 m 8 = 0xffff) := by
  refine ⟨?_, ok_of (by decide +kernel), ⟨_, rfl, rfl⟩,
    ⟨[5, 30, 0, 24, 0, 0, 0, 0, 255, 255, 0, 0, 0, 0, 0, 0], by decide, by decide, by decide, by decide, by decide⟩⟩
  refine ⟨[5, 32, 0, 56, 0, 0, 0, 0] ++ [5, 34, 0, 48, 0, 0, 0, 0, 0, 0, 0, 1, 0, 0, 0, 0] ++
    [5, 13, 0, 32, 0, 0, 0, 0, 0, 0, 0, 0, 0, 0, 0, 0, 0, 8, 0, 0, 0, 0, 0, 0, 0, 25, 0, 0, 0, 0, 0, 0],
    by decide, by decide, by decide, by decide, by decide, by decide, by decide, ⟨by decide, by decide, by decide⟩, by decide, ?_⟩
  refine (C75_nested_refuted _ 0 (by decide)).1 (by decide) ?_ (by decide)
  refine (C75_nested_refuted _ 8 (by decide)).2 (by decide) ?_ (by decide)
  exact C75_packet_out_refuted _ 24 (by decide) (by decide) (by decide) (by decide) ⟨by decide, by decide, by decide⟩

end Twink.Of14
