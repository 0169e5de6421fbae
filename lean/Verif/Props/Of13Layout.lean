import Verif.Proof.Of13Layout
import Verif.Props.Of13Header
import Verif.Props.Of13

/-!
# C56: OpenFlow 1.3 messages have the layout of the standard

`Spec/Of13Layout` writes the structures down byte by byte.
-/

namespace Twink.Of13
open Fmt Spec

theorem one_layout {rnd h data ty bs} (hh : ofp_ rnd h data (.one ty) = .ok bs) :
    bs = ofHeader 4 ty bs.length (h.xid rnd) ++ data := by
  obtain ⟨_, rfl⟩ := ofp_one hh
  rw [List.length_append, hdr_length, ofHeader_enc]; rfl

theorem among_layout {rnd h data ts bs} (hh : ofp_ rnd h data (.among ts) = .ok bs) :
    bs = ofHeader 4 (h.type 0) bs.length (h.xid rnd) ++ data := by
  obtain ⟨_, _, rfl⟩ := ofp_among hh 0
  rw [List.length_append, hdr_length, ofHeader_enc]; rfl

theorem reqBody_bytes {t : Nat} {b : Body} {bs : Bytes} (hw : (t = 12 → ∀ r, b ≠ .one r) ∧ b.RightLen) (h : reqBody t b = .ok bs) :
    bs = if t ∈ [0, 3, 7, 8, 11, 13] then [] else b.bytes := by
  unfold reqBody at h
  split at h
  · rename_i hm; simp only [ok_inj] at h; rw [if_pos hm, h]
  · rename_i hm
    rw [if_neg hm]
    obtain ⟨h12, hr⟩ := hw
    split at h
    · cases b with
      | none => simp only [ok_inj] at h; rw [← h]; rfl
      | raw c => simp only [objBody, ok_inj] at h; rw [← h]; rfl
      | one r => exact rec_bytes r bs hr h
      | many l => cases h
      | bad => cases h
    · split at h
      · rename_i ht
        cases b with
        | none => cases h
        | raw c => simp only [ok_inj] at h; rw [← h]; rfl
        | one r => exact (h12 ht r rfl).elim
        | many l => exact join_bytes rec_bytes hr h
        | bad => cases h
      · cases b <;> first | cases h | skip
        rfl

theorem repBody_bytes {t : Nat} {b : Body} {bs : Bytes}
    (hw : (t ∈ [1, 3, 4, 5, 6, 7, 9, 10, 12, 13] → ∀ r, b ≠ .one r) ∧ b.RightLen) (h : repBody t b = .ok bs) : bs = b.bytes := by
  unfold repBody at h
  obtain ⟨h12, hr⟩ := hw
  split at h
  · cases b with
    | none => simp only [ok_inj] at h; rw [← h]; rfl
    | raw c => simp only [objBody, ok_inj] at h; rw [← h]; rfl
    | one r => exact rec_bytes r bs hr h
    | many l => cases h
    | bad => cases h
  · split at h
    · rename_i ht
      cases b with
      | none => simp only [ok_inj] at h; rw [← h]; rfl
      | raw c => cases h
      | one r => exact (h12 ht r rfl).elim
      | many l => exact join_bytes rec_bytes hr h
      | bad => cases h
    · split at h
      · cases b <;> first | cases h | skip
        rfl
      · cases h

theorem six_ints {l : List Nat} (h : fits [I, I, I, I, I, I] (l.map .int) = true) : l.length = 6 := by
  match l, h with
  | [_, _, _, _, _, _], _ => rfl
  | [], h => simp [fits, I] at h
  | [_], h => simp [fits, I] at h
  | [_, _], h => simp [fits, I] at h
  | [_, _, _], h => simp [fits, I] at h
  | [_, _, _, _], h => simp [fits, I] at h
  | [_, _, _, _, _], h => simp [fits, I] at h
  | _ :: _ :: _ :: _ :: _ :: _ :: _ :: _, h => simp [fits, I] at h

/-- The type in the header: the only type of the function called, or else the one asked for by the header. -/
def Call.theType (c : Call) (h : HdrArg) : Nat :=
  match c.types with
  | [t] => t
  | _ => h.type 0

/-- C56. A message consists of the header and the body of the wire format, whatever the arguments: every field at its
place with its width in network byte order, padding zero, the nested structures in the given order, and all lengths
right.  `WellShaped` excludes a single tuple where the multipart type wants a list, and meter statistics with a wrong
length. -/
theorem C56_layout (rnd : Nat) (h : HdrArg) (c : Call) (bs : Bytes) (hw : c.WellShaped) (hb : c.run rnd h = .ok bs) :
    bs = ofHeader 4 (c.theType h) bs.length (h.xid rnd) ++ c.body := by
  cases c <;> simp only [Call.run, buildHello, buildError, buildFeatures, buildConfig, buildPacketIn, buildFlowRemoved,
    buildPortStatus, buildPacketOut, buildFlowMod, buildGroupMod, buildPortMod, buildTableMod, buildMpRequest, buildMpReply,
    buildQueueReq, buildQueueRep, buildRole, buildAsync, buildMeterMod, buildExperimenter, bind_ok, pyAssert_ok, ok_inj,
    exists_const, pack_eq_ok] at hb
  case hello =>
    obtain ⟨_, h1, hb⟩ := hb; refine (one_layout hb).trans ?_; rw [seq_bytes helloElem_bytes h1]; rfl
  case error => obtain ⟨_, ⟨_, rfl⟩, hb⟩ := hb; refine (one_layout hb).trans ?_; rw [Call.body]; layout; rfl
  case features => obtain ⟨_, ⟨_, rfl⟩, _, hb, _, rfl⟩ := hb; refine (one_layout hb).trans ?_; rw [Call.body]; layout; rfl
  case config => obtain ⟨_, ⟨_, rfl⟩, _, hb, _, rfl⟩ := hb; refine (among_layout hb).trans ?_; rw [Call.body]; layout; rfl
  case packetIn =>
    obtain ⟨_, ⟨_, rfl⟩, _, h1, hb⟩ := hb; refine (one_layout hb).trans ?_
    rw [elem_bytes match_bytes h1, Call.body]; layout; rfl
  case flowRemoved =>
    obtain ⟨_, ⟨_, rfl⟩, _, h1, hb⟩ := hb; refine (one_layout hb).trans ?_
    rw [elem_bytes match_bytes h1, Call.body, flowRemovedFmt]; layout; rfl
  case portStatus =>
    obtain ⟨_, ⟨_, rfl⟩, _, h1, hb⟩ := hb; refine (one_layout hb).trans ?_
    rw [elem_bytes port_bytes h1, Call.body]; layout; rfl
  case packetOut =>
    obtain ⟨_, h1, _, ⟨_, rfl⟩, hb⟩ := hb; refine (one_layout hb).trans ?_
    rw [seq_bytes action_bytes h1, Call.body]; layout; rfl
  case flowMod =>
    obtain ⟨_, h1, _, ⟨_, rfl⟩, _, h2, hb⟩ := hb; refine (one_layout hb).trans ?_
    rw [seq_bytes instr_bytes h1, elem_bytes match_bytes h2, Call.body, flowModFmt]; layout; rfl
  case groupMod =>
    obtain ⟨_, h1, _, ⟨_, rfl⟩, hb⟩ := hb; refine (one_layout hb).trans ?_
    rw [seq_bytes bucket_bytes h1, Call.body]; layout; rfl
  case portMod =>
    obtain ⟨_, ⟨_, rfl⟩, _, hb, _, rfl⟩ := hb; refine (one_layout hb).trans ?_; rw [Call.body, portModFmt]; layout; rfl
  case tableMod => obtain ⟨_, ⟨_, rfl⟩, _, hb, _, rfl⟩ := hb; refine (one_layout hb).trans ?_; rw [Call.body]; layout; rfl
  case mpRequest =>
    obtain ⟨_, h1, _, ⟨_, rfl⟩, hb⟩ := hb; refine (one_layout hb).trans ?_
    rw [reqBody_bytes hw h1, Call.body]; layout; rfl
  case mpReply =>
    obtain ⟨_, h1, _, ⟨_, rfl⟩, hb⟩ := hb; refine (one_layout hb).trans ?_
    rw [repBody_bytes hw h1, Call.body]; layout; rfl
  case queueReq => obtain ⟨_, ⟨_, rfl⟩, hb⟩ := hb; refine (one_layout hb).trans ?_; rw [Call.body]; layout; rfl
  case queueRep =>
    obtain ⟨_, h1, _, ⟨_, rfl⟩, hb⟩ := hb; refine (one_layout hb).trans ?_
    rw [seq_bytes queue_bytes h1, Call.body]; layout; rfl
  case role => obtain ⟨_, ⟨_, rfl⟩, hb⟩ := hb; refine (among_layout hb).trans ?_; rw [Call.body]; layout; rfl
  case async a b c =>
    obtain ⟨_, ⟨hf, rfl⟩, hb⟩ := hb; refine (among_layout hb).trans ?_
    have e : ([I, I, I, I, I, I] : Fmt) = List.replicate (a ++ b ++ c).length I := by rw [six_ints hf]; rfl
    rw [Call.body, e, ints_pack]; simp; rfl
  case meterMod =>
    obtain ⟨_, h1, _, ⟨_, rfl⟩, hb⟩ := hb; refine (one_layout hb).trans ?_
    rw [seq_bytes band_bytes h1, Call.body]; layout; rfl
  case experimenter => obtain ⟨_, ⟨_, rfl⟩, hb⟩ := hb; refine (one_layout hb).trans ?_; rw [Call.body]; layout; rfl

/-- A flow modification that meets the hypotheses of `C56_layout`, in hexadecimal. -/
example : (Call.flowMod 1 0 2 0 10 20 30 none none none 0 (.tup ⟨none, none, .raw [0x80, 0, 0, 4, 0, 0, 0, 7]⟩)
    (tups [.gotoTable none none 3])).run 77 .none = .ok
    ([4, 14, 0, 72, 0, 0, 0, 77] ++ [0, 0, 0, 0, 0, 0, 0, 1] ++ [0, 0, 0, 0, 0, 0, 0, 0] ++ [2, 0, 0, 10, 0, 20, 0, 30] ++
     [255, 255, 255, 255] ++ [255, 255, 255, 255] ++ [255, 255, 255, 255] ++ [0, 0, 0, 0] ++
     [0, 1, 0, 12, 0x80, 0, 0, 4, 0, 0, 0, 7, 0, 0, 0, 0] ++ [0, 1, 0, 8, 3, 0, 0, 0]) := by decide +kernel

/-- C56 does not hold of meter statistics: the length is copied from the argument, and `None`, good for every other
structure, makes `struct.error` (build.py L945). -/
theorem C56_meter_stats_refuted :
    (∀ m f p b ds dn bands, ∃ e, buildRec (.meterStats m none f p b ds dn (.items bands)) = .error e) ∧
    (∃ bs, buildRec (.meterStats 1 (some 7) 2 3 4 5 6 (tups [(8, 9)])) = .ok bs ∧ bs.length = 56 ∧ u16 bs 4 = 7) := by
  refine ⟨fun m f p b ds dn bands => ?_, _, rfl, rfl, rfl⟩
  cases h : seqBytes buildPair (.items bands) with
  | error e => exact ⟨e, by simp only [buildRec, h]; rfl⟩
  | ok v => exact ⟨.structError, by simp only [buildRec, h, ok_bind, packOpt]; rfl⟩

/-- C56 does not hold of table features: the standard numbers the property types WILDCARDS 10, WRITE_SETFIELD 12 and 13,
APPLY_SETFIELD 14 and 15, the package 9 to 13 (twink/ofp4/__init__.py L333-344), so that the last two are refused, and
9 and 11, unknown to the standard, are accepted. -/
theorem C56_table_features_refuted (len : Option Nat) (ids : Ints) :
    (∀ t ∈ [14, 15], ∀ bs, buildTfProp (.oxm (some t) len ids) ≠ .ok bs) ∧
    (∀ t ∈ [9, 11], ∃ bs, buildTfProp (.oxm (some t) len .none) = .ok bs ∧ u16 bs 0 = t) := by
  refine ⟨fun t ht bs h => ?_, fun t ht => ?_⟩
  · simp only [buildTfProp, bind_ok, tfProp, pyAssert_ok, exists_const] at h
    obtain ⟨_, _, h, _⟩ := h
    simp at ht h; omega
  · simp at ht
    rcases ht with rfl | rfl
    · exact ⟨_, rfl, rfl⟩
    · exact ⟨_, rfl, rfl⟩

/-- C56 does not hold of a description given as the only record of another multipart reply or of a table features request: being a tuple of
byte strings, it is taken for a list of encoded records, and the texts follow each other without padding. -/
theorem C56_single_record_refuted (rnd : Nat) (h : HdrArg) (type flags : Nat) (mfr hw sw serial dp bs : Bytes)
    (hb : (type ∈ [1, 3, 4, 5, 6, 7, 9, 10, 12, 13] ∧
        buildMpReply rnd h type flags (.one (.desc (some mfr) (some hw) (some sw) (some serial) (some dp))) = .ok bs) ∨
      (type = 12 ∧ buildMpRequest rnd h type flags (.one (.desc (some mfr) (some hw) (some sw) (some serial) (some dp))) = .ok bs)) :
    bs.drop 16 = mfr ++ hw ++ sw ++ serial ++ dp := by
  have key : ∀ d b : Bytes, ∀ ty, d.length = 8 → ofp_ rnd h (d ++ b) (.one ty) = .ok bs → bs.drop 16 = b := by
    intro d b ty hd hh
    obtain ⟨hf, rfl⟩ := ofp_one hh
    have he : (enc hdrFmt [.int 4, .int ty, .int (8 + (d ++ b).length), .int (h.xid rnd)] ++ d).length = 16 := by
      rw [List.length_append, enc_length _ _ hf, hd]; rfl
    rw [← List.append_assoc, List.drop_append_of_le_length (by omega), List.drop_eq_nil_of_le (by omega)]
    rfl
  have hp : ∀ d, pack [H, H, X 4] [.int type, .int flags] = .ok d → d.length = 8 := by
    intro d hd
    obtain ⟨h1, rfl⟩ := pack_eq_ok.1 hd
    rw [enc_length _ _ h1]; rfl
  rcases hb with ⟨ht, hb⟩ | ⟨rfl, hb⟩
  · simp only [buildMpReply, bind_ok] at hb
    obtain ⟨b, h1, d, h2, h3⟩ := hb
    have hn : type ∉ [0, 2, 8, 11] := by simp at ht ⊢; omega
    unfold repBody at h1
    rw [if_neg hn, if_pos ht] at h1
    simp only [recAsList, ok_inj] at h1
    subst h1
    exact key d _ _ (hp d h2) h3
  · simp only [buildMpRequest, bind_ok] at hb
    obtain ⟨b, h1, d, h2, h3⟩ := hb
    unfold reqBody at h1
    rw [if_neg (by simp), if_neg (by simp), if_pos rfl] at h1
    simp only [recAsList, ok_inj] at h1
    subst h1
    exact key d _ _ (hp d h2) h3

/-- Such a call succeeds. -/
example : ∃ bs, buildMpReply 0 .none 1 0 (.one (.desc (some [65]) (some []) (some []) (some [66]) (some []))) = .ok bs := ⟨_, rfl⟩

end Twink.Of13
