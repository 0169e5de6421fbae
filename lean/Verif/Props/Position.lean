import Verif.Proof.Suffix14
import Verif.Model.Oxm
import Verif.Model.Oxm14
import Verif.Spec.Wire

/-!
# Where a message stands in a buffer

`parse(message, offset)` of ofp4 and ofp5 and of their modules oxm takes a buffer and an offset.  What comes before the
offset does not matter.  What comes after the message should not matter either, but does for some messages.
-/

namespace Twink.Position
open Fmt Spec

/-- C101. Bytes before the offset do not matter, OpenFlow 1.3: a message is parsed, refused or parsed for ever as it is at
the beginning of a buffer. -/
theorem C101_position13 (before m : Bytes) : Of13.parse (before ++ m) before.length = Of13.parse m 0 :=
  Shift.parse_shift before m 0

/-- C101. The same for OpenFlow 1.4, nested messages included. -/
theorem C101_position14 (before m : Bytes) : Of14.parse (before ++ m) before.length = Of14.parse m 0 := by
  have h := Shift14.parseAt_shift before m 0
  rw [Nat.add_zero] at h
  unfold Of14.parse
  rw [h, Shift.sh_bind]

/-- C101. A cursor that is handed to the OpenFlow 1.4 parser is moved by as much as at the beginning of a buffer. -/
theorem C101_cursor14 (before m : Bytes) (r : Of14.Msg) (o : Nat) :
    Of14.parseAt (before ++ m) before.length = .ok (r, before.length + o) ↔ Of14.parseAt m 0 = .ok (r, o) := by
  have h := Shift14.parseAt_shift before m 0
  rw [Nat.add_zero] at h
  rw [h]
  cases Of14.parseAt m 0 with
  | error e => simp [Shift.sh]
  | ok x => obtain ⟨a, b⟩ := x; simp [Shift.sh]

/-! ### match fields -/

theorem fixed_shift (mk b hasmask length) (p m : Bytes) (o : Nat) :
    Oxm.fixed mk b hasmask length (p ++ m) (p.length + o) = Oxm.fixed mk b hasmask length m o := by
  unfold Oxm.fixed
  rw [Shift.unpackFrom_shift, Shift.unpackFrom_shift]

theorem sUnpack_shift (little b twice) (p m : Bytes) (o : Nat) :
    Oxm.sUnpack little b twice (p ++ m) (p.length + o) = Oxm.sUnpack little b twice m o := by
  unfold Oxm.sUnpack
  simp only [Nat.add_assoc, Shift.slice_shift, List.length_append, Nat.add_le_add_iff_left]

theorem parseExp_shift (cls field hasmask length) (p m : Bytes) (o : Nat) :
    Oxm.parseExp cls field hasmask length (p ++ m) (p.length + o) = Oxm.parseExp cls field hasmask length m o := by
  unfold Oxm.parseExp
  simp only [Nat.add_assoc, Shift.unpackFrom_shift, sUnpack_shift]

theorem oxm_shift (p m : Bytes) (o : Nat) : Oxm.parse (p ++ m) (p.length + o) = Oxm.parse m o := by
  unfold Oxm.parse
  simp only [Nat.add_assoc, Shift.unpackFrom_shift, fixed_shift, parseExp_shift]

theorem values_shift (cls field hasmask length) (p m : Bytes) (o : Nat) :
    Oxm14.values cls field hasmask length (p ++ m) (p.length + o) = Oxm14.values cls field hasmask length m o := by
  unfold Oxm14.values
  rw [Shift.unpackFrom_shift, Shift.unpackFrom_shift]

theorem oxm14_shift (p m : Bytes) (o : Nat) : Oxm14.parse (p ++ m) (p.length + o) = Oxm14.parse m o := by
  unfold Oxm14.parse
  simp only [Nat.add_assoc, Shift.unpackFrom_shift, values_shift]

theorem loop_shift (p m : Bytes) (f g : Nat) (o : Nat) (hf : m.length < f + o) (hg : m.length < g + o) (hf0 : 0 < f)
    (hg0 : 0 < g) : Oxm.parseLoop (p ++ m) f (p.length + o) = Oxm.parseLoop m g o := by
  induction f generalizing g o with
  | zero => omega
  | succ f ih =>
    cases g with
    | zero => omega
    | succ g =>
      rw [Oxm.parseLoop, Oxm.parseLoop, List.length_append]
      simp only [Nat.add_lt_add_iff_left]
      split
      · rename_i hlt
        rw [oxm_shift]
        refine Shift.congr_bind _ fun t => Shift.congr_bind _ fun l => ?_
        rw [Nat.add_assoc, Nat.add_assoc, ← Nat.add_assoc o, ih g (o + 4 + l) (by omega) (by omega) (by omega) (by omega)]
      · rfl

theorem loop14_shift (p m : Bytes) (f g : Nat) (o : Nat) (hf : m.length < f + o) (hg : m.length < g + o) (hf0 : 0 < f)
    (hg0 : 0 < g) : Oxm14.parseLoop (p ++ m) f (p.length + o) = Oxm14.parseLoop m g o := by
  induction f generalizing g o with
  | zero => omega
  | succ f ih =>
    cases g with
    | zero => omega
    | succ g =>
      rw [Oxm14.parseLoop, Oxm14.parseLoop, List.length_append]
      simp only [Nat.add_lt_add_iff_left]
      split
      · rename_i hlt
        rw [oxm14_shift]
        refine Shift.congr_bind _ fun t => ?_
        rw [Nat.add_assoc, Nat.add_assoc, ← Nat.add_assoc o, ih g (o + 4 + t.length) (by omega) (by omega) (by omega) (by omega)]
      · rfl

/-- C101. Match fields, single or in a list, do not depend on what comes before them. -/
theorem C101_fields (before m : Bytes) :
    Oxm.parse (before ++ m) before.length = Oxm.parse m 0 ∧
    Oxm.parseList (before ++ m) before.length = Oxm.parseList m 0 ∧
    Oxm14.parse (before ++ m) before.length = Oxm14.parse m 0 ∧
    Oxm14.parseList (before ++ m) before.length = Oxm14.parseList m 0 := by
  refine ⟨oxm_shift before m 0, ?_, oxm14_shift before m 0, ?_⟩
  · exact loop_shift before m _ _ 0 (by rw [List.length_append]; omega) (by omega) (by omega) (by omega)
  · exact loop14_shift before m _ _ 0 (by rw [List.length_append]; omega) (by omega) (by omega) (by omega)

/-! ### what follows -/

/-- The length field of the message at the beginning of `m` is right or too small. -/
def Whole (m : Bytes) : Prop := u16 m 2 ≤ m.length

/-- The 1.3 messages in which something may reach behind the end unnoticed: flow removed, packet out, group modification,
and requests for statistics of flows. -/
def Loose13 (m : Bytes) : Prop := u8 m 1 = 11 ∨ u8 m 1 = 13 ∨ u8 m 1 = 15 ∨ (u8 m 1 = 18 ∧ (u16 m 8 = 1 ∨ u16 m 8 = 2))

theorem hdr_bytes {m : Bytes} {o : Nat} {f k v} (hk : k = Of13.four Of13.Hdr.mk) (hf : f = [B, B, H, I])
    (h : Of13.rd f m o k = .ok v) : v.1.type = u8 m (o + 1) ∧ v.1.length = u16 m (o + 2) := by
  subst hk hf
  obtain ⟨e1, e2, e3⟩ := Of13.rd_ok h
  have hc : calcsize [B, B, H, I] = 8 := rfl
  rw [hc] at e2
  simp only [dec, Of13.four, Option.some.injEq, List.drop_drop] at e3
  rw [← e3]
  constructor
  · have : (m.drop (o + 1)).take 1 = [m.getD (o + 1) 0] := by
      apply List.ext_getElem
      · simp; omega
      · intro i h1 h2
        simp at h2
        subst h2
        simp [List.getD_eq_getElem?_getD, List.getElem?_eq_getElem (show o + 1 < m.length by omega)]
    rw [this]
    simp [decBE, u8]
  · exact Of13.decBE_two m (o + 2) (by omega)

/-- C102. What follows does not matter, OpenFlow 1.3: a whole message that is parsed when it is alone is parsed to the same
when more bytes follow it.  Missing, because it is false of the code: the messages of `Loose13`, and messages that are
refused when they are alone. -/
theorem C102_following13_partial (m after : Bytes) (r : Of13.Msg) (hw : Whole m) (hl : ¬ Loose13 m)
    (h : Of13.parse m 0 = .ok r) : Of13.parse (m ++ after) 0 = .ok r := by
  have h' := h
  unfold Of13.parse at h'
  rw [Of13.bind_ok] at h'
  obtain ⟨⟨hd, o1⟩, hh, -⟩ := h'
  have hb : hd.type = u8 m 1 ∧ hd.length = u16 m 2 := by
    have h2 := hh
    unfold Of13.parseHdr at h2
    rw [Of13.bind_ok] at h2
    obtain ⟨a, ha, h2⟩ := h2
    rw [Of13.bind_ok] at h2
    obtain ⟨_, _, h2⟩ := h2
    cases h2
    have := hdr_bytes rfl rfl ha
    simpa using this
  unfold Whole at hw
  unfold Loose13 at hl
  rw [← hb.1] at hl
  refine Suffix.parse_suffix after hh (by rw [hb.2]; omega) (fun e => hl (.inl e)) (fun e => hl (.inr (.inl e)))
    (fun e => hl (.inr (.inr (.inl e)))) ?_ h
  intro e
  simp only [Nat.zero_add]
  exact ⟨fun e2 => hl (.inr (.inr (.inr ⟨e, .inl e2⟩))), fun e2 => hl (.inr (.inr (.inr ⟨e, .inr e2⟩)))⟩

/-- A 1.4 message at offset `o`, and the one that it contains if it contains one, is neither a packet out message nor about
the features of tables. -/
inductive Tight14 (m : Bytes) : Nat → Prop
  | plain (o : Nat) (h1 : u8 m (o + 1) ∉ [13, 32, 34]) (h2 : u8 m (o + 1) = 18 ∨ u8 m (o + 1) = 19 → u16 m (o + 8) ≠ 12) :
    Tight14 m o
  | forward (o : Nat) (h1 : u8 m (o + 1) = 32) (h2 : Tight14 m (o + 8)) : Tight14 m o
  | bundle (o : Nat) (h1 : u8 m (o + 1) = 34) (h2 : Tight14 m (o + 16)) : Tight14 m o

theorem hdr14_bytes {m : Bytes} {o : Nat} {hd o1} (hh : Of14.parseHdr m o = .ok (hd, o1)) : hd.type = u8 m (o + 1) := by
  unfold Of14.parseHdr at hh
  rw [Of13.bind_ok] at hh
  obtain ⟨a, ha, h2⟩ := hh
  rw [Of13.bind_ok] at h2
  obtain ⟨_, _, h2⟩ := h2
  cases h2
  exact (hdr_bytes rfl rfl ha).1

theorem parseAt_eq {m : Bytes} {o : Nat} {hd o1} (hh : Of14.parseHdr m o = .ok (hd, o1)) :
    Of14.parseAt m o = if hd.type = 32 then Of14.parseRequestForward m o (Of14.parseAt m (o + 8))
      else if hd.type = 34 then Of14.parseBundleAdd m o (Of14.parseAt m (o + 16))
      else Of14.parseOf hd.type m o := by
  rw [Of14.parseAt]
  split
  · rename_i h; rw [hh] at h; cases h
  · rename_i h; rw [hh] at h; cases h; rfl

/-- C102. What follows does not matter, OpenFlow 1.4: if the parser ends inside the buffer when the message is alone, it does
the same when more bytes follow.  Missing, because it is false of the code: messages with the parser ending behind the
buffer, packet out messages and features of tables, and messages that are refused when they are alone. -/
theorem C102_following14_partial (m after : Bytes) (o : Nat) (r : Of14.Msg) (o' : Nat) (ht : Tight14 m o)
    (h : Of14.parseAt m o = .ok (r, o')) (hn : o' ≤ m.length) : Of14.parseAt (m ++ after) o = .ok (r, o') := by
  induction ht generalizing r o' with
  | plain o h1 h2 =>
    cases hh : Of14.parseHdr m o with
    | error e =>
      rw [Of14.parseAt] at h
      split at h
      · cases h
      · rename_i h'; rw [hh] at h'; cases h'
    | ok x =>
      obtain ⟨hd, o1⟩ := x
      have hb := hdr14_bytes hh
      rw [← hb] at h1 h2
      simp only [List.mem_cons, List.not_mem_nil, or_false, not_or] at h1
      rw [parseAt_eq hh, if_neg h1.2.1, if_neg h1.2.2] at h
      rw [parseAt_eq (Suffix14.hdr_suffix after hh), if_neg h1.2.1, if_neg h1.2.2]
      exact Suffix14.parseOf_suffix after hh h1.1 h2 h hn
  | forward o h1 h2 ih =>
    cases hh : Of14.parseHdr m o with
    | error e =>
      rw [Of14.parseAt] at h
      split at h
      · cases h
      · rename_i h'; rw [hh] at h'; cases h'
    | ok x =>
      obtain ⟨hd, o1⟩ := x
      have hb := hdr14_bytes hh
      rw [← hb] at h1
      rw [parseAt_eq hh, if_pos h1] at h
      rw [parseAt_eq (Suffix14.hdr_suffix after hh), if_pos h1]
      unfold Of14.parseRequestForward at h ⊢
      refine Suffix.step (fun _ h => Suffix14.hdr_suffix after h) h ?_
      intro a ha h
      rw [Of13.bind_ok] at h
      obtain ⟨⟨r2, o2⟩, h3, h⟩ := h
      cases h
      rw [ih _ _ h3 hn]
      rfl
  | bundle o h1 h2 ih =>
    cases hh : Of14.parseHdr m o with
    | error e =>
      rw [Of14.parseAt] at h
      split at h
      · cases h
      · rename_i h'; rw [hh] at h'; cases h'
    | ok x =>
      obtain ⟨hd, o1⟩ := x
      have hb := hdr14_bytes hh
      rw [← hb] at h1
      rw [parseAt_eq hh, if_neg (by omega), if_pos h1] at h
      rw [parseAt_eq (Suffix14.hdr_suffix after hh), if_neg (by omega), if_pos h1]
      unfold Of14.parseBundleAdd at h ⊢
      refine Suffix.step (fun _ h => Suffix14.hdr_suffix after h) h ?_
      intro a ha h
      refine Suffix.step (fun _ h => Suffix.rd_suffix after h) h ?_
      intro b hb h
      simp only at h ⊢
      rw [Of13.bind_ok] at h
      obtain ⟨⟨r2, o2⟩, h3, h⟩ := h
      simp only at h
      split at h
      · cases h
      · rename_i hlt
        cases h
        rw [ih _ _ h3 hn, Of13.ok_bind]
        simp only
        rw [if_neg hlt]

/-- C102. A buffer of 1.3 messages, one behind the other: the parser gives for each of them, at its offset, what it gives
for the message alone. -/
theorem C102_stream13_partial (ms : List Bytes) (i : Nat) (hi : i < ms.length) (r : Of13.Msg) (hw : Whole ms[i])
    (hl : ¬ Loose13 ms[i]) (h : Of13.parse ms[i] 0 = .ok r) :
    Of13.parse ms.flatten (ms.take i).flatten.length = .ok r := by
  have e : ms.flatten = (ms.take i).flatten ++ (ms[i] ++ (ms.drop (i + 1)).flatten) := by
    have h2 := congrArg List.flatten (List.take_append_drop i ms)
    rw [List.drop_eq_getElem_cons hi, List.flatten_append, List.flatten_cons] at h2
    exact h2.symm
  rw [e, C101_position13]
  exact C102_following13_partial _ _ _ hw hl h

/-! ### witnesses -/

/-- a header, version, type, length and transaction number 7 -/
def header (version type length : Nat) : Bytes := b8 version ++ b8 type ++ be16 length ++ be32 7

/-- a flow removed message whose match claims to go on for eight bytes behind the message's end -/
def looseRemoved : Bytes := header 4 11 56 ++ zeros 40 ++ be16 1 ++ be16 16 ++ [1, 2, 3, 4]

/-- a request for flow statistics with such a match -/
def looseRequest : Bytes := header 4 18 56 ++ be16 1 ++ be16 0 ++ zeros 4 ++ zeros 32 ++ be16 1 ++ be16 16 ++ [1, 2, 3, 4]

/-- a packet out message with an action that sets a field and claims to go on behind the message's end -/
def looseOut : Bytes := header 4 13 32 ++ be32 0 ++ be32 0 ++ be16 8 ++ zeros 6 ++ be16 25 ++ be16 16 ++ [1, 2, 3, 4]

/-- a group modification with a bucket with such an action -/
def looseGroup : Bytes := header 4 15 40 ++ be16 0 ++ b8 0 ++ b8 0 ++ be32 0 ++
  (be16 24 ++ be16 0 ++ be32 0 ++ be32 0 ++ zeros 4 ++ be16 25 ++ be16 16 ++ [1, 2, 3, 4])

/-- a configuration that is cut off behind its header, as the length says -/
def cutConfig : Bytes := header 4 9 8

example : Whole looseRemoved ∧ looseRemoved.length = 56 ∧ Whole looseRequest ∧ looseRequest.length = 56 ∧
    Whole looseOut ∧ looseOut.length = 32 ∧ Whole looseGroup ∧ looseGroup.length = 40 ∧ Whole cutConfig := by
  unfold Whole; decide

/-- The four kinds of message, alone and with an echo request behind them: bytes of the echo request become part of the
message. -/
theorem C102_following13_refuted :
    Of13.parse looseRemoved 0 = .ok (.flowRemoved ⟨4, 11, 56, 7⟩ 0 0 0 0 0 0 0 0 0 0
      ⟨some 1, some 16, .raw [1, 2, 3, 4]⟩) ∧
    Of13.parse (looseRemoved ++ header 4 2 8) 0 = .ok (.flowRemoved ⟨4, 11, 56, 7⟩ 0 0 0 0 0 0 0 0 0 0
      ⟨some 1, some 16, .raw ([1, 2, 3, 4] ++ header 4 2 8)⟩) ∧
    Of13.parse looseRequest 0 = .ok (.mpRequest ⟨4, 18, 56, 7⟩ 1 0 (.one (.flowStatsReq (some 0) (some 0) (some 0) (some 0)
      (some 0) (some (.tup ⟨some 1, some 16, .raw [1, 2, 3, 4]⟩))))) ∧
    Of13.parse (looseRequest ++ header 4 2 8) 0 = .ok (.mpRequest ⟨4, 18, 56, 7⟩ 1 0 (.one (.flowStatsReq (some 0) (some 0)
      (some 0) (some 0) (some 0) (some (.tup ⟨some 1, some 16, .raw ([1, 2, 3, 4] ++ header 4 2 8)⟩))))) ∧
    Of13.parse looseOut 0 = .ok (.packetOut ⟨4, 13, 32, 7⟩ 0 0 8 [.setField (some 25) (some 16) [1, 2, 3, 4]] []) ∧
    Of13.parse (looseOut ++ header 4 2 8) 0 = .ok (.packetOut ⟨4, 13, 32, 7⟩ 0 0 8
      [.setField (some 25) (some 16) ([1, 2, 3, 4] ++ header 4 2 8)] []) ∧
    Of13.parse looseGroup 0 = .ok (.groupMod ⟨4, 15, 40, 7⟩ 0 0 0
      [⟨some 24, 0, 0, 0, .items [.tup (.setField (some 25) (some 16) [1, 2, 3, 4])]⟩]) ∧
    Of13.parse (looseGroup ++ header 4 2 8) 0 = .ok (.groupMod ⟨4, 15, 40, 7⟩ 0 0 0
      [⟨some 24, 0, 0, 0, .items [.tup (.setField (some 25) (some 16) ([1, 2, 3, 4] ++ header 4 2 8))]⟩]) := by
  refine ⟨?_, ?_, ?_, ?_, ?_, ?_, ?_, ?_⟩ <;> decide +kernel

/-- A message that is too short for its type is refused when it is alone, and completed with bytes of the following message
when one follows. -/
theorem C102_refused13_refuted :
    Of13.parse cutConfig 0 = .error .structError ∧
    Of13.parse (cutConfig ++ header 4 2 8) 0 = .ok (.config ⟨4, 9, 8, 7⟩ 0x0402 8) := by
  refine ⟨?_, ?_⟩ <;> decide +kernel

/-- a 1.4 packet out message like `looseOut` -/
def looseOut14 : Bytes := header 5 13 32 ++ be32 0 ++ be32 0 ++ be16 8 ++ zeros 6 ++ be16 25 ++ be16 16 ++ [1, 2, 3, 4]

/-- a 1.4 reply about the features of a table with an instruction that claims a length of 12 at the message's end -/
def looseFeatures14 : Bytes := header 5 19 88 ++ be16 12 ++ be16 0 ++ zeros 4 ++
  (be16 72 ++ b8 0 ++ zeros 5 ++ zeros 32 ++ zeros 24 ++ (be16 0 ++ be16 8 ++ (be16 1 ++ be16 12)))

/-- a 1.4 flow removed message like `looseRemoved`: the parser ends behind the buffer -/
def looseRemoved14 : Bytes := header 5 11 56 ++ zeros 40 ++ be16 1 ++ be16 16 ++ [1, 2, 3, 4]

/-- The same for OpenFlow 1.4: packet out and the features of tables, with the parser ending at the message's end; flow
removed, with the parser ending behind it. -/
theorem C102_following14_refuted :
    Of14.parseAt looseOut14 0 =
      .ok (.packetOut ⟨5, 13, 32, 7⟩ 0 0 8 [.setField (some 25) (some 16) [1, 2, 3, 4]] [], 32) ∧
    Of14.parseAt (looseOut14 ++ header 5 2 8) 0 = .ok (.packetOut ⟨5, 13, 32, 7⟩ 0 0 8
      [.setField (some 25) (some 16) ([1, 2, 3, 4] ++ header 5 2 8)] [], 32) ∧
    Of14.parseAt looseFeatures14 0 = .ok (.mpReply ⟨5, 19, 88, 7⟩ 12 0 (.many [.tup (.tableFeatures (some 72) 0 [] 0 0 0 0
      (.items [.tup (.instructions (some 0) (some 8) (.items [.tup ⟨1, some 12, some []⟩]))]))]), 88) ∧
    Of14.parseAt (looseFeatures14 ++ header 5 2 8) 0 = .ok (.mpReply ⟨5, 19, 88, 7⟩ 12 0 (.many [.tup (.tableFeatures
      (some 72) 0 [] 0 0 0 0
      (.items [.tup (.instructions (some 0) (some 8) (.items [.tup ⟨1, some 12, some (header 5 2 8)⟩]))]))]), 88) ∧
    Of14.parseAt looseRemoved14 0 = .ok (.flowRemoved ⟨5, 11, 56, 7⟩ 0 0 0 0 0 0 0 0 0 0
      ⟨some 1, some 16, .raw [1, 2, 3, 4]⟩, 64) ∧
    Of14.parseAt (looseRemoved14 ++ header 5 2 8) 0 = .ok (.flowRemoved ⟨5, 11, 56, 7⟩ 0 0 0 0 0 0 0 0 0 0
      ⟨some 1, some 16, .raw ([1, 2, 3, 4] ++ header 5 2 8)⟩, 64) := by
  refine ⟨?_, ?_, ?_, ?_, ?_, ?_⟩ <;> decide +kernel

/-- a hello with a bitmap of versions, and a flow modification with an instruction -/
def exHello : Bytes := header 4 0 16 ++ be16 1 ++ be16 8 ++ be32 18
def exFlow : Bytes := header 4 14 64 ++ zeros 40 ++ (be16 1 ++ be16 4 ++ zeros 4) ++ (be16 1 ++ be16 8 ++ b8 3 ++ zeros 3)

example : Whole exHello ∧ ¬ Loose13 exHello ∧ Of13.parse exHello 0 =
    .ok (.hello ⟨4, 0, 16, 7⟩ [.versionBitmap (some 1) (some 8) (.list [18])]) := by
  refine ⟨by unfold Whole; decide, by unfold Loose13; decide, by decide +kernel⟩

example : Whole exFlow ∧ ¬ Loose13 exFlow ∧ Of13.parse exFlow 0 = .ok (.flowMod ⟨4, 14, 64, 7⟩ 0 0 0 0 0 0 0 0 0 0 0
    ⟨some 1, some 4, .raw []⟩ [.gotoTable (some 1) (some 8) 3]) := by
  refine ⟨by unfold Whole; decide, by unfold Loose13; decide, by decide +kernel⟩

/-- two messages in a buffer -/
example : Of13.parse [exHello, exFlow, looseOut].flatten 16 = .ok (.flowMod ⟨4, 14, 64, 7⟩ 0 0 0 0 0 0 0 0 0 0 0
    ⟨some 1, some 4, .raw []⟩ [.gotoTable (some 1) (some 8) 3]) :=
  C102_stream13_partial [exHello, exFlow, looseOut] 1 (by decide) _ (by unfold Whole; decide) (by unfold Loose13; decide)
    (by decide +kernel)

/-- a 1.4 group modification that is forwarded in a message of its own -/
def exForward : Bytes := header 5 32 24 ++ (header 5 15 16 ++ be16 0 ++ b8 0 ++ b8 0 ++ be32 5)

example : Tight14 exForward 0 ∧ Of14.parseAt exForward 0 =
    .ok (.requestForward ⟨5, 32, 24, 7⟩ (.groupMod ⟨5, 15, 16, 7⟩ 0 0 5 []), 24) ∧ exForward.length = 24 := by
  refine ⟨.forward 0 (by decide) (.plain 8 (by decide) (by decide)), by decide +kernel, by decide⟩

example : Oxm14.parseList ([1, 2, 3] ++ (be16 0x8000 ++ b8 0 ++ b8 4 ++ be32 9)) 3 =
    .ok [⟨0x8000, 0, 0, 4, .int 9, none⟩] := by decide +kernel

end Twink.Position
