import Verif.Proof.Of13Never

/-!
# C113. Exactly what the OpenFlow 1.3 parser reads

`Spec/Of13Reads` describes, without reference to the parser, which message stands at an offset of a buffer (`MsgAt`) and which ones have
a part that is begun again and again (`MsgNever`).
-/

namespace Twink.Of13.Reads
open Fmt Spec Twink.Reads Of13

/-- C113. For every buffer, offset and message: `parse(m, o)` returns `r` if and only if `r` stands at `o`. -/
theorem C113_exact (m : Bytes) (o : Nat) (r : Msg) : parse m o = .ok r ↔ MsgAt m o r := parse_iff m o r

/-- C113. There is an exception exactly if no message stands at the offset and none that is never read to the end does. -/
theorem C113_exception (m : Bytes) (o : Nat) :
    (∃ e, e ≠ .diverges ∧ parse m o = .error e) ↔ (∀ r, ¬ MsgAt m o r) ∧ ¬ MsgNever m o := by
  simp only [← parse_iff, ← parse_never]
  cases h : parse m o <;> simp

/-- C46, exactly: for every buffer and offset the parser does not end if and only if what stands there is a message in which, before
the end that is given for a list, an item follows whose end is not behind its beginning. -/
theorem C46_exact (m : Bytes) (o : Nat) : parse m o = .error .diverges ↔ MsgNever m o := parse_never m o

/-- C113. The same for the structures that messages are made of: each is read exactly if it stands at the offset, up to the end that
the rule gives. -/
theorem C113_structures (m : Bytes) (o e : Nat) :
    (∀ a, parsePort m o = .ok (a, e) ↔ PortAt m o a e) ∧ (∀ a, parseMatch m o = .ok (a, e) ↔ MatchAt m o a e) ∧
    (∀ a, parseAction m o = .ok (a, e) ↔ ActionAt m o a e) ∧ (∀ a, parseInstr m o = .ok (a, e) ↔ InstrAt m o a e) ∧
    (∀ a, parseBucket m o = .ok (a, e) ↔ BucketAt m o a e) ∧ (∀ a, parseBand m o = .ok (a, e) ↔ BandAt m o a e) ∧
    (∀ a, parseQueue m o = .ok (a, e) ↔ QueueAt m o a e) ∧ (∀ a, parseHelloElem m o = .ok (a, e) ↔ ElemAt m o a e) ∧
    (∀ a, parseFlowStats m o = .ok (a, e) ↔ FlowStatsAt m o a e) ∧ (∀ a, parseAggregate m o = .ok (a, e) ↔ AggregateAt m o a e) ∧
    (∀ a, parseTableStats m o = .ok (a, e) ↔ TableStatsAt m o a e) ∧ (∀ a, parsePortStats m o = .ok (a, e) ↔ PortStatsAt m o a e) ∧
    (∀ a, parseQueueStats m o = .ok (a, e) ↔ QueueStatsAt m o a e) ∧ (∀ a, parseGroupStats m o = .ok (a, e) ↔ GroupStatsAt m o a e) ∧
    (∀ a, parseGroupDesc m o = .ok (a, e) ↔ GroupDescAt m o a e) ∧ (∀ a, parseMeterStats m o = .ok (a, e) ↔ MeterStatsAt m o a e) ∧
    (∀ a, parseMeterConfig m o = .ok (a, e) ↔ MeterConfigAt m o a e) :=
  ⟨fun a => port_iff m o a e, fun a => match_iff m o a e, fun a => action_iff m o a e, fun a => instr_iff m o a e, fun a => bucket_iff m o a e,
    fun a => band_iff m o a e, fun a => queue_iff m o a e, fun a => elem_iff m o a e, fun a => flowStats_iff m o a e,
    fun a => aggregate_iff m o a e, fun a => tableStats_iff m o a e, fun a => portStats_iff m o a e, fun a => queueStats_iff m o a e,
    fun a => groupStats_iff m o a e, fun a => groupDesc_iff m o a e, fun a => meterStats_iff m o a e, fun a => meterConfig_iff m o a e⟩

/-- C113. The names of ports are decoded if and only if they are the UTF-8 encoding of a sequence of code points. -/
theorem C113_names (b : Bytes) : utf8Ok b = true ↔ Utf8 b := utf8Ok_iff b

/-- C113. At most one message stands at an offset, and none that never ends besides it. -/
theorem C113_one (m : Bytes) (o : Nat) (r s : Msg) (h : MsgAt m o r) : (MsgAt m o s → r = s) ∧ ¬ MsgNever m o := by
  have h1 := (parse_iff m o r).2 h
  refine ⟨fun h2 => ?_, fun h2 => ?_⟩
  · have := (parse_iff m o s).2 h2
    rw [h1] at this
    cases this
    rfl
  · have := (parse_never m o).2 h2
    rw [h1] at this
    cases this

/-! ### what the standard has and the parser never reads -/

/-- C113 is false if the rules of the standard are meant: no PORT_MOD and no EXPERIMENTER message is ever read, whatever it contains. -/
theorem C113_messages_refuted (m : Bytes) (o : Nat) (r : Msg) (h : u8 m (o + 1) = 16 ∨ u8 m (o + 1) = 4) : parse m o ≠ .ok r := by
  rw [Ne, parse_iff]
  intro hr
  cases hr <;> simp_all [HeadAt, knownTypes] <;> omega

/-- No action that sets the MPLS time to live is ever read. -/
theorem C113_mpls_ttl_refuted (m : Bytes) (o : Nat) (a : Action) (e : Nat) (h : u16 m o = 15) : parseAction m o ≠ .ok (a, e) := by
  rw [Ne, action_iff]
  intro hr
  cases hr <;> simp_all

/-- No multipart message with features of a table is ever read. -/
theorem C113_table_features_refuted (m : Bytes) (o : Nat) (r : Msg) (h1 : u8 m (o + 1) = 18 ∨ u8 m (o + 1) = 19) (h2 : u16 m (o + 8) = 12)
    (h3 : o + 16 < msgEnd m o) : parse m o ≠ .ok r := by
  rw [Ne, parse_iff]
  intro hr
  cases hr with
  | mpRequest h hb => rw [h2] at hb; cases hb <;> first | omega | (rename_i h; simp at h)
  | mpReply h hb => rw [h2] at hb; cases hb; omega
  | other hk h => have := h.2.2.2; simp [knownTypes] at hk; omega
  | config h h' => have := h'.2.2.2; omega
  | async h h' => have := h'.2.2.2; omega
  | _ h => have := h.2.2.2; omega

/-- No queue with properties is ever read. -/
theorem C113_queue_properties_refuted (m : Bytes) (o : Nat) (a : Queue) (e : Nat) (h : 16 < u16 m (o + 8)) : parseQueue m o ≠ .ok (a, e) := by
  rw [Ne, queue_iff]
  rintro ⟨-, h1⟩
  omega

/-- Port statistics of the standard (112 bytes) are read as if the last byte belonged to the next record; so no reply
with statistics of one port is read. -/
theorem C113_port_stats_refuted (m : Bytes) (o : Nat) (r : Msg) (h1 : u8 m (o + 1) = 19) (h2 : u16 m (o + 8) = 4)
    (h3 : u16 m (o + 2) = 16 + 112) : parse m o ≠ .ok r := by
  rw [Ne, parse_iff]
  intro hr
  cases hr with
  | mpReply h hb =>
    rw [h2] at hb
    cases hb with
    | port hb =>
      obtain ⟨l, hl, -⟩ := hb
      simp only [msgEnd, h3] at hl
      match l, hl with
      | [], hl => simp [Row] at hl
      | [a], hl =>
        simp only [Row] at hl
        obtain ⟨-, o', ⟨-⟩, -, -, hl⟩ := hl
        omega
      | a :: b :: l, hl =>
        simp only [Row] at hl
        obtain ⟨-, o', ⟨-⟩, -, -, o'', ⟨-⟩, -, hl⟩ := hl
        have : ∀ (l : List Rec) (p q : Nat), Row (PortStatsAt m) (o + (16 + 112)) p l q → p ≤ q := by
          intro l
          induction l with
          | nil => intro p q h; simp only [Row] at h; omega
          | cons a l ih => intro p q h; simp only [Row] at h; obtain ⟨-, p', -, h', h⟩ := h; have := ih _ _ h; omega
        have := this _ _ _ hl
        omega
  | other hk h => have := h.2.2.2; simp [knownTypes] at hk; omega
  | config h h' => have := h'.2.2.2; omega
  | async h h' => have := h'.2.2.2; omega
  | _ h => have := h.2.2.2; omega

/-! ### concrete cases -/

/-- A PACKET_OUT message in the midst of a buffer: one action (output to port 5), then the packet 0xaa 0xbb. -/
def exOut : Bytes := [0xee, 4, 13, 0, 42, 0, 0, 0, 7, 0xff, 0xff, 0xff, 0xff, 0, 0, 0, 1, 0, 16, 0, 0, 0, 0, 0, 0,
  0, 0, 0, 16, 0, 0, 0, 5, 0, 0, 0, 0, 0, 0, 0, 0, 0xaa, 0xbb, 0xee]

/-- It stands there by the rules. -/
example : MsgAt exOut 1 (.packetOut ⟨4, 13, 42, 7⟩ 0xffffffff 1 16 [.output (some 0) (some 16) 5 0] [0xaa, 0xbb]) :=
  MsgAt.packetOut (m := exOut) (o := 1) (l := [.output (some 0) (some 16) 5 0]) (e := 41) (by simp [HeadAt, exOut, u8])
    ⟨by decide, 41, ActionAt.output (m := exOut) (o := 25) (by decide) (by decide), by decide, by decide, rfl⟩

/-- The same, with an action of length zero that has a length: it never ends. -/
def exStuck : Bytes := [4, 13, 0, 32, 0, 0, 0, 7, 0xff, 0xff, 0xff, 0xff, 0, 0, 0, 1, 0, 8, 0, 0, 0, 0, 0, 0, 0, 25, 0, 0, 0, 0, 0, 0]

example : MsgNever exStuck 0 :=
  .packetOut (by simp [HeadAt, exStuck, u8]) (.stuck (by decide) (ActionAt.setField (m := exStuck) (o := 24) (by decide) (by decide)) (by decide))

/-- Neither: a PORT_MOD message. -/
def exPortMod : Bytes := [4, 16, 0, 40, 0, 0, 0, 7] ++ zeros 32

example : (∀ r, ¬ MsgAt exPortMod 0 r) ∧ ¬ MsgNever exPortMod 0 :=
  (C113_exception exPortMod 0).1 ⟨.valueError, by decide, by decide +kernel⟩

/-- "é", a surrogate, and what is no text. -/
example : Utf8 [0xc3, 0xa9] ∧ Utf8 [0xed, 0xa0, 0x80] ∧ ¬ Utf8 [0xc0, 0x80] ∧ ¬ Utf8 [0xf4, 0x90, 0x80, 0x80] := by
  refine ⟨⟨[0xe9], by decide, by decide⟩, ⟨[0xd800], by decide, by decide⟩, ?_, ?_⟩ <;> rw [← utf8Ok_iff] <;> decide

end Twink.Of13.Reads
