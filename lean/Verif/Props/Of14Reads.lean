import Verif.Proof.Of14Never

/-!
# C114. Exactly what the OpenFlow 1.4 parser reads

`Spec/Of14Reads` describes, without reference to the parser, which message stands at an offset of a buffer and where it ends (`MsgAt`),
and which ones have a part that is begun again and again (`MsgNever`).
-/

namespace Twink.Of14.Reads
open Fmt Spec Twink.Reads
open Of13 (MatchT)
open Of13.Reads (hdrAt msgEnd MatchAt BandAt ElemAt PairAt)

/-- C114. For every buffer, offset and message: `parse(m, o)` returns `r` if and only if `r` stands at `o`. -/
theorem C114_exact (m : Bytes) (o : Nat) (r : Msg) : parse m o = .ok r ↔ ∃ e, MsgAt m o r e := parse_iff m o r

/-- C114. With a cursor, which is how nested messages are read, it is left at the end of the message. -/
theorem C114_cursor (m : Bytes) (o : Nat) (r : Msg) (e : Nat) : parseAt m o = .ok (r, e) ↔ MsgAt m o r e := parseAt_iff m o r e

/-- C75, exactly: for every buffer and offset the parser does not end if and only if what stands there is a message, or holds a nested
message, in which, before the end that is given for a list, an item follows whose end is not behind its beginning. -/
theorem C75_exact (m : Bytes) (o : Nat) : parse m o = .error .diverges ↔ MsgNever m o := parse_never m o

/-- C114. There is an exception exactly if no message stands at the offset and none that is never read to the end does. -/
theorem C114_exception (m : Bytes) (o : Nat) :
    (∃ e, e ≠ .diverges ∧ parse m o = .error e) ↔ (∀ r e, ¬ MsgAt m o r e) ∧ ¬ MsgNever m o := by
  have h1 : (∀ r e, ¬ MsgAt m o r e) ↔ ∀ r, parse m o ≠ .ok r := by simp [parse_iff]
  rw [h1, ← parse_never]
  cases h : parse m o <;> simp

/-- C114. The same for the structures that messages are made of: each is read exactly if it stands at the offset, up to the end that
the rule gives. -/
theorem C114_structures (m : Bytes) (o e : Nat) :
    (∀ a, parsePort m o = .ok (a, e) ↔ PortAt m o a e) ∧ (∀ a, parseAction m o = .ok (a, e) ↔ ActionAt m o a e) ∧
    (∀ a, parseInstr m o = .ok (a, e) ↔ InstrAt m o a e) ∧ (∀ a, parseBucket m o = .ok (a, e) ↔ BucketAt m o a e) ∧
    (∀ a, parseTmProp m o = .ok (a, e) ↔ TablePropAt m o a e) ∧ (∀ a, parsePmProp m o = .ok (a, e) ↔ PortModPropAt m o a e) ∧
    (∀ a, parsePsProp m o = .ok (a, e) ↔ PortStatsPropAt m o a e) ∧ (∀ a, parseQsProp m o = .ok (a, e) ↔ QueueStatsPropAt m o a e) ∧
    (∀ a, parseQdProp m o = .ok (a, e) ↔ QueuePropAt m o a e) ∧ (∀ a, parseAsyncProp m o = .ok (a, e) ↔ AsyncPropAt m o a e) ∧
    (∀ a, parseTfProp m o = .ok (a, e) ↔ FeatureAt m o a e) ∧ (∀ a, parseFlowStats m o = .ok (a, e) ↔ FlowStatsAt m o a e) ∧
    (∀ a, parseAggregate m o = .ok (a, e) ↔ AggregateAt m o a e) ∧ (∀ a, parseTableFeatures m o = .ok (a, e) ↔ TableFeaturesAt m o a e) ∧
    (∀ a, parseQueueDesc m o = .ok (a, e) ↔ QueueDescAt m o a e) ∧ (∀ a, parseGroupStats m o = .ok (a, e) ↔ GroupStatsAt m o a e) ∧
    (∀ a, parseGroupDesc m o = .ok (a, e) ↔ GroupDescAt m o a e) ∧ (∀ a, parseMeterStats m o = .ok (a, e) ↔ MeterStatsAt m o a e) ∧
    (∀ a, parseMeterConfig m o = .ok (a, e) ↔ MeterConfigAt m o a e) ∧ (∀ a, parseUpdateHeader m o = .ok (a, e) ↔ UpdateAt m o a e) :=
  ⟨fun a => port_iff m o a e, fun a => action_iff m o a e, fun a => instr_iff m o a e, fun a => bucket_iff m o a e,
    fun a => tableProp_iff m o a e, fun a => portModProp_iff m o a e, fun a => portStatsProp_iff m o a e, fun a => queueStatsProp_iff m o a e,
    fun a => queueProp_iff m o a e, fun a => asyncProp_iff m o a e, fun a => feature_iff m o a e, fun a => flowStats_iff m o a e,
    fun a => aggregate_iff m o a e, fun a => tableFeatures_iff m o a e, fun a => queueDesc_iff m o a e, fun a => groupStats_iff m o a e,
    fun a => groupDesc_iff m o a e, fun a => meterStats_iff m o a e, fun a => meterConfig_iff m o a e, fun a => update_iff m o a e⟩

/-- C114. At most one message stands at an offset, it has one end, and no message that never ends stands there besides it. -/
theorem C114_one (m : Bytes) (o : Nat) (r s : Msg) (e f : Nat) (h : MsgAt m o r e) : (MsgAt m o s f → r = s ∧ e = f) ∧ ¬ MsgNever m o := by
  have h1 := (parseAt_iff m o r e).2 h
  refine ⟨fun h2 => ?_, fun h2 => ?_⟩
  · have := (parseAt_iff m o s f).2 h2
    rw [h1] at this
    cases this
    exact ⟨rfl, rfl⟩
  · have := (parseAt_never m o).2 h2
    rw [h1] at this
    cases this

/-! ### what the standard has and the parser never reads -/

/-- C114 is false if the rules of the standard are meant: no TABLE_STATUS message is ever read, and no ROLE_STATUS message longer
than its header. -/
theorem C114_status_refuted (m : Bytes) (o : Nat) (r : Msg) (h : u8 m (o + 1) = 31 ∨ u8 m (o + 1) = 30 ∧ 8 < u16 m (o + 2)) : parse m o ≠ .ok r := by
  rw [Ne, parse_iff]
  rintro ⟨e, hr⟩
  cases hr with
  | other hk h => have := h.2.2.2; simp [knownTypes] at hk; omega
  | config h h' => have := h'.2.2.2; omega
  | async h h' => have := h'.2.2.2; omega
  | roleStatus h h' => have := h.2.2.2; simp only [msgEnd] at h'; omega
  | _ h => have := h.2.2.2; omega

/-- No port is ever read that has no properties, and of one with properties nothing is returned but the first. -/
theorem C114_port_refuted (m : Bytes) (o : Nat) (a : Pr) (e : Nat) :
    (u16 m (o + 4) ≤ 40 → parsePort m o ≠ .ok (a, e)) ∧ (parsePort m o = .ok (a, e) → PortPropAt m (o + 40) a e) := by
  rw [Ne, port_iff]
  refine ⟨?_, ?_⟩
  · rintro h ⟨-, h1, -⟩; omega
  · rintro ⟨-, -, h⟩; exact h

/-- No action that sets the MPLS time to live is ever read. -/
theorem C114_mpls_ttl_refuted (m : Bytes) (o : Nat) (a : Action) (e : Nat) (h : u16 m o = 15) : parseAction m o ≠ .ok (a, e) := by
  rw [Ne, action_iff]
  intro hr
  cases hr <;> simp_all

/-- No property of a table's features that lists actions is ever read (types 4 to 7). -/
theorem C114_features_refuted (m : Bytes) (o : Nat) (a : TfProp) (e : Nat) (h : u16 m o ∈ [4, 5, 6, 7]) : parseTfProp m o ≠ .ok (a, e) := by
  rw [Ne, feature_iff]
  intro hr
  cases hr with
  | instructions _ c => simp at c h; omega
  | tables _ c => simp at c h; omega
  | oxm _ c => simp at c h; omega
  | experimenter _ c => simp at c h; omega

/-- No request about meters is ever read, and no reply with statistics or descriptions of a table, or with statistics of a port or a
queue. -/
theorem C114_multipart_refuted (m : Bytes) (o : Nat) (r : Msg)
    (h : (u8 m (o + 1) = 18 ∧ (u16 m (o + 8) = 9 ∨ u16 m (o + 8) = 10)) ∨
      (u8 m (o + 1) = 19 ∧ u16 m (o + 8) ∈ [3, 4, 5, 14] ∧ 16 < u16 m (o + 2))) : parse m o ≠ .ok r := by
  rw [Ne, parse_iff]
  rintro ⟨e, hr⟩
  simp only [List.mem_cons, List.not_mem_nil, or_false] at h
  cases hr with
  | other hk h => have := h.2.2.2; simp [knownTypes] at hk; omega
  | config h h' => have := h'.2.2.2; omega
  | async h h' => have := h'.2.2.2; omega
  | mpRequest h' hb =>
    have := h'.2.2.2
    have h : u16 m (o + 8) = 9 ∨ u16 m (o + 8) = 10 := by omega
    rcases h with h | h <;> rw [h] at hb <;> cases hb <;> simp at *
  | mpReply h' hb =>
    have := h'.2.2.2
    have h1 : 16 < u16 m (o + 2) := by omega
    have h2 : u16 m (o + 8) = 3 ∨ u16 m (o + 8) = 4 ∨ u16 m (o + 8) = 5 ∨ u16 m (o + 8) = 14 := by omega
    rcases h2 with h | h | h | h <;> rw [h] at hb <;> cases hb <;> simp only [msgEnd] at * <;> omega
  | _ h => have := h.2.2.2; omega

/-- Of a PORT_MOD message that is read, the number of the port is made of the header's first four bytes. -/
theorem C114_port_mod_refuted (m : Bytes) (o : Nat) (h : Of13.Hdr) (p : Nat) (hw : Bytes) (c k : Nat) (l : List Pr)
    (hr : parse m o = .ok (.portMod h p hw c k l)) : p = u32 m o ∧ hw = part m (o + 8) (o + 14) := by
  rw [parse_iff] at hr
  obtain ⟨e, hr⟩ := hr
  cases hr
  exact ⟨rfl, rfl⟩

/-- No bundle message with properties is ever read. -/
theorem C114_bundle_refuted (m : Bytes) (o : Nat) (r : Msg) (h : u8 m (o + 1) = 33 ∧ 16 < u16 m (o + 2)) : parse m o ≠ .ok r := by
  rw [Ne, parse_iff]
  rintro ⟨e, hr⟩
  cases hr with
  | other hk h => have := h.2.2.2; simp [knownTypes] at hk; omega
  | config h h' => have := h'.2.2.2; omega
  | async h h' => have := h'.2.2.2; omega
  | bundleCtrl h h' => have := h.2.2.2; simp only [msgEnd] at h'; omega
  | _ h => have := h.2.2.2; omega

/-! ### concrete cases -/

/-- In the midst of a buffer, a PACKET_OUT message that is forwarded: one action (output to port 5), then the packet 0xaa 0xbb. -/
def exForward : Bytes := [0xee, 5, 32, 0, 50, 0, 0, 0, 9, 5, 13, 0, 42, 0, 0, 0, 7, 0xff, 0xff, 0xff, 0xff, 0, 0, 0, 1, 0, 16, 0, 0, 0, 0, 0, 0,
  0, 0, 0, 16, 0, 0, 0, 5, 0, 0, 0, 0, 0, 0, 0, 0, 0xaa, 0xbb, 0xee]

/-- It stands there by the rules. -/
example : MsgAt exForward 1 (.requestForward ⟨5, 32, 50, 9⟩
    (.packetOut ⟨5, 13, 42, 7⟩ 0xffffffff 1 16 [.output (some 0) (some 16) 5 0] [0xaa, 0xbb])) 51 :=
  MsgAt.requestForward (m := exForward) (o := 1) (by simp [HeadAt, exForward, u8])
    (MsgAt.packetOut (m := exForward) (o := 9) (l := [.output (some 0) (some 16) 5 0]) (e := 49) (by simp [HeadAt, exForward, u8])
      ⟨by decide, 49, ActionAt.output (m := exForward) (o := 33) (by decide) (by decide), by decide, by decide, rfl⟩)

/-- A ROLE_STATUS message that tells a controller with the role 0xffff0000 of something never ends. -/
def exRole : Bytes := [5, 30, 0, 24, 0, 0, 0, 7, 0xff, 0xff, 0, 0, 0, 0, 0, 0, 0, 0, 0, 0, 0, 0, 0, 1]

example : MsgNever exRole 0 := .roleStatus (by simp [HeadAt, exRole, u8]) (by decide) (by decide)

/-- Neither: the same with the role 3 (OFPCR_ROLE_SLAVE). -/
def exSlave : Bytes := [5, 30, 0, 24, 0, 0, 0, 7, 0, 0, 0, 3, 0, 0, 0, 0, 0, 0, 0, 0, 0, 0, 0, 1]

example : (∀ r e, ¬ MsgAt exSlave 0 r e) ∧ ¬ MsgNever exSlave 0 :=
  (C114_exception exSlave 0).1 ⟨.valueError, by decide, by
    have h : HeadAt exSlave 0 30 16 := by simp [HeadAt, exSlave, u8]
    rw [parse, of_eq h (by decide) (by decide)]
    decide +kernel⟩

end Twink.Of14.Reads
