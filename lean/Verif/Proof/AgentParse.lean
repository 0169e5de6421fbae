import Verif.Model.Agent
import Verif.Proof.Of13Loop
import Verif.Props.Of13Header

/-!
# The header of a parsed message
-/


namespace Twink.Agent
open Of13 Spec

theorem rd_some {f : Fmt} {m : Bytes} {off o : Nat} {k : List Val → Option α} {a : α} (h : rd f m off k = .ok (a, o)) :
    ∃ vs, unpackFrom f m off = .ok vs ∧ k vs = some a := by
  unfold rd at h
  split at h
  · cases h
  · rename_i vs hv
    split at h
    · rename_i hk
      simp only [ok_inj, Prod.mk.injEq] at h
      obtain ⟨rfl, _⟩ := h
      exact ⟨vs, hv, hk⟩
    · cases h

theorem two_some {k : Nat → Nat → α} {vs : List Val} {a : α} (h : two k vs = some a) : ∃ x y, vs = [.int x, .int y] ∧ k x y = a := by
  unfold two at h
  split at h
  · injection h with h; exact ⟨_, _, rfl, h⟩
  · cases h

theorem three_some {k : Nat → Nat → Nat → α} {vs : List Val} {a : α} (h : three k vs = some a) :
    ∃ x y z, vs = [.int x, .int y, .int z] ∧ k x y z = a := by
  unfold three at h
  split at h
  · injection h with h; exact ⟨_, _, _, rfl, h⟩
  · cases h

theorem five_some {k : Nat → Nat → Nat → Nat → Nat → α} {vs : List Val} {a : α} (h : five k vs = some a) :
    ∃ x y z u v, vs = [.int x, .int y, .int z, .int u, .int v] ∧ k x y z u v = a := by
  unfold five at h
  split at h
  · injection h with h; exact ⟨_, _, _, _, _, rfl, h⟩
  · cases h

/-- What all parse functions of messages have in common. -/
def Headed (m : Bytes) (off : Nat) (msg : Msg) : Prop := ∃ o, parseHdr m off = .ok (hdrOf msg, o)

theorem headed_rd {m : Bytes} {off o o1 o2 : Nat} {hd : Hdr} {f : Fmt} {k : List Val → Option Msg} {r : Msg}
    (h1 : parseHdr m off = .ok (hd, o)) (h2 : rd f m o1 k = .ok (r, o2)) (hk : ∀ vs a, k vs = some a → hdrOf a = hd) :
    Headed m off r := by
  obtain ⟨vs, _, h3⟩ := rd_some h2
  exact ⟨o, by rw [h1, hk _ _ h3]⟩

theorem headed_rd1 {β : Type} {m : Bytes} {off o o1 o2 : Nat} {hd : Hdr} {f : Fmt} {k : List Val → Option (β → Msg)} {r : β → Msg}
    {b : β} (h1 : parseHdr m off = .ok (hd, o)) (h2 : rd f m o1 k = .ok (r, o2))
    (hk : ∀ vs a, k vs = some a → ∀ b, hdrOf (a b) = hd) : Headed m off (r b) := by
  obtain ⟨vs, _, h3⟩ := rd_some h2
  exact ⟨o, by rw [h1, hk _ _ h3]⟩

theorem headed_rd2 {β γ : Type} {m : Bytes} {off o o1 o2 : Nat} {hd : Hdr} {f : Fmt} {k : List Val → Option (β → γ → Msg)}
    {r : β → γ → Msg} {b : β} {c : γ} (h1 : parseHdr m off = .ok (hd, o)) (h2 : rd f m o1 k = .ok (r, o2))
    (hk : ∀ vs a, k vs = some a → ∀ b c, hdrOf (a b c) = hd) : Headed m off (r b c) := by
  obtain ⟨vs, _, h3⟩ := rd_some h2
  exact ⟨o, by rw [h1, hk _ _ h3]⟩

theorem headed_Hello {m : Bytes} {off : Nat} {msg : Msg} (h : Of13.parseHello m off = .ok msg) : Headed m off msg := by
  unfold Of13.parseHello at h
  simp only [bind_ok, Prod.exists, ok_inj] at h
  obtain ⟨hd, o, h1, _, _, _, _, _, rfl⟩ := h
  exact ⟨o, h1⟩

theorem headed_Error {m : Bytes} {off : Nat} {msg : Msg} (h : Of13.parseError m off = .ok msg) : Headed m off msg := by
  unfold Of13.parseError at h
  simp only [bind_ok, Prod.exists, ok_inj] at h
  obtain ⟨hd, o, h1, _, _, h2, rfl⟩ := h
  refine headed_rd1 h1 h2 fun vs a h b => ?_
  obtain ⟨x, y, _, rfl⟩ := two_some h; rfl

theorem headed_Features {m : Bytes} {off : Nat} {msg : Msg} (h : Of13.parseFeatures m off = .ok msg) : Headed m off msg := by
  unfold Of13.parseFeatures at h
  simp only [bind_ok, Prod.exists, ok_inj] at h
  obtain ⟨hd, o, h1, _, _, h2, rfl⟩ := h
  refine headed_rd h1 h2 fun vs a h => ?_
  split at h
  · injection h with h; subst h; rfl
  · cases h

theorem headed_Config {m : Bytes} {off : Nat} {msg : Msg} (h : Of13.parseConfig m off = .ok msg) : Headed m off msg := by
  unfold Of13.parseConfig at h
  simp only [bind_ok, Prod.exists, ok_inj] at h
  obtain ⟨hd, o, h1, _, _, h2, rfl⟩ := h
  refine headed_rd h1 h2 fun vs a h => ?_
  obtain ⟨x, y, _, rfl⟩ := two_some h; rfl

theorem headed_PacketIn {m : Bytes} {off : Nat} {msg : Msg} (h : Of13.parsePacketIn m off = .ok msg) : Headed m off msg := by
  unfold Of13.parsePacketIn at h
  simp only [bind_ok, Prod.exists, ok_inj] at h
  obtain ⟨hd, o, h1, _, _, h2, _, _, _, _, _, _, rfl⟩ := h
  refine headed_rd2 h1 h2 fun vs a h b c => ?_
  obtain ⟨x, y, z, u, v, _, rfl⟩ := five_some h; rfl

theorem headed_FlowRemoved {m : Bytes} {off : Nat} {msg : Msg} (h : Of13.parseFlowRemoved m off = .ok msg) : Headed m off msg := by
  unfold Of13.parseFlowRemoved at h
  simp only [bind_ok, Prod.exists, ok_inj] at h
  obtain ⟨hd, o, h1, _, _, h2, _, _, _, rfl⟩ := h
  refine headed_rd1 h1 h2 fun vs a h b => ?_
  split at h
  · injection h with h; subst h; rfl
  · cases h

theorem headed_PortStatus {m : Bytes} {off : Nat} {msg : Msg} (h : Of13.parsePortStatus m off = .ok msg) : Headed m off msg := by
  unfold Of13.parsePortStatus at h
  simp only [bind_ok, Prod.exists, ok_inj] at h
  obtain ⟨hd, o, h1, _, _, h2, _, _, _, rfl⟩ := h
  refine headed_rd1 h1 h2 fun vs a h b => ?_
  split at h
  · injection h with h; subst h; rfl
  · cases h

theorem headed_PacketOut {m : Bytes} {off : Nat} {msg : Msg} (h : Of13.parsePacketOut m off = .ok msg) : Headed m off msg := by
  unfold Of13.parsePacketOut at h
  simp only [bind_ok, Prod.exists, ok_inj] at h
  obtain ⟨hd, o, h1, _, _, _, _, _, _, _, _, rfl⟩ := h
  exact ⟨o, h1⟩

theorem headed_FlowMod {m : Bytes} {off : Nat} {msg : Msg} (h : Of13.parseFlowMod m off = .ok msg) : Headed m off msg := by
  unfold Of13.parseFlowMod at h
  simp only [bind_ok, Prod.exists, ok_inj] at h
  obtain ⟨hd, o, h1, _, _, h2, _, _, _, _, _, _, rfl⟩ := h
  refine headed_rd2 h1 h2 fun vs a h b c => ?_
  split at h
  · injection h with h; subst h; rfl
  · cases h

theorem headed_GroupMod {m : Bytes} {off : Nat} {msg : Msg} (h : Of13.parseGroupMod m off = .ok msg) : Headed m off msg := by
  unfold Of13.parseGroupMod at h
  simp only [bind_ok, Prod.exists, ok_inj] at h
  obtain ⟨hd, o, h1, _, _, h2, _, _, _, rfl⟩ := h
  refine headed_rd1 h1 h2 fun vs a h b => ?_
  obtain ⟨x, y, z, _, rfl⟩ := three_some h; rfl

theorem headed_PortMod {m : Bytes} {off : Nat} {msg : Msg} (h : Of13.parsePortMod m off = .ok msg) : Headed m off msg := by
  unfold Of13.parsePortMod at h
  simp only [bind_ok, Prod.exists, ok_inj] at h
  obtain ⟨hd, o, h1, _, _, h2, _, _, rfl⟩ := h
  refine headed_rd h1 h2 fun vs a h => ?_
  split at h
  · injection h with h; subst h; rfl
  · cases h

theorem headed_TableMod {m : Bytes} {off : Nat} {msg : Msg} (h : Of13.parseTableMod m off = .ok msg) : Headed m off msg := by
  unfold Of13.parseTableMod at h
  simp only [bind_ok, Prod.exists, ok_inj] at h
  obtain ⟨hd, o, h1, _, _, h2, rfl⟩ := h
  refine headed_rd h1 h2 fun vs a h => ?_
  obtain ⟨x, y, _, rfl⟩ := two_some h; rfl

theorem headed_MpRequest {m : Bytes} {off : Nat} {msg : Msg} (h : Of13.parseMpRequest m off = .ok msg) : Headed m off msg := by
  unfold Of13.parseMpRequest at h
  simp only [bind_ok, Prod.exists, ok_inj] at h
  obtain ⟨hd, o, h1, _, _, _, _, _, _, rfl⟩ := h
  exact ⟨o, h1⟩

theorem headed_MpReply {m : Bytes} {off : Nat} {msg : Msg} (h : Of13.parseMpReply m off = .ok msg) : Headed m off msg := by
  unfold Of13.parseMpReply at h
  simp only [bind_ok, Prod.exists, ok_inj] at h
  obtain ⟨hd, o, h1, _, _, _, _, _, _, rfl⟩ := h
  exact ⟨o, h1⟩

theorem headed_QueueReq {m : Bytes} {off : Nat} {msg : Msg} (h : Of13.parseQueueReq m off = .ok msg) : Headed m off msg := by
  unfold Of13.parseQueueReq at h
  simp only [bind_ok, Prod.exists, ok_inj] at h
  obtain ⟨hd, o, h1, _, _, h2, rfl⟩ := h
  refine headed_rd h1 h2 fun vs a h => ?_
  split at h
  · injection h with h; subst h; rfl
  · cases h

theorem headed_QueueRep {m : Bytes} {off : Nat} {msg : Msg} (h : Of13.parseQueueRep m off = .ok msg) : Headed m off msg := by
  unfold Of13.parseQueueRep at h
  simp only [bind_ok, Prod.exists, ok_inj] at h
  obtain ⟨hd, o, h1, _, _, h2, _, _, _, rfl⟩ := h
  refine headed_rd1 h1 h2 fun vs a h b => ?_
  split at h
  · injection h with h; subst h; rfl
  · cases h

theorem headed_Role {m : Bytes} {off : Nat} {msg : Msg} (h : Of13.parseRole m off = .ok msg) : Headed m off msg := by
  unfold Of13.parseRole at h
  simp only [bind_ok, Prod.exists, ok_inj] at h
  obtain ⟨hd, o, h1, _, _, h2, rfl⟩ := h
  refine headed_rd h1 h2 fun vs a h => ?_
  obtain ⟨x, y, _, rfl⟩ := two_some h; rfl

theorem headed_Async {m : Bytes} {off : Nat} {msg : Msg} (h : Of13.parseAsync m off = .ok msg) : Headed m off msg := by
  unfold Of13.parseAsync at h
  simp only [bind_ok, Prod.exists, ok_inj] at h
  obtain ⟨hd, o, h1, _, _, h2, rfl⟩ := h
  refine headed_rd h1 h2 fun vs a h => ?_
  split at h
  · injection h with h; subst h; rfl
  · cases h

theorem headed_MeterMod {m : Bytes} {off : Nat} {msg : Msg} (h : Of13.parseMeterMod m off = .ok msg) : Headed m off msg := by
  unfold Of13.parseMeterMod at h
  simp only [bind_ok, Prod.exists, ok_inj] at h
  obtain ⟨hd, o, h1, _, _, h2, _, _, _, rfl⟩ := h
  refine headed_rd1 h1 h2 fun vs a h b => ?_
  obtain ⟨x, y, z, _, rfl⟩ := three_some h; rfl

theorem headed_Other {m : Bytes} {off : Nat} {msg : Msg} (h : Of13.parseOther m off = .ok msg) : Headed m off msg := by
  unfold Of13.parseOther at h
  simp only [bind_ok, Prod.exists, ok_inj] at h
  obtain ⟨hd, o, h1, rfl⟩ := h
  exact ⟨o, h1⟩

theorem parseOf_hdr {t : Nat} {m : Bytes} {off : Nat} {msg : Msg} (h : parseOf t m off = .ok msg) : Headed m off msg := by
  unfold parseOf at h
  by_cases h0 : t = 0
  · rw [if_pos h0] at h
    exact headed_Hello h
  rw [if_neg h0] at h; clear h0
  by_cases h0 : t = 1
  · rw [if_pos h0] at h
    exact headed_Error h
  rw [if_neg h0] at h; clear h0
  by_cases h0 : t = 6
  · rw [if_pos h0] at h
    exact headed_Features h
  rw [if_neg h0] at h; clear h0
  by_cases h0 : t = 9 ∨ t = 8
  · rw [if_pos h0] at h
    exact headed_Config h
  rw [if_neg h0] at h; clear h0
  by_cases h0 : t = 10
  · rw [if_pos h0] at h
    exact headed_PacketIn h
  rw [if_neg h0] at h; clear h0
  by_cases h0 : t = 11
  · rw [if_pos h0] at h
    exact headed_FlowRemoved h
  rw [if_neg h0] at h; clear h0
  by_cases h0 : t = 12
  · rw [if_pos h0] at h
    exact headed_PortStatus h
  rw [if_neg h0] at h; clear h0
  by_cases h0 : t = 13
  · rw [if_pos h0] at h
    exact headed_PacketOut h
  rw [if_neg h0] at h; clear h0
  by_cases h0 : t = 14
  · rw [if_pos h0] at h
    exact headed_FlowMod h
  rw [if_neg h0] at h; clear h0
  by_cases h0 : t = 15
  · rw [if_pos h0] at h
    exact headed_GroupMod h
  rw [if_neg h0] at h; clear h0
  by_cases h0 : t = 16
  · rw [if_pos h0] at h
    exact headed_PortMod h
  rw [if_neg h0] at h; clear h0
  by_cases h0 : t = 17
  · rw [if_pos h0] at h
    exact headed_TableMod h
  rw [if_neg h0] at h; clear h0
  by_cases h0 : t = 18
  · rw [if_pos h0] at h
    exact headed_MpRequest h
  rw [if_neg h0] at h; clear h0
  by_cases h0 : t = 19
  · rw [if_pos h0] at h
    exact headed_MpReply h
  rw [if_neg h0] at h; clear h0
  by_cases h0 : t = 4
  · rw [if_pos h0] at h
    unfold parseExperimenter at h
    simp only [bind_ok, reduceCtorEq, and_false, exists_false] at h
  rw [if_neg h0] at h; clear h0
  by_cases h0 : t = 22
  · rw [if_pos h0] at h
    exact headed_QueueReq h
  rw [if_neg h0] at h; clear h0
  by_cases h0 : t = 23
  · rw [if_pos h0] at h
    exact headed_QueueRep h
  rw [if_neg h0] at h; clear h0
  by_cases h0 : t = 24
  · rw [if_pos h0] at h
    exact headed_Role h
  rw [if_neg h0] at h; clear h0
  by_cases h0 : t = 28 ∨ t = 27
  · rw [if_pos h0] at h
    exact headed_Async h
  rw [if_neg h0] at h; clear h0
  by_cases h0 : t = 29
  · rw [if_pos h0] at h
    exact headed_MeterMod h
  rw [if_neg h0] at h; clear h0
  exact headed_Other h

theorem parse_hdr {m : Bytes} {msg : Msg} (h : parse m 0 = .ok msg) :
    8 ≤ m.length ∧ u8 m 0 = 4 ∧ hdrOf msg = ⟨u8 m 0, u8 m 1, u16 m 2, u32 m 4⟩ ∧ parseOf (u8 m 1) m 0 = .ok msg := by
  unfold parse at h
  simp only [bind_ok, Prod.exists] at h
  obtain ⟨hd, o, h1, h⟩ := h
  obtain ⟨o', h2⟩ := parseOf_hdr h
  rw [h1] at h2
  simp only [ok_inj, Prod.mk.injEq] at h2
  obtain ⟨rfl, rfl⟩ := h2
  unfold parseHdr at h1
  simp only [bind_ok, pyAssert_ok, exists_const, ok_inj] at h1
  obtain ⟨r, h3, h4, rfl⟩ := h1
  have hlen := (rd_ok h3).2.1
  simp [calcsize, hdrFmt, Item.width] at hlen
  obtain ⟨vs, h5, h6⟩ := rd_some h3
  have hp := parseHeader_fields m (by omega)
  unfold parseHeader at hp
  rw [h5, ok_bind] at hp
  unfold four at h6
  split at h6
  · injection h6 with h6
    simp only [ok_inj, Prod.mk.injEq] at hp
    obtain ⟨rfl, rfl, rfl, rfl⟩ := hp
    refine ⟨by omega, ?_, h6.symm, ?_⟩
    · rw [← h6] at h4; exact h4
    · rw [← h6] at h; exact h
  · cases h6
end Twink.Agent
