import Verif.Spec.Life
import Verif.Proof.Session
import Mathlib.Data.List.Induction

/-!
# Lemmas about the life of the software switch
-/

namespace Twink.Life
open Spec Session

theorem runs_snoc (s : St) (ops : List Op) (op : Op) : runs s (ops ++ [op]) = step (runs s ops) op := by simp [runs]

theorem runs_append (s : St) (a b : List Op) : runs s (a ++ b) = runs (runs s a) b := by simp [runs]

/-! ## One message -/

theorem normalize4 : normalize (.seq [.int 4]) = .ok [4] := by decide

theorem maxL_fours {l : List Nat} (h : l ≠ []) (h4 : ∀ x ∈ l, x = 4) : maxL l = 4 := by
  induction l with
  | nil => exact absurd rfl h
  | cons a l ih =>
    have ha := h4 a (by simp)
    subst ha
    by_cases hl : l = []
    · subst hl; rfl
    · have := ih hl fun x hx => h4 x (by simp [hx])
      show max 4 (maxL l) = 4
      omega

/-- What a hello does. -/
theorem hello_recv (xid : Nat) (st : HsState) {m : Bytes} (h8 : 8 ≤ m.length) (h0 : u8 m 1 = 0) :
    (∃ vs, parseHello m = .ok vs ∧ 4 ∈ vs ∧ ofRecv (.seq [.int 4]) xid st m = ({ st with version := some 4 }, .ok m)) ∨
    ((¬ ∃ vs, parseHello m = .ok vs ∧ 4 ∈ vs) ∧ ∃ t e, ofRecv (.seq [.int 4]) xid st m = (t, .error e) ∧ t.version = st.version) := by
  have hm : m ≠ [] := by rintro rfl; simp at h8
  have hof : ofRecv (.seq [.int 4]) xid st m = negotiate (.seq [.int 4]) xid st m := by
    unfold ofRecv
    rw [if_neg hm, parseHeader_fields m h8]
    simp only [h0, if_true]
  rw [hof]
  unfold negotiate
  rw [normalize4]
  simp only [show ¬ ([4] : List Nat) = [] by decide, if_false]
  cases hp : parseHello m with
  | error e => right; exact ⟨(by rintro ⟨vs, h, _⟩; cases h), st, e, rfl, rfl⟩
  | ok vs =>
    simp only
    by_cases h4 : 4 ∈ vs
    · left
      have hne : vs.filter (· ∈ ([4] : List Nat)) ≠ [] := by
        intro h
        rw [List.filter_eq_nil_iff] at h
        exact h 4 h4 (by simp)
      refine ⟨vs, rfl, h4, ?_⟩
      rw [if_pos hne, maxL_fours hne (by intro x hx; simpa using (List.mem_filter.1 hx).2)]
    · right
      have he : vs.filter (· ∈ ([4] : List Nat)) = [] := by
        rw [List.filter_eq_nil_iff]
        intro a ha
        simp only [List.mem_singleton, decide_eq_true_eq]
        rintro rfl
        exact h4 ha
      refine ⟨by rintro ⟨vs', h, h'⟩; cases h; exact h4 h', ?_⟩
      rw [if_neg (not_not.2 he)]
      split
      · exact ⟨_, _, rfl, rfl⟩
      · split
        · exact ⟨_, _, rfl, rfl⟩
        · exact ⟨_, _, rfl, rfl⟩

theorem handle_iff (o : Agent.Order) (rnd : Nat) (u : Agent.St) (m : Bytes) :
    (agentHandle o rnd u m).2.2 = .ok () ↔ ∃ msg, Of13.parse m 0 = .ok msg ∧ Agent.Served u msg := by
  rw [← Agent.C50_exact o rnd u m]
  unfold agentHandle
  cases h : Agent.switchProc o rnd u m with
  | error e => simp
  | ok r => obtain ⟨a, b⟩ := r; simp

/-- A message is handled if and only if it is survived; the version stays agreed. -/
theorem message_iff (o : Agent.Order) (rnd xid : Nat) (s : Sess Agent.St) (hv : s.version = none ∨ s.version = some 4) (m : Bytes) (hm : m ≠ []) :
    ((message (.seq [.int 4]) xid (agentHandle o rnd) s m).2 = .ok () ↔ Survives s m) ∧
    ((message (.seq [.int 4]) xid (agentHandle o rnd) s m).1.version = none ∨ (message (.seq [.int 4]) xid (agentHandle o rnd) s m).1.version = some 4) := by
  by_cases h8 : 8 ≤ m.length
  swap
  · unfold message ofRecv
    rw [if_neg hm, parseHeader_short m (by omega)]
    exact ⟨⟨fun h => (by cases h), fun h => absurd h.1 h8⟩, hv⟩
  by_cases h0 : u8 m 1 = 0
  · have h2 : u8 m 1 ≠ 2 := by omega
    rcases hello_recv xid ⟨s.version, s.sent⟩ h8 h0 with ⟨vs, h1, h4, he⟩ | ⟨h1, t, e, he, hve⟩
    · have : message (.seq [.int 4]) xid (agentHandle o rnd) s m = intercept (agentHandle o rnd) { s with version := some 4 } m := by
        unfold message; rw [he]
      rw [this, intercept_handle _ _ h8 h2]
      refine ⟨?_, .inr rfl⟩
      show (agentHandle o rnd s.user m).2.2 = .ok () ↔ _
      rw [handle_iff]
      exact ⟨fun h => ⟨h8, fun h' => absurd h' h2, fun _ => ⟨vs, h1, h4⟩, fun _ => h⟩, fun h => h.2.2.2 h2⟩
    · have : message (.seq [.int 4]) xid (agentHandle o rnd) s m = ({ s with version := t.version, sent := t.sent }, .error e) := by
        unfold message; rw [he]
      rw [this]
      refine ⟨⟨fun h => (by cases h), fun h => absurd (h.2.2.1 h0) h1⟩, ?_⟩
      show t.version = none ∨ t.version = some 4
      rw [hve]
      exact hv
  · rw [message_other xid _ s h8 h0]
    by_cases h2 : u8 m 1 = 2
    · unfold intercept
      rw [parseHeader_fields m h8]
      simp only [h2, if_true]
      rcases hv with hv | hv
      · rw [hv]
        refine ⟨⟨fun h => (by cases h), fun h => absurd hv (h.2.1 h2)⟩, .inl hv⟩
      · rw [hv]
        have hl : u16 m 2 < 65536 := by have h2 := u8_lt m 2; have h3 := u8_lt m (2 + 1); unfold u16; omega
        have hx := u32_lt m 4
        have hf : fits hdrFmt [.int 4, .int 3, .int (u16 m 2), .int (u32 m 4)] = true := by simp [fits, hdrFmt]; omega
        simp only [pack, hf, if_true]
        refine ⟨⟨fun _ => ⟨h8, fun _ => by rw [hv]; simp, fun h => absurd h h0, fun h => absurd h2 h⟩, fun _ => trivial⟩, by simp⟩
    · rw [intercept_handle _ _ h8 h2]
      refine ⟨?_, hv⟩
      show (agentHandle o rnd s.user m).2.2 = .ok () ↔ _
      rw [handle_iff]
      exact ⟨fun h => ⟨h8, fun h' => absurd h' h2, fun h' => absurd h' h0, fun _ => h⟩, fun h => h.2.2.2 h2⟩

theorem receive_phase (o : Agent.Order) (rnd xid : Nat) (s : St) (m : Bytes) : (receive o rnd xid s m).phase = s.phase := by
  unfold receive
  split
  · rfl
  · split <;> rfl

theorem receive_iff (o : Agent.Order) (rnd xid : Nat) (s : St) (hs : Serves s) (hv : Agreed s) (m : Bytes) :
    (Serves (receive o rnd xid s m) ↔ Survives s.sess m) ∧ Agreed (receive o rnd xid s m) := by
  unfold receive
  by_cases hm : m = []
  · rw [if_pos hm]
    refine ⟨⟨fun h => (by cases h.2), fun h => ?_⟩, hv⟩
    have := h.1
    subst hm
    simp at this
  · rw [if_neg hm]
    obtain ⟨h1, h2⟩ := message_iff o rnd xid s.sess hv m hm
    rw [← h1]
    split
    · rename_i t h
      rw [h] at h2
      rw [h]
      exact ⟨⟨fun _ => rfl, fun _ => hs⟩, h2⟩
    · rename_i t h
      rw [h] at h2
      rw [h]
      exact ⟨⟨fun h => (by cases h.2), fun h => (by cases h)⟩, h2⟩
    · rename_i t e _ h
      rw [h] at h2
      rw [h]
      exact ⟨⟨fun h => (by cases h.2), fun h => (by cases h)⟩, h2⟩

/-! ## Calls -/

theorem call_keeps (o : Agent.Order) (rnd : Nat) (s : St) (op : Agent.Op) : (call o rnd s op).phase = s.phase ∧ (call o rnd s op).link = s.link ∧
    (call o rnd s op).sess.version = s.sess.version := ⟨rfl, rfl, rfl⟩

theorem callBroken_keeps (o : Agent.Order) (rnd : Nat) (s : St) (op : Agent.Op) : (callBroken o rnd s op).phase = s.phase ∧
    (callBroken o rnd s op).link = s.link ∧ (callBroken o rnd s op).sess.version = s.sess.version ∧ (callBroken o rnd s op).sess.sent = s.sess.sent := by
  unfold callBroken
  cases op with
  | add dev mac c sk => simp only; split <;> exact ⟨rfl, rfl, rfl, rfl⟩
  | del dev d => simp only; split <;> exact ⟨rfl, rfl, rfl, rfl⟩

theorem portOp_flows (o : Agent.Order) (rnd : Nat) (u : Agent.St) (op : Agent.Op) : (Agent.portOp o rnd u op).1.flows = u.flows := by
  cases op with
  | add dev mac c sk =>
    rcases Agent.addPort_cases rnd u dev mac c sk with ⟨_, he⟩ | ⟨_, e, he⟩ | ⟨_, hw, sk, _, _, _, e, ⟨_, he⟩ | ⟨m, _, he⟩⟩ <;>
      simp only [Agent.portOp, he]
  | del dev d =>
    rcases Agent.delPort_cases o rnd u dev d with ⟨_, he⟩ | ⟨e, _, _, ⟨_, _, he⟩ | ⟨m, _, ⟨_, he⟩ | ⟨_, he⟩⟩⟩ <;>
      simp only [Agent.portOp, he]

/-- What a call does on a broken connection. -/
theorem callBroken_cases (o : Agent.Order) (rnd : Nat) (s : St) (op : Agent.Op) :
    ∃ u r, callBroken o rnd s op = { s with sess := { s.sess with user := u }, calls := s.calls ++ [r] } ∧ u.flows = s.sess.user.flows ∧
      (r = .ok .refused ∨ r = .ok .notFound ∨ ∃ e, r = .error e) ∧
      ((u.ports = s.sess.user.ports) ∨ ∃ p, u.ports = Agent.put s.sess.user.ports (s.sess.user.lastNo + 1) p) := by
  unfold callBroken
  cases op with
  | add dev mac c sk =>
    simp only
    rcases Agent.addPort_cases rnd s.sess.user dev mac c sk with ⟨_, he⟩ | ⟨_, e, he⟩ | ⟨_, hw, sk, _, _, _, e, ⟨_, he⟩ | ⟨m, _, he⟩⟩ <;>
      rw [he]
    · exact ⟨_, _, rfl, rfl, .inl rfl, .inl rfl⟩
    · exact ⟨_, _, rfl, rfl, .inr (.inr ⟨_, rfl⟩), .inl rfl⟩
    · exact ⟨_, _, rfl, rfl, .inr (.inr ⟨_, rfl⟩), .inr ⟨_, rfl⟩⟩
    · exact ⟨_, _, rfl, rfl, .inr (.inr ⟨_, rfl⟩), .inr ⟨_, rfl⟩⟩
  | del dev d =>
    simp only
    rcases Agent.delPort_cases o rnd s.sess.user dev d with ⟨_, he⟩ | ⟨e, _, _, ⟨_, _, he⟩ | ⟨m, _, ⟨_, he⟩ | ⟨_, he⟩⟩⟩ <;>
      rw [he]
    · exact ⟨_, _, rfl, rfl, .inr (.inl rfl), .inl rfl⟩
    · exact ⟨_, _, rfl, rfl, .inr (.inr ⟨_, rfl⟩), .inl rfl⟩
    · exact ⟨s.sess.user, _, rfl, rfl, .inr (.inr ⟨_, rfl⟩), .inl rfl⟩
    · exact ⟨s.sess.user, _, rfl, rfl, .inr (.inr ⟨_, rfl⟩), .inl rfl⟩

/-! ## Steps -/

theorem step_iff (s : St) (hs : Serves s) (hv : Agreed s) (op : Op) : (Serves (step s op) ↔ Harmless s op) ∧ Agreed (step s op) := by
  cases op with
  | dial d x => simp only [step, hs.1, Harmless, iff_true]; exact ⟨hs, hv⟩
  | message o rnd x m =>
    have : step s (.message o rnd x m) = receive o rnd x s m := if_pos hs
    rw [this]
    exact receive_iff o rnd x s hs hv m
  | hangup =>
    have : step s .hangup = { s with link := .deaf } := if_pos hs
    rw [this]
    exact ⟨⟨fun h => (by cases h.2), fun h => h.elim⟩, hv⟩
  | cut =>
    have : step s .cut = { s with link := .broken } := if_pos hs.1
    rw [this]
    exact ⟨⟨fun h => (by cases h.2), fun h => h.elim⟩, hv⟩
  | call o rnd op =>
    have : step s (.call o rnd op) = call o rnd s op := by simp only [step, hs.1, hs.2, if_true]; rfl
    rw [this]
    exact ⟨⟨fun _ => trivial, fun _ => hs⟩, hv⟩

/-- The loop has ended. -/
theorem step_ended (s : St) (hp : s.phase = .serving) (hl : s.link ≠ .live) (op : Op) :
    (step s op).phase = .serving ∧ (step s op).link ≠ .live ∧ (step s op).sess.version = s.sess.version ∧
      (step s op).sess.user.flows = s.sess.user.flows ∧ (s.link = .broken → (step s op).link = .broken) := by
  cases op with
  | dial d x => simp only [step, hp]; exact ⟨trivial, hl, trivial, trivial, fun h => h⟩
  | message o rnd x m =>
    have : step s (.message o rnd x m) = s := if_neg fun h => hl h.2
    rw [this]
    exact ⟨hp, hl, rfl, rfl, id⟩
  | hangup =>
    have : step s .hangup = s := if_neg fun h => hl h.2
    rw [this]
    exact ⟨hp, hl, rfl, rfl, id⟩
  | cut =>
    have : step s .cut = { s with link := .broken } := if_pos hp
    rw [this]
    exact ⟨hp, (by simp), rfl, rfl, fun _ => rfl⟩
  | call o rnd op =>
    simp only [step, hp, if_true]
    by_cases hb : s.link = .broken
    · rw [if_pos hb]
      obtain ⟨u, r, he, hf, _⟩ := callBroken_cases o rnd s op
      rw [he]
      exact ⟨hp, hl, rfl, hf, id⟩
    · rw [if_neg hb]
      exact ⟨hp, hl, rfl, portOp_flows o rnd _ op, fun h => absurd h hb⟩

end Twink.Life
