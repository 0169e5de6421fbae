import Verif.Props.Logging

/-! # Property C83: exactly when the log of sent messages is right -/

namespace Twink.Logging.Sent
open Twink Logging

/-- The messages whose `send` went through. -/
def delivered : List Op → List Bytes
  | [] => []
  | .send m none :: ops => m :: delivered ops
  | _ :: ops => delivered ops

/-- C83. The transport gets exactly the messages whose `send` does not fail, in order. -/
theorem C83_delivered (self remote : Text) (s : St) (ops : List Op) :
    (run self remote s ops).1.sent = s.sent ++ delivered ops := by
  induction ops generalizing s with
  | nil => simp [run, delivered]
  | cons op ops ih =>
    rw [run]
    simp only
    rw [ih]
    cases op with
    | send m fails => cases fails <;> simp [step, send, delivered]
    | recv =>
      have h := (recv_run (self := self) s).2.2.2.1
      simp only [step, delivered]
      cases hr : recv self s with
      | mk s' r =>
        rw [hr] at h
        simp only at h
        cases r with
        | none => simp [h]
        | some r => cases r <;> simp [h]
    | close => simp only [step, close, delivered]; split <;> simp
    | attach tr => simp [step, delivered]

theorem delivered_le (ops : List Op) : (delivered ops).length ≤ (given ops).length ∧
    ((delivered ops).length = (given ops).length ↔ ∀ m e, Op.send m (some e) ∉ ops) := by
  induction ops with
  | nil => simp [delivered, given]
  | cons op ops ih =>
    obtain ⟨i1, i2⟩ := ih
    cases op with
    | send m fails =>
      cases fails with
      | none =>
        simp only [delivered, given, List.length_cons, List.mem_cons, not_or]
        refine ⟨by omega, ?_⟩
        rw [Nat.add_right_cancel_iff, i2]
        exact ⟨fun h m e => ⟨by simp, h m e⟩, fun h m e => (h m e).2⟩
      | some e =>
        simp only [delivered, given, List.length_cons]
        refine ⟨by omega, fun h => by omega, fun h => ?_⟩
        exact absurd (List.mem_cons_self) (h m e)
    | recv => simpa [delivered, given] using ⟨i1, i2⟩
    | close => simpa [delivered, given] using ⟨i1, i2⟩
    | attach tr => simpa [delivered, given] using ⟨i1, i2⟩

/-- C83, exactly: of a log that was right so far, the lines of sent messages tell what the transport got if and only if no `send` failed. -/
theorem C83_sent_exact (self remote : Text) (s : St) (ops : List Op) (hs : s.lines.send.map told = s.sent) :
    (run self remote s ops).1.lines.send.map told = (run self remote s ops).1.sent ↔ ∀ m e, Op.send m (some e) ∉ ops := by
  constructor
  · intro h
    rw [C83_given, C83_delivered, hs] at h
    have := congrArg List.length (List.append_cancel_left h)
    exact (delivered_le ops).2.1 this.symm
  · exact C83_sent_partial self remote s ops hs

/-- The hypothesis of `C83_sent_exact`: a new channel. -/
example : (init "x".toList [] ⟨false, [], []⟩).lines.send.map told = (init "x".toList [] ⟨false, [], []⟩).sent := rfl

/-- Both sides: one message gets through, the next one does not. -/
example : delivered [.send [1] none, .send [2] (some .other), .recv] = [[1]] ∧ given [.send [1] none, .send [2] (some .other), .recv] = [[1], [2]] :=
  ⟨rfl, rfl⟩

end Twink.Logging.Sent
