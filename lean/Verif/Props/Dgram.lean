import Verif.Model.Dgram

/-!
# C82: `DgramServer` handles datagrams
-/

namespace Twink.Dgram

/-- The claim: whatever arrives, every datagram becomes a task, and when `run` has ended the socket is closed. -/
def Serves : Prop := ∀ as : List Attempt,
  (run ⟨[], [], false⟩ as).1.tasks.length = (as.filter (· ≠ .timeout)).length ∧ (run ⟨[], [], false⟩ as).1.sockClosed = true

/-- C82. What happens instead, for every state and whatever arrives: the first round ends `run` with TypeError, no task is spawned and no
channel made. -/
theorem C82_first_round (s : St) (a : Attempt) (as : List Attempt) : run s (a :: as) = (s, .error .typeError) := rfl

/-- C82, the claim fails: no datagram is ever handled, and the socket stays open. -/
theorem C82_serves_refuted : ¬ Serves := by
  intro h
  have := (h [.datagram [1] 7]).1
  revert this; decide

theorem C82_never_closed_refuted (s : St) (a : Attempt) (as : List Attempt) (h : s.sockClosed = false) :
    (run s (a :: as)).1.sockClosed = false ∧ (run s (a :: as)).1.tasks = s.tasks ∧ (run s (a :: as)).1.remotes = s.remotes := ⟨h, rfl, rfl⟩

/-- C82. The tasks could not read their data either: `StringIO` is not imported. -/
theorem C82_task (data : Bytes) : lockedLoop data = .error .nameError := by
  unfold lockedLoop; rw [if_neg (by decide)]

/-- C82. What the rest of a round would do with a datagram: the sender has a channel then, nobody has two, the others keep theirs, and there is
one more task, with the sender's data. -/
theorem C82_register (s : St) (data remote : UInt8) (hn : s.remotes.Nodup) :
    (register s data remote).remotes.Nodup ∧ (∀ r, r ∈ (register s data remote).remotes ↔ r = remote ∨ r ∈ s.remotes) ∧
      (register s data remote).tasks = s.tasks ++ [(remote, data)] ∧ (register s data remote).sockClosed = s.sockClosed := by
  refine ⟨?_, fun r => ?_, rfl, rfl⟩
  · simp only [register]
    split
    · exact hn
    · rename_i h
      rw [List.nodup_append]
      exact ⟨hn, by simp, by intro a ha b hb; simp at hb; subst hb; rintro rfl; exact h ha⟩
  · simp only [register]
    split
    · rename_i h
      exact ⟨.inr, fun e => e.elim (fun e => e ▸ h) id⟩
    · simp [or_comm]

/-- C82, what holds: if `stop()` comes before the first round, the socket is closed and nothing is handled. -/
theorem C82_stopped_partial (s : St) : run s [] = ({ s with sockClosed := true }, .ok ()) := rfl

example : run ⟨[], [], false⟩ [.timeout] = (⟨[], [], false⟩, .error .typeError) := by decide

end Twink.Dgram
