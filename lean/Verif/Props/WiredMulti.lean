import Verif.Props.Wired
import Verif.Proof.WiredMute

/-!
# C119: `multi`, `barrier` and a switch of this project
-/

namespace Twink.Wired
open Session Spec Fmt

/-- Full statement: `multi(ms)` to a switch that handles all its messages returns one result for each.  Neither the example switch nor the software switch ever answers a
barrier request.  So no call of `multi` ever returns, whatever messages it sends (also none), whatever the other threads do, also if they close the channel: it waits for the
barrier, or has raised an exception. -/
theorem C119_never_refuted {h : Handle σ} (hp : Polite h) (u : σ) (ops : List (NOp σ)) (hpl : ∀ m ∈ asked (run h (start u) ops), Plain m)
    (hl : OwnLong ops) (ho : ∀ u bs, NOp.own u bs ∈ ops → ∀ b ∈ bs, u8 b 1 ≠ 21) {i : Nat} {c : MCall}
    (hth : (run h (start u) ops).ctl.threads[i]? = some (.multi c)) :
    c.pc = .next ∨ c.pc = .sending ∨ (∃ s, c.pc = .barrier s) ∨ ∃ e, c.pc = .failed e := by
  have hm := mute_run hp (netInv_start u) ⟨mute_fresh, by simp [start]⟩ ops hpl hl ho
  have hs := hm.1.threads i c hth
  unfold Stuck at hs
  cases hpc : c.pc with
  | next => exact .inl rfl
  | sending => exact .inr (.inl rfl)
  | barrier s => exact .inr (.inr (.inl ⟨s, rfl⟩))
  | failed e => exact .inr (.inr (.inr ⟨e, rfl⟩))
  | _ => rw [hpc] at hs; exact hs.elim

/-- For the two switches of the project. -/
theorem C119_both_refuted (o : Agent.Order) (rnd : Nat) (st : Agent.St) (opsE : List (NOp Unit)) (opsA : List (NOp Agent.St))
    (hpE : ∀ m ∈ asked (run (exHandle rnd) (start ()) opsE), Plain m) (hpA : ∀ m ∈ asked (run (agentHandle o rnd) (start st) opsA), Plain m)
    (hlE : OwnLong opsE) (hlA : OwnLong opsA) (hoE : ∀ u bs, NOp.own u bs ∈ opsE → ∀ b ∈ bs, u8 b 1 ≠ 21)
    (hoA : ∀ u bs, NOp.own u bs ∈ opsA → ∀ b ∈ bs, u8 b 1 ≠ 21) (i : Nat) (c : MCall) (hd : c.pc = .done) :
    (run (exHandle rnd) (start ()) opsE).ctl.threads[i]? ≠ some (.multi c) ∧ (run (agentHandle o rnd) (start st) opsA).ctl.threads[i]? ≠ some (.multi c) := by
  constructor
  · intro hth
    rcases C119_never_refuted (ex_polite rnd) () opsE hpE hlE hoE hth with h | h | ⟨s, h⟩ | ⟨e, h⟩ <;> (rw [hd] at h; simp at h)
  · intro hth
    rcases C119_never_refuted (agent_polite o rnd) st opsA hpA hlA hoA hth with h | h | ⟨s, h⟩ | ⟨e, h⟩ <;> (rw [hd] at h; simp at h)

/-- C119, what does happen: the messages get through.  When `multi` waits for its barrier and nothing is on the way, the switch has handled every message, in the
order in which the controller sent them.
Missing: the results (`C119_never_refuted`). -/
theorem C119_handled_partial {h : Handle σ} (hp : Polite h) (u : σ) {ops1 ops2 : List (NOp σ)} {ms : List Bytes} {n1 n2 : Net σ} {c : MCall} {s : SCall}
    (h1 : n1 = run h (start u) ops1) (h2 : n2 = run h n1 (.ctl (.multi ms) :: ops2)) (ho : Open (ops1 ++ .ctl (.multi ms) :: ops2))
    (hdi : Distinct h (start u) (ops1 ++ .ctl (.multi ms) :: ops2)) (hpl : ∀ m ∈ asked n2, Plain m) (hol : OwnLong (ops1 ++ .ctl (.multi ms) :: ops2))
    (hth : n2.ctl.threads[n1.ctl.threads.length]? = some (.multi c)) (hb : c.pc = .barrier s) (hr : AtRest n2) :
    (∀ m ∈ ms, m ∈ n2.log.map (·.1)) ∧ n2.log.map (·.1) = asked n2 := by
  have e2 : n2 = run h (start u) (ops1 ++ .ctl (.multi ms) :: ops2) := by rw [run_append, ← h1, h2]
  have hi : NetInv n2 := e2 ▸ netInv_run hp (netInv_start u) _ (e2 ▸ hpl) hol
  have hask : asked n2 = n2.log.map (·.1) := by rw [hi.asked, hr.1, List.append_nil]
  refine ⟨?_, hask.symm⟩
  have c1 : n1.ctl = syncRun (freshSync (some 4)) (ctlOps h (start u) ops1) := by rw [h1]; exact run_ctl h (start u) ops1
  have c2 : n2.ctl = syncRun n1.ctl (.multi ms :: ctlOps h (step h n1 (.ctl (.multi ms))) ops2) := by rw [h2]; exact run_ctl h n1 _
  have hnc : NoClose (ctlOps h (start u) ops1 ++ .multi ms :: ctlOps h (step h n1 (.ctl (.multi ms))) ops2) := by
    have := ctlOps_open h (start u) ho
    rw [ctlOps_append, ← h1] at this
    exact this
  have hdr : DistinctRun (freshSync (some 4)) (ctlOps h (start u) ops1 ++ .multi ms :: ctlOps h (step h n1 (.ctl (.multi ms))) ops2) := by
    have := distinct_ctl hdi
    rw [ctlOps_append, ← h1] at this
    exact this
  have hr1 : RunInv n1.ctl := c1 ▸ runInv_fresh (some 4) _
  have ha1 : Alive n1.ctl := c1 ▸ alive_run (alive_fresh (some 4)) _ (noClose_append hnc).1
  obtain ⟨hd1, hd2⟩ := distinctRun_append hdr
  rw [← c1] at hd2
  have hb1 : BoundInv n1.ctl := c1 ▸ bound_run (bound_fresh (some 4)) _ hd1
  have hnew : (syncOp n1.ctl (.multi ms)).threads[n1.ctl.threads.length]? = some (.multi ⟨ms, ms, [], [], [], 0, 0, [], .next⟩) := by
    simp [syncOp]
  have hinit : MultiB (syncOp n1.ctl (.multi ms)) n1.ctl.rx.length ⟨ms, ms, [], [], [], 0, 0, [], .next⟩ :=
    ⟨[], [], by simp, .nil, rfl, rfl⟩
  have hs := runInv_step hr1 (.multi ms)
  obtain ⟨c', k1, k2, k3⟩ := multiB_run hs.1 (alive_step ha1 _ (by simp)) (bound_step _ hb1 hd2.1 (distinctRun_head hd2.2))
    (by simp [syncOp]) hnew hinit _ (fun o ho => hnc o (by simp [ho])) hd2.2
  have c2' : n2.ctl = syncRun (syncOp n1.ctl (.multi ms)) (ctlOps h (step h n1 (.ctl (.multi ms))) ops2) := c2
  rw [← c2'] at k1 k3
  rw [hth] at k1; injection k1 with k1; injection k1 with k1; subst k1
  obtain ⟨dt, dp, q1, q2, q3⟩ := k3
  simp only [Stage, hb] at q3
  obtain ⟨rfl, _, q4, _⟩ := q3
  rw [k2, q4] at q1
  simp only [List.nil_append, List.append_nil] at q1
  subst q1
  intro m hm
  rw [← hask]
  have key : ∀ {dp : List Bytes} {pr : List (Nat × Nat)}, List.Forall₂ (Slot n2.ctl n1.ctl.rx.length (pending c)) dp pr → ∀ m ∈ dp, m ∈ asked n2 := by
    intro dp pr hf
    induction hf with
    | nil => intro m hm; simp at hm
    | cons hx _ ih =>
      intro m hm
      rcases List.mem_cons.1 hm with rfl | hm
      · obtain ⟨_, tr, _, _, _, _, hx⟩ := hx
        rcases hx with ⟨k, g, _⟩ | g
        · exact List.mem_map.2 ⟨_, g, rfl⟩
        · simp [pending, hb] at g
      · exact ih m hm
  exact key q2 m hm

/-! ### Examples -/

/-- `multi` with two messages to the example switch: both are handled, the first is answered, the barrier is not. -/
def exMultiRun : List (NOp Unit) := [.ctl (.multi [askFeatures, [4, 9, 0, 12, 0, 0, 0, 8, 0, 0, 0, 128]]), moves 0, moves 0, moves 0, moves 0,
  .ctl (.thread 0 ⟨true, false, 99⟩), moves 0, .switch 0, .switch 0, .switch 0] ++ arrives

example : ∃ c s, (run (exHandle 0) (start ()) exMultiRun).ctl.threads[0]? = some (.multi c) ∧ c.pc = .barrier s ∧ s.pc = .waiting ∧
    AtRest (run (exHandle 0) (start ()) exMultiRun) ∧ (run (exHandle 0) (start ()) exMultiRun).alive = true ∧
    Open exMultiRun ∧ Distinct (exHandle 0) (start ()) exMultiRun ∧ (∀ m ∈ asked (run (exHandle 0) (start ()) exMultiRun), Plain m) ∧
    OwnLong exMultiRun := by
  have e : asked (run (exHandle 0) (start ()) exMultiRun) = [askFeatures, [4, 9, 0, 12, 0, 0, 0, 8, 0, 0, 0, 128], [4, 20, 0, 8, 0, 0, 0, 99]] := by
    decide +kernel
  refine ⟨⟨[askFeatures, [4, 9, 0, 12, 0, 0, 0, 8, 0, 0, 0, 128]], [], [(7, 0), (8, 1)], [], [], 99, 2, [4, 9, 0, 12, 0, 0, 0, 8, 0, 0, 0, 128],
      .barrier ⟨99, 2, .waiting, false, [4, 20, 0, 8, 0, 0, 0, 99]⟩⟩, ⟨99, 2, .waiting, false, [4, 20, 0, 8, 0, 0, 0, 99]⟩, by decide +kernel, rfl, rfl,
    ⟨by decide +kernel, by decide +kernel, by decide +kernel⟩, by decide +kernel, by unfold Open exMultiRun arrives moves; simp,
    distinct_of_check (by decide +kernel), ?_, by unfold OwnLong exMultiRun arrives moves; simp⟩
  rw [e]
  intro m hm
  simp only [List.mem_cons, List.not_mem_nil, or_false] at hm
  rcases hm with rfl | rfl | rfl <;> exact ⟨⟨by decide, by decide⟩, by decide⟩

/-- The barrier times out: `multi` raises ChannelClose and its record of the first message, with the reply in it, stays registered. -/
example : ∃ c, (run (exHandle 0) (start ()) (exMultiRun ++ [.ctl (.thread 0 timedOut), moves 0, moves 0, moves 0])).ctl.threads[0]? = some (.multi c) ∧
    c.pc = .failed .channelClose ∧
    trackerData (run (exHandle 0) (start ()) (exMultiRun ++ [.ctl (.thread 0 timedOut), moves 0, moves 0, moves 0])).ctl 0 = (answer askFeatures).head? ∧
    (run (exHandle 0) (start ()) (exMultiRun ++ [.ctl (.thread 0 timedOut), moves 0, moves 0, moves 0])).ctl.syncs 7 = some 0 :=
  ⟨⟨[askFeatures, [4, 9, 0, 12, 0, 0, 0, 8, 0, 0, 0, 128]], [], [(7, 0), (8, 1)], [], [], 99, 2, [4, 9, 0, 12, 0, 0, 0, 8, 0, 0, 0, 128],
    .failed .channelClose⟩, by decide +kernel, rfl, by decide +kernel, by decide +kernel⟩

end Twink.Wired
