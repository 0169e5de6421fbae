import Verif.Proof.BessSide

/-!
# C115: the workers of the datapath are not left stopped
-/

namespace Twink.BessSide

/-- A state of the switch with nothing added yet. -/
def exSt : Agent.St := Agent.start (some 0) (some 1)

/-- A daemon as the main program leaves it. -/
def exBess : Bess :=
  ⟨true, [dpif, pkt vxlan, pkt dpif], [⟨true, pi dpif, pkt dpif⟩, ⟨false, po dpif, dpif⟩], [(pi dpif, po dpif)],
    [(0, pkt vxlan), (1, pkt dpif)], 2⟩

/-- The device "v1" and the text of its address. -/
def exDev : Name := [118, 49]
def exMac : Bytes := [48, 49, 48, 50, 48, 51, 48, 52, 48, 53, 48, 54]

/-- The dictionary in its own order. -/
def exOrder : Agent.Order := ⟨fun l => l, fun _ => .rfl⟩

/-- C115, `init_pktinout_port`: exactly when it raises after the workers have been paused, it leaves them stopped. -/
theorem C115_exact_init (b : Bess) (ans : List (Option Exn)) (n : Name) (hr : b.running = true) :
    (initPkt ⟨b, ans, []⟩ n).1.bess.running = false ↔
      (∃ e, (initPkt ⟨b, ans, []⟩ n).2 = .error e) ∧ (Call.pauseAll, none) ∈ (initPkt ⟨b, ans, []⟩ n).1.log := by
  rcases init_states (w := ⟨b, ans, []⟩) ⟨hr, by simp⟩ (by simp) n with ⟨⟨h1, h2, -⟩, h3, -⟩ | ⟨⟨h1, -⟩, s, h2⟩ | ⟨h1, h2⟩
  · simp [h1, h2, h3]
  · simp [h1, h2]
  · simp [h1, h2]

/-- Both sides hold when a module cannot be created. -/
example : (initPkt ⟨exBess, [none, none, none, some .api], []⟩ exDev).1.bess.running = false ∧
    (initPkt ⟨exBess, [none, none, none, some .api], []⟩ exDev).2 = .error .api := by decide

/-- C115, `deinit_pktinout_port`: likewise. -/
theorem C115_exact_deinit (b : Bess) (ans : List (Option Exn)) (n : Name) (hr : b.running = true) :
    (deinitPkt ⟨b, ans, []⟩ n).1.bess.running = false ↔
      (∃ e, (deinitPkt ⟨b, ans, []⟩ n).2 = some e) ∧ (Call.pauseAll, none) ∈ (deinitPkt ⟨b, ans, []⟩ n).1.log := by
  rcases deinit_states (w := ⟨b, ans, []⟩) ⟨hr, by simp⟩ (by simp) n with ⟨⟨h1, h2, -⟩, h3, -⟩ | ⟨⟨h1, -⟩, h2⟩ | ⟨h1, h2⟩
  · simp [h1, h2, h3]
  · simp [h1, h2]
  · simp [h1, h2]

/-- Both sides hold when the connection breaks, and fail to hold when the daemon refuses. -/
example : (deinitPkt ⟨exBess, [none, some .sock], []⟩ dpif).1.bess.running = false ∧
    (deinitPkt ⟨exBess, [none, some .api], []⟩ dpif).1.bess.running = true := by decide

/-- C115, any event: the workers are stopped afterwards exactly when they were paused and not resumed. -/
theorem C115_exact (b : Bess) (st : Agent.St) (a : Act) (hr : b.running = true) :
    (act b st a).1.bess.running = false ↔
      (Call.pauseAll, none) ∈ (act b st a).1.log ∧ (Call.resumeAll, none) ∉ (act b st a).1.log := by
  rcases act_states b hr st a with ⟨⟨h1, h2, h3⟩, -⟩ | ⟨h1, h2, h3⟩ | ⟨h1, h2⟩
  · simp [h1, h2, h3]
  · simp [h1, h3]
  · simp [h1, h2]

/-- C115 with the failures that are handled: after any history in which only these occur, the workers run.
Missing: a module that cannot be created or connected, workers that cannot be resumed, exceptions of other kinds
(`C115_refuted`). -/
theorem C115_partial : ∀ (as : List Act) (b : Bess) (st : Agent.St), b.running = true →
    (∀ x ∈ calls b st as, Handled x) → (after b st as).1.running = true
  | [], _, _, hr, _ => hr
  | a :: as, b, st, hr, h => by
    simp only [calls, List.mem_append] at h
    refine C115_partial as _ _ ?_ (fun x hx => h x (.inr hx))
    rcases act_states b hr st a with ⟨-, x, hx, hn⟩ | ⟨h1, -⟩ | ⟨h1, -⟩
    · exact absurd (h x (.inl hx)) hn
    · exact h1
    · exact h1

/-- A history with failures that are handled: the socket cannot be connected, and a module cannot be destroyed. -/
example : let as := [Act.add 0 exDev exMac [none, none, none, some .sock], .del exOrder 0 dpif [none, none, some .api]]
    (∀ x ∈ calls exBess exSt as, Handled x) ∧ (calls exBess exSt as).length = 10 ∧ (after exBess exSt as).1.running = true := by
  refine ⟨?_, by decide +kernel, by decide +kernel⟩
  have : calls exBess exSt [Act.add 0 exDev exMac [none, none, none, some .sock], .del exOrder 0 dpif [none, none, some .api]] =
    [(.createPort exDev, none), (.pauseAll, none), (.createPort (pkt exDev), none), (.connectSocket (pkt exDev), some .sock),
     (.resumeAll, none), (.pauseAll, none), (.disconnect (pi dpif), none), (.destroyModule (pi dpif), some .api),
     (.resumeAll, none), (.destroyPort dpif, some .api)] := by decide +kernel
  rw [this]
  simp [Handled]

/-- C115 is false: when a module cannot be created, `add_port` raises and leaves the workers stopped; the device is there but not
listed. -/
theorem C115_refuted : ∃ (b : Bess) (st : Agent.St) (a : Act), b.running = true ∧ (act b st a).1.bess.running = false ∧
    (act b st a).2.ports = st.ports ∧ exDev ∈ (act b st a).1.bess.ports :=
  ⟨exBess, exSt, .add 0 exDev exMac [none, none, none, none, some .api], by decide +kernel, by decide +kernel, by decide +kernel,
    by decide +kernel⟩

/-- After that, no further calls about this device start the workers again: adding it raises at once, as the device is there, and
deleting it finds nothing. -/
theorem C115_stuck (dev : Name) : ∀ (as : List Act) (b : Bess) (st : Agent.St), b.running = false → dev ∈ b.ports →
    (∀ e ∈ st.ports, e.2.desc.name ≠ .str dev) → (∀ a ∈ as, Only dev a) →
    (after b st as).1 = b
  | [], _, _, _, _, _, _ => rfl
  | a :: as, b, st, hr, hd, hl, h => by
    have h1 : (act b st a).1.bess = b ∧ (act b st a).2.ports = st.ports := by
      have ha := h a (by simp)
      cases a with
      | msg o rnd m =>
        simp only [act]
        split
        · rename_i st' es he
          exact ⟨rfl, (Agent.switchProc_keeps he).1⟩
        · exact ⟨rfl, rfl⟩
      | add rnd d mac ans =>
        obtain rfl : d = dev := ha
        simp only [act, addPort]
        by_cases hn : st.lastNo + 1 = 0xfffffffe
        · rw [if_pos hn]; simp [Agent.addPort, hn]
        rw [if_neg hn]
        have : ∃ w e, call ⟨b, ans, []⟩ (.createPort d) = (w, some e) ∧ w.bess = b := by
          rcases call_spec ⟨b, ans, []⟩ (.createPort d) with ⟨e, hw⟩ | ⟨hp, hw⟩
          · exact ⟨_, _, hw, rfl⟩
          · simp [possible, hd] at hp
        obtain ⟨w, e, hw, hb⟩ := this
        rw [hw]
        refine ⟨hb, ?_⟩
        simp [Agent.addPort, hn]
      | del o rnd d ans =>
        obtain rfl : d = dev := ha
        have hf : (o.items st.ports).find? (fun p => p.2.desc.name = .str d) = none := by
          rw [List.find?_eq_none]
          intro x hx
          simpa using hl x ((o.perm _).mem_iff.1 hx)
        simp only [act, delPort, hf, Agent.delPort]
        exact ⟨trivial, trivial⟩
    simp only [after]
    rw [h1.1]
    refine C115_stuck dev as b _ hr hd ?_ (fun a' h' => h a' (by simp [h']))
    rw [h1.2]; exact hl

/-- The state that `C115_refuted` leads to is such a state. -/
example : let r := act exBess exSt (.add 0 exDev exMac [none, none, none, none, some .api])
    r.1.bess.running = false ∧ exDev ∈ r.1.bess.ports ∧ ∀ e ∈ r.2.ports, e.2.desc.name ≠ .str exDev := by decide +kernel

end Twink.BessSide
