import Verif.Proof.Hub

/-! C90, C91: the switching hub of test/example_controller_switchinghub.py. -/

namespace Twink.Hub

/-- From the ports of the switch: HELLO is handled. -/
def ready (ports : List Nat) : List Event := List.replicate 5 (.setup ports)

def exHost : Bytes := [2, 0, 0, 0, 0, 1]
def exPeer : Bytes := [2, 0, 0, 0, 0, 2]

/-- A frame of the host to the peer, and back. -/
def exFrom (p : Nat) : Frame := ⟨exPeer, exHost, [8, 0], p⟩
def exTo (p : Nat) : Frame := ⟨exHost, exPeer, [8, 0], p⟩

/-! ## C90: where frames go -/

/-- No frame goes back to the port it came from. -/
theorem C90_back (s : Hub) (f : Frame) : f.inPort ∉ s.out f := by
  have h1 : f.inPort ∉ s.flood f := by
    unfold Hub.flood
    split
    · simp
    · simp
  have h2 : f.inPort ∉ s.table1 f := by
    unfold Hub.table1
    split
    · exact h1
    · split
      · split
        · simp
        · rename_i hh; simpa using Ne.symm hh
      · split
        · exact h1
        · simp
  unfold Hub.out
  split
  · exact h2
  · split
    · exact h2
    · simp

/-- Once the tables are set up, in whatever order frames, threads and timeouts follow: a frame to a group address goes to all other ports of the group; one to a
host goes to all other ports, or to just one port where the host has been seen. -/
theorem C90_out (l : List Event) (h6 : ∀ e ∈ l, e.Six) (f : Frame) (hs : 4 ≤ (start.run l).stage) :
    (start.run l).out f = (start.run l).group.filter (· ≠ f.inPort) ∨
      (multicast f.dst = false ∧ ∃ p, SeenAt l f.dst p ∧ (start.run l).out f = [p].filter (· ≠ f.inPort)) := by
  have ht := true0 l h6
  generalize start.run l = s at *
  have ho : s.out f = s.table1 f := by
    unfold Hub.out
    rw [if_pos (by omega : 2 ≤ s.stage)]
    split <;> rfl
  have hf : s.flood f = s.group.filter (· ≠ f.inPort) := by
    rw [Hub.flood, if_neg (by omega)]
  rw [ho]
  unfold Hub.table1
  by_cases hm : multicast f.dst = true
  · rw [if_pos ⟨by omega, hm⟩]
    exact .inl hf
  · rw [if_neg (fun hh => hm hh.2)]
    split
    · rename_i p hp
      refine .inr ⟨by simpa using hm, p, ht.t1 _ (lookup_mem hp), ?_⟩
      by_cases c : p = f.inPort <;> simp [c]
    · rw [if_pos hs]
      exact .inl hf

example : (∀ e ∈ ready [1, 2, 3] ++ [.frame (exFrom 1), .step 0, .step 0, .step 0], e.Six) ∧ 4 ≤ (start.run (ready [1, 2, 3] ++ [.frame (exFrom 1), .step 0, .step 0, .step 0])).stage ∧
    (start.run (ready [1, 2, 3])).out (exTo 2) = [1, 3] ∧ (start.run (ready [1, 2, 3] ++ [.frame (exFrom 1), .step 0, .step 0, .step 0])).out (exTo 2) = [1] := by
  refine ⟨?_, by decide, by decide, by decide⟩
  intro e he
  simp [ready] at he
  rcases he with rfl | rfl | rfl <;> simp [Event.Six, exFrom, exPeer, exHost]

/-- A host that keeps to one port of the group gets every frame for it, whatever threads and timeouts do. -/
theorem C90_reach (l : List Event) (h6 : ∀ e ∈ l, e.Six) (f : Frame) (hs : 4 ≤ (start.run l).stage) (p : Nat)
    (hp : ∀ ports, portsAtHello l = some ports → p ∈ ports) (ho : ∀ q, SeenAt l f.dst q → q = p) (hf : f.inPort ≠ p) : p ∈ (start.run l).out f := by
  have hp := hp _ (group_ports l start rfl (by omega))
  rcases C90_out l h6 f hs with h | ⟨_, q, hq, h⟩
  · rw [h, List.mem_filter]
    exact ⟨hp, by simpa using Ne.symm hf⟩
  · rw [h, ho q hq]
    simp [Ne.symm hf]

example : ∀ q, SeenAt (ready [1, 2, 3] ++ [.frame (exFrom 1), .step 0, .step 0, .step 0]) (exTo 2).dst q → q = 1 := by
  rintro q ⟨f, hf, _, rfl⟩
  simp [ready] at hf
  rw [hf]; rfl

/-- The group has the ports of the switch at the time of HELLO, and no others later. -/
theorem C90_group (l : List Event) (hs : 1 ≤ (start.run l).stage) : portsAtHello l = some (start.run l).group := group_ports l start rfl hs

example : portsAtHello (.idle1 exHost :: ready [1, 2] ++ [.setup [1, 2, 3]]) = some [1, 2] := by decide

/-- Full statement: every port of the switch. A port that is not among those which the switch had when HELLO was handled gets no frame for a host that has not
been seen there. -/
theorem C90_newport_refuted (l : List Event) (h6 : ∀ e ∈ l, e.Six) (f : Frame) (hs : 4 ≤ (start.run l).stage) (p : Nat)
    (hp : ∀ ports, portsAtHello l = some ports → p ∉ ports) (ho : ¬ SeenAt l f.dst p) : p ∉ (start.run l).out f := by
  have hp := hp _ (C90_group l (by omega))
  rcases C90_out l h6 f hs with h | ⟨_, q, hq, h⟩
  · rw [h, List.mem_filter]
    exact fun hh => hp hh.1
  · rw [h, List.mem_filter]
    rintro ⟨hh, _⟩
    rw [List.mem_singleton] at hh
    exact ho (hh ▸ hq)

example : 4 ≤ (start.run (ready [1, 2] ++ [.setup [1, 2, 3]])).stage ∧ (start.run (ready [1, 2] ++ [.setup [1, 2, 3]])).out (exTo 1) = [2] := by decide

/-- Whatever has been learnt, a frame whose destination is a group address (least bit of the first byte set) goes to all other ports of the group. -/
theorem C90_multicast (s : Hub) (hs : 3 ≤ s.stage) (f : Frame) (b : UInt8) (r : Bytes) (hd : f.dst = b :: r) (hb : b.toNat % 2 = 1) :
    s.out f = s.group.filter (· ≠ f.inPort) := by
  have ho : s.out f = s.table1 f := by
    unfold Hub.out
    rw [if_pos (by omega : 2 ≤ s.stage)]
    split <;> rfl
  rw [ho, Hub.table1, if_pos ⟨hs, by simp [multicast, hd, hb]⟩, Hub.flood, if_neg (by omega)]

example : (start.run (ready [1, 2, 3] ++ [.frame (exFrom 1), .step 0, .step 0, .step 0])).out ⟨[255, 255, 255, 255, 255, 255], exPeer, [8, 6], 2⟩ = [1, 3] := by decide

/-- How many calls of `handle` are done. -/
def calls : List Event → Nat
  | [] => 0
  | .setup _ :: l => calls l + 1
  | _ :: l => calls l

theorem before_run (l : List Event) (s : Hub) (h : s.t0 = [] ∧ s.t1 = [] ∧ s.tasks = []) (hk : s.stage + calls l ≤ 4) :
    (s.run l).stage = s.stage + calls l ∧ (s.run l).t0 = [] ∧ (s.run l).t1 = [] ∧ (s.run l).tasks = [] := by
  induction l generalizing s with
  | nil => exact ⟨rfl, h⟩
  | cons e l ih =>
    obtain ⟨h1, h2, h3⟩ := h
    cases e with
    | setup ports =>
      simp only [calls] at hk ⊢
      have hst : (s.next (.setup ports)).stage = s.stage + 1 := by
        simp only [Hub.next, Hub.setup]
        split <;> simp_all <;> omega
      have hr : (s.next (.setup ports)).t0 = [] ∧ (s.next (.setup ports)).t1 = [] ∧ (s.next (.setup ports)).tasks = [] := by
        simp only [Hub.next, Hub.setup]
        split <;> simp_all
      have := ih (s.next (.setup ports)) hr (by omega)
      rw [hst] at this
      exact ⟨by rw [show s.run (.setup ports :: l) = (s.next (.setup ports)).run l from rfl, this.1]; omega, this.2⟩
    | frame f =>
      have hn : s.next (.frame f) = s := by
        simp only [Hub.next, Hub.frame, h1]
        rw [if_neg (by simp), if_neg (by omega)]
      have := ih s ⟨h1, h2, h3⟩ hk
      rw [show s.run (_ :: l) = (s.next _).run l from rfl, hn]
      exact this
    | step i =>
      have hn : s.next (.step i) = s := by simp [Hub.next, Hub.step, h3]
      have := ih s ⟨h1, h2, h3⟩ hk
      rw [show s.run (_ :: l) = (s.next _).run l from rfl, hn]
      exact this
    | idle0 mac port =>
      have hn : s.next (.idle0 mac port) = s := by
        simp only [Hub.next, h1, List.filter_nil]; cases s; simp_all
      have := ih s ⟨h1, h2, h3⟩ hk
      rw [show s.run (_ :: l) = (s.next _).run l from rfl, hn]
      exact this
    | idle1 mac =>
      have hn : s.next (.idle1 mac) = s := by
        simp only [Hub.next, h2, List.filter_nil]; cases s; simp_all
      have := ih s ⟨h1, h2, h3⟩ hk
      rw [show s.run (_ :: l) = (s.next _).run l from rfl, hn]
      exact this

/-- While the tables are being set up nothing is learnt. Frames are dropped until the first entry of table 1 is there; then those to group addresses go
to all other ports of the group, and after the last entry all frames do. -/
theorem C90_before (l : List Event) (hk : calls l ≤ 4) (f : Frame) :
    (start.run l).tasks = [] ∧
    (calls l = 4 ∨ (calls l = 3 ∧ ∃ b r, f.dst = b :: r ∧ b.toNat % 2 = 1) → (start.run l).out f = (start.run l).group.filter (· ≠ f.inPort)) ∧
    (¬ (calls l = 4 ∨ (calls l = 3 ∧ ∃ b r, f.dst = b :: r ∧ b.toNat % 2 = 1)) → (start.run l).out f = []) := by
  obtain ⟨h1, h2, h3, h4⟩ := before_run l start ⟨rfl, rfl, rfl⟩ (by simpa [start] using hk)
  refine ⟨h4, ?_⟩
  have h1 : (start.run l).stage = calls l := by rw [h1]; simp [start]
  generalize start.run l = s at *
  have hm : multicast f.dst = true ↔ ∃ b r, f.dst = b :: r ∧ b.toNat % 2 = 1 := by
    unfold multicast
    split
    · rename_i b r hb; simp [hb]
    · rename_i hb; simp [hb]
  rw [← h1] at hk ⊢
  rw [← hm]
  simp only [Hub.out, h2, List.not_mem_nil, if_false, Hub.table1, h3, List.lookup_nil, Hub.flood]
  by_cases a4 : s.stage = 4
  · simp [a4]
  · by_cases a3 : s.stage = 3
    · by_cases hc : multicast f.dst = true
      · simp [a3, hc]
      · simp [a3, hc]
    · have hlt : s.stage < 3 := by omega
      simp [a4, a3, show ¬ 3 ≤ s.stage by omega, show ¬ 4 ≤ s.stage by omega]

example : calls (List.replicate 3 (.setup [1, 2, 3])) = 3 ∧ (start.run (List.replicate 3 (.setup [1, 2, 3]))).out (exTo 2) = [] ∧
    (start.run (List.replicate 4 (.setup [1, 2, 3]))).out (exTo 2) = [1, 3] := by decide

/-! ## C91: a host is found where it was last seen -/

/-- Full statement: after any frame of a host at a port, once no thread is at work for the host, and as long as its entries do not expire, frames for it go to
that port. Proved if the host has not been known at that port before, no thread was at work for it when the frame came, and it stays there. -/
theorem C91_partial (s : Hub) (hs : 5 ≤ s.stage) (f : Frame) (hf : f.dst.length = 6 ∧ f.src.length = 6) (hn : (f.src, f.inPort) ∉ s.t0)
    (hq : ∀ t ∈ s.tasks, t.mac ≠ f.src)
    (l : List Event) (h6 : ∀ e ∈ l, e.Six) (ho : Only f.src f.inPort l) (h1 : Event.idle1 f.src ∉ l)
    (hdone : ∀ t ∈ (s.run (.frame f :: l)).tasks, t.mac ≠ f.src)
    (g : Frame) (hg : g.dst = f.src) (hu : multicast g.dst = false) (hin : g.inPort ≠ f.inPort) :
    (s.run (.frame f :: l)).out g = [f.inPort] := by
  have h0 : Learning f.src f.inPort (s.next (.frame f)) := by
    have : s.next (.frame f) = { s with tasks := s.tasks ++ [⟨f.src, f.inPort, 0⟩] } := by
      simp only [Hub.next, Hub.frame, if_neg hn, if_pos hs, src_six hf]
    rw [this]
    refine ⟨?_, .inr ⟨_, List.mem_append_right _ (List.mem_singleton.2 rfl), rfl, by simp⟩⟩
    intro t ht hm
    rw [List.mem_append, List.mem_singleton] at ht
    rcases ht with ht | rfl
    · exact absurd hm (hq t ht)
    · rfl
  have h2 := learning_run l h0 h6 ho h1
  have hst : 5 ≤ (s.run (.frame f :: l)).stage := Nat.le_trans hs (stage_run s _)
  have h3 : (s.run (.frame f :: l)).t1.lookup f.src = some f.inPort := by
    rcases h2.got with h | ⟨t, a, b, _⟩
    · exact h
    · exact absurd b (hdone t a)
  generalize s.run (.frame f :: l) = s' at *
  have ho' : s'.out g = s'.table1 g := by
    unfold Hub.out
    rw [if_pos (by omega : 2 ≤ s'.stage)]
    split <;> rfl
  rw [ho']
  unfold Hub.table1
  rw [if_neg (fun hh => by rw [hu] at hh; exact absurd hh.2 (by decide)), hg, h3]
  simp [Ne.symm hin]

example : 5 ≤ (start.run (ready [1, 2, 3])).stage ∧ ((exFrom 1).src, (exFrom 1).inPort) ∉ (start.run (ready [1, 2, 3])).t0 ∧
    (∀ t ∈ ((start.run (ready [1, 2, 3])).run (.frame (exFrom 1) :: [.step 0, .step 0, .step 0])).tasks, t.mac ≠ (exFrom 1).src) ∧ multicast (exTo 2).dst = false := by
  decide

/-- The host goes to port 2 and comes back to port 1. -/
def exReturn : List Event :=
  ready [1, 2, 3] ++ [.frame (exFrom 1), .step 0, .step 0, .step 0, .frame (exFrom 2), .step 0, .step 0, .step 0, .frame (exFrom 1)]

/-- The host goes to port 2 while the thread of its frame from port 1 is still at work. -/
def exRace : List Event :=
  ready [1, 2, 3] ++ [.frame (exFrom 1), .frame (exFrom 2), .step 1, .step 1, .step 1, .step 0, .step 0, .step 0]

/-- What is in table 1 for a host stays there, as long as table 0 knows the host at its port and no thread is at work: the host may send as
many frames as it likes. Frames for it go to the wrong port. -/
theorem C91_stale_refuted (s : Hub) (hs : 5 ≤ s.stage) (h : Bytes) (p q : Nat) (hp : (h, p) ∈ s.t0) (hq : s.t1.lookup h = some q) (ht : ∀ t ∈ s.tasks, t.mac ≠ h)
    (l : List Event) (h6 : ∀ e ∈ l, e.Six) (ho : Only h p l) (h0 : Event.idle0 h p ∉ l) (h1 : Event.idle1 h ∉ l)
    (g : Frame) (hg : g.dst = h) (hu : multicast g.dst = false) : (s.run l).out g = [q].filter (· ≠ g.inPort) := by
  have h2 := stuck_run l ⟨hp, ht, hq⟩ h6 ho h0 h1
  have hst : 5 ≤ (s.run l).stage := Nat.le_trans hs (stage_run s _)
  generalize s.run l = s' at *
  have ho' : s'.out g = s'.table1 g := by
    unfold Hub.out
    rw [if_pos (by omega : 2 ≤ s'.stage)]
    split <;> rfl
  rw [ho']
  unfold Hub.table1
  rw [if_neg (fun hh => by rw [hu] at hh; exact absurd hh.2 (by decide)), hg, h2.has]
  by_cases c : q = g.inPort <;> simp [c]

/-- Both ways lead there: in the end the host has last been seen at port 1 (port 2), no thread is at work, and frames go to port 2 (port 1). -/
theorem C91_moved_refuted :
    (5 ≤ (start.run exReturn).stage ∧ (exHost, 1) ∈ (start.run exReturn).t0 ∧ (start.run exReturn).tasks = [] ∧ (start.run exReturn).t1.lookup exHost = some 2 ∧
      (start.run exReturn).out (exTo 3) = [2]) ∧
    (5 ≤ (start.run exRace).stage ∧ (exHost, 2) ∈ (start.run exRace).t0 ∧ (start.run exRace).tasks = [] ∧ (start.run exRace).t1.lookup exHost = some 1 ∧
      (start.run exRace).out (exTo 3) = [1]) := by decide

/-- The entries of the two tables expire on their own. If that of table 1 has gone and that of table 0 is still there, because the host keeps sending, the host is not
learnt again: frames for it go to all ports. -/
theorem C91_forgotten_refuted (s : Hub) (hs : 5 ≤ s.stage) (h : Bytes) (p : Nat) (hp : (h, p) ∈ s.t0) (ht : ∀ t ∈ s.tasks, t.mac ≠ h)
    (l : List Event) (h6 : ∀ e ∈ l, e.Six) (ho : Only h p l) (h0 : Event.idle0 h p ∉ l) (h1 : Event.idle1 h ∉ l)
    (g : Frame) (hg : g.dst = h) (hu : multicast g.dst = false) :
    (s.run (.idle1 h :: l)).out g = (s.run (.idle1 h :: l)).group.filter (· ≠ g.inPort) := by
  have hnone : (s.next (.idle1 h)).t1.lookup h = none := by
    show List.lookup h (s.t1.filter (·.1 ≠ h)) = none
    rw [List.lookup_eq_none_iff]
    intro x hx
    have := (List.mem_filter.1 hx).2
    simp only [ne_eq, decide_not, Bool.not_eq_true', decide_eq_false_iff_not] at this
    rw [bne_iff_ne]
    exact fun hh => this hh.symm
  have h2 := stuck_run l (s := s.next (.idle1 h)) ⟨hp, ht, hnone⟩ h6 ho h0 h1
  have hst : 5 ≤ (s.run (.idle1 h :: l)).stage := Nat.le_trans hs (stage_run s _)
  have h2 : Stuck h p none (s.run (.idle1 h :: l)) := h2
  generalize s.run (.idle1 h :: l) = s' at *
  have ho' : s'.out g = s'.table1 g := by
    unfold Hub.out
    rw [if_pos (by omega : 2 ≤ s'.stage)]
    split <;> rfl
  rw [ho']
  unfold Hub.table1
  rw [if_neg (fun hh => by rw [hu] at hh; exact absurd hh.2 (by decide)), hg, h2.has, if_pos (by omega : 4 ≤ s'.stage), Hub.flood, if_neg (by omega)]

example : (exHost, 1) ∈ (start.run (ready [1, 2, 3] ++ [.frame (exFrom 1), .step 0, .step 0, .step 0])).t0 ∧
    (start.run (ready [1, 2, 3] ++ [.frame (exFrom 1), .step 0, .step 0, .step 0, .idle1 exHost, .frame (exFrom 1), .frame (exFrom 1)])).out (exTo 2) = [1, 3] := by decide

end Twink.Hub
