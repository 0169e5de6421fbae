import Verif.Props.PortsCall

/-!
# C28: the port list when the switch contradicts itself
-/

namespace Twink
open Spec

/-- A well-formed message: a PORT_STATUS with fields of the sizes that version `v` prescribes, or one without ports. -/
def Spec.Incoming.Formed (v : Nat) (asked : Nat → Prop) : Incoming → Prop
  | .event e xid => xid < 4294967296 ∧ e.port.Wf v
  | .other m => Unrelated v asked m

/-- The ports of a switch as an observer sees them that overlooks the events that contradict what was seen before. -/
inductive Observed (v : Nat) (asked : Nat → Prop) : SwPorts → List Incoming → SwPorts → Prop
  | nil (M : SwPorts) : Observed v asked M [] M
  | event {M M' : SwPorts} {is : List Incoming} (e : PortEv) (xid : Nat) (ha : e.Allowed M) (h : Observed v asked (e.apply M) is M') :
      Observed v asked M (.event e xid :: is) M'
  | overlook {M M' : SwPorts} {is : List Incoming} (e : PortEv) (xid : Nat) (ha : ¬ e.Allowed M) (h : Observed v asked M is M') :
      Observed v asked M (.event e xid :: is) M'
  | other {M M' : SwPorts} {is : List Incoming} (m : Bytes) (h : Observed v asked M is M') : Observed v asked M (.other m :: is) M'

/-- The channel receives all the messages; exceptions of `recv` are caught by its user. -/
def portRunOn (s : PortSt) : List Bytes → PortSt
  | [] => s
  | m :: ms => portRunOn (portRecv s m).1 ms

theorem mirrors_has {ports : List PTuple} {M : SwPorts} (h : Mirrors ports M) (n : Nat) : HasPort ports n ↔ M n ≠ none := by
  have h1 := h.1 n
  constructor
  · rintro ⟨t, ht, e⟩ hn
    rw [hn] at h1
    have : ports.filter (fun x => portNo x == .int n) = [] := by
      rw [filter_hit h.2]; exact h1
    rw [List.filter_eq_nil_iff] at this
    exact this t ht (by simp [e])
  · intro hn
    obtain ⟨p, hp⟩ := Option.ne_none_iff_exists'.1 hn
    have : ports.filter (fun x => portNo x == .int n) = [portView p] := by
      rw [filter_hit h.2, h1, hp]; rfl
    have hm : portView p ∈ ports.filter (fun x => portNo x == .int n) := by rw [this]; simp
    rw [List.mem_filter] at hm
    exact ⟨portView p, hm.1, by simpa using hm.2⟩

/-- An event that contradicts the list. -/
theorem recv_contradiction {v : Nat} (hv : V14 v) (s : PortSt) (hs : s.version = v) (hi : s.init = true) {M : SwPorts}
    (hM : Mirrors s.ports M) (e : PortEv) (xid : Nat) (hx : xid < 4294967296) (hw : e.port.Wf v) (ha : ¬ e.Allowed M) :
    portRecv s (portStatus v xid e.reason e.port) = (s, .error .assertion) := by
  refine C29_rejected hv s hs hi xid e.reason hx (by cases e <;> simp [PortEv.reason]) e.port hw ?_
  cases e with
  | add p => exact .inl ⟨rfl, (mirrors_has hM _).2 ha⟩
  | delete p => exact .inr (.inl ⟨rfl, fun h => ha ((mirrors_has hM _).1 h)⟩)
  | modify p => exact .inr (.inr (.inl ⟨rfl, fun h => ha ((mirrors_has hM _).1 h)⟩))

/-- C28 and C29, exactly, for sequences of any well-formed events, correct or not: the channel receives them without an exception if and
only if a correct switch can produce them. -/
theorem C28_exact {v : Nat} (hv : v = 1 ∨ v = 2 ∨ v = 3 ∨ v = 4) (s : PortSt) (hs : s.version = v) (hi : s.init = true) (hq : NoWaiters s)
    {M : SwPorts} (hM : Mirrors s.ports M) (is : List Incoming) (hf : ∀ i ∈ is, i.Formed v fun x => multiGet s.multi x ≠ none) :
    (∃ s', portRun s (is.map (Incoming.bytes v)) = some s') ↔ ∃ M', History v (fun x => multiGet s.multi x ≠ none) M is M' := by
  constructor
  · rintro ⟨s', h⟩
    induction is generalizing s M with
    | nil => exact ⟨M, .nil M⟩
    | cons i is ih =>
      have hi1 := hf i (by simp)
      have hi2 := fun j hj => hf j (List.mem_cons_of_mem i hj)
      simp only [List.map_cons, portRun] at h
      cases i with
      | event e xid =>
        simp only [Incoming.bytes] at h
        by_cases ha : e.Allowed M
        · obtain ⟨ps, hu, hps⟩ := updatePort_mirrors s hq _ hM e ha
          have hr := recv_status hv s hs xid e.reason hi1.1 (by cases e <;> simp [PortEv.reason]) e.port hi1.2
          rw [hu] at hr
          rw [hr] at h
          obtain ⟨M', h'⟩ := ih { s with ports := ps } hs hi hq hps hi2 h
          exact ⟨M', .event e xid hi1.1 hi1.2 ha h'⟩
        · rw [recv_contradiction hv s hs hi hM e xid hi1.1 hi1.2 ha] at h
          cases h
      | other m =>
        simp only [Incoming.bytes] at h
        rw [recv_unrelated s (fun x => multiGet s.multi x ≠ none) (fun _ h => h) m (hs ▸ hi1)] at h
        obtain ⟨M', h'⟩ := ih s hs hi hq hM hi2 h
        exact ⟨M', .other m hi1 h'⟩
  · rintro ⟨M', h⟩
    obtain ⟨ps, h1, _⟩ := history_run hv h s hs hi hq (fun _ h => h) hM
    exact ⟨_, h1⟩

/-- C28 for a user that catches the exceptions and goes on receiving: the list has exactly the ports that an observer sees that overlooks
the contradicting events. -/
theorem C28_observed {v : Nat} (hv : v = 1 ∨ v = 2 ∨ v = 3 ∨ v = 4) (s : PortSt) (hs : s.version = v) (hi : s.init = true) (hq : NoWaiters s)
    {M : SwPorts} (hM : Mirrors s.ports M) (is : List Incoming) (hf : ∀ i ∈ is, i.Formed v fun x => multiGet s.multi x ≠ none) :
    ∃ M', Observed v (fun x => multiGet s.multi x ≠ none) M is M' ∧ Mirrors (portRunOn s (is.map (Incoming.bytes v))).ports M' := by
  induction is generalizing s M with
  | nil => exact ⟨M, .nil M, hM⟩
  | cons i is ih =>
    have hi1 := hf i (by simp)
    have hi2 := fun j hj => hf j (List.mem_cons_of_mem i hj)
    simp only [List.map_cons, portRunOn]
    cases i with
    | event e xid =>
      simp only [Incoming.bytes]
      by_cases ha : e.Allowed M
      · obtain ⟨ps, hu, hps⟩ := updatePort_mirrors s hq _ hM e ha
        have hr := recv_status hv s hs xid e.reason hi1.1 (by cases e <;> simp [PortEv.reason]) e.port hi1.2
        rw [hu] at hr
        rw [hr]
        obtain ⟨M', h1, h2⟩ := ih { s with ports := ps } hs hi hq hps hi2
        exact ⟨M', .event e xid ha h1, h2⟩
      · rw [recv_contradiction hv s hs hi hM e xid hi1.1 hi1.2 ha]
        obtain ⟨M', h1, h2⟩ := ih s hs hi hq hM hi2
        exact ⟨M', .overlook e xid ha h1, h2⟩
    | other m =>
      simp only [Incoming.bytes]
      rw [recv_unrelated s (fun x => multiGet s.multi x ≠ none) (fun _ h => h) m (hs ▸ hi1)]
      obtain ⟨M', h1, h2⟩ := ih s hs hi hq hM hi2
      exact ⟨M', .other m h1, h2⟩

/-- What such an observer sees is determined. -/
theorem observed_unique {v : Nat} {asked : Nat → Prop} {M M1 M2 : SwPorts} {is : List Incoming} (h1 : Observed v asked M is M1)
    (h2 : Observed v asked M is M2) : M1 = M2 := by
  induction h1 with
  | nil => cases h2; rfl
  | event e xid ha h ih =>
    cases h2 with
    | event _ _ _ h' => exact ih h'
    | overlook _ _ hn _ => exact absurd ha hn
  | overlook e xid ha h ih =>
    cases h2 with
    | event _ _ hn _ => exact absurd hn ha
    | overlook _ _ _ h' => exact ih h'
  | other m h ih =>
    cases h2 with
    | other _ h' => exact ih h'

/-- The hypotheses are met by a list with two ports and a switch that announces the second one again; it is refused, and a later deletion
is received. -/
example : portRun exSync [portStatus 4 1 0 (exPort 2)] = none ∧
    ∃ M', Observed 4 (fun x => multiGet exSync.multi x ≠ none) (ofList [exPort 1, exPort 2])
      [.event (.add (exPort 2)) 1, .event (.delete (exPort 1)) 2] M' ∧ M' 1 = none ∧ M' 2 = some (exPort 2) ∧
      Mirrors (portRunOn exSync [portStatus 4 1 0 (exPort 2), portStatus 4 2 1 (exPort 1)]).ports M' := by
  have hM : Mirrors exSync.ports (ofList [exPort 1, exPort 2]) := mirrors_ofList [exPort 1, exPort 2] (by decide)
  have hq : NoWaiters exSync := ⟨fun _ => rfl, fun _ => rfl⟩
  have hf : ∀ i ∈ [Incoming.event (.add (exPort 2)) 1, .event (.delete (exPort 1)) 2],
      i.Formed 4 fun x => multiGet exSync.multi x ≠ none := by
    intro i hi
    simp only [List.mem_cons, List.not_mem_nil, or_false] at hi
    rcases hi with rfl | rfl <;> exact ⟨by decide, exPort_wf (by decide)⟩
  constructor
  · by_contra h
    obtain ⟨s', hs'⟩ := Option.ne_none_iff_exists'.1 h
    obtain ⟨M', h'⟩ := (C28_exact (v := 4) (by omega) exSync rfl rfl hq hM [.event (.add (exPort 2)) 1] (fun i hi => hf i (by simp at hi; simp [hi]))).1
      ⟨s', hs'⟩
    cases h' with
    | event _ _ _ _ ha _ => exact absurd ha (by simp [PortEv.Allowed, ofList, exPort])
  · obtain ⟨M', h1, h2⟩ := C28_observed (v := 4) (by omega) exSync rfl rfl hq hM _ hf
    refine ⟨M', h1, ?_, ?_, h2⟩ <;>
    · cases h1 with
      | event _ _ ha _ => exact absurd ha (by simp [PortEv.Allowed, ofList, exPort])
      | overlook _ _ _ h =>
        cases h with
        | event _ _ _ h => cases h; simp [PortEv.apply, ofList, exPort]
        | overlook _ _ hn _ => exact absurd (by simp [PortEv.Allowed, ofList, exPort]) hn

end Twink
