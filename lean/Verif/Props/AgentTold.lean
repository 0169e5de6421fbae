import Verif.Spec.AgentSaid
import Verif.Props.AgentView

/-!
# C53: exactly when the controller's view of the agent's ports is right
-/

namespace Twink.Agent
open Of13 Spec Fmt

theorem saidNew_append (a b : List Bytes) : saidNew (a ++ b) = saidNew a ++ saidNew b := by simp [saidNew]
theorem saidGone_append (a b : List Bytes) : saidGone (a ++ b) = saidGone a ++ saidGone b := by simp [saidGone]

/-- What a port status message says. -/
theorem status_said {reason : Nat} (hr : reason < 256) {p : Port} (hw : p.Wf 4) :
    u8 (portStatus 4 0 reason p) 1 = 12 ∧ u8 (portStatus 4 0 reason p) 8 = reason ∧ u32 (portStatus 4 0 reason p) 16 = p.no := by
  have hn : p.no < 4294967296 := by
    have := hw.2.2.2
    rw [if_neg (by decide)] at this
    exact this.1
  refine ⟨by simp [portStatus, ofHeader, b8, u8], ?_, ?_⟩
  · simp [portStatus, ofHeader, b8, be16, be32, u8]; omega
  · simp [portStatus, portBytes, ofHeader, b8, be16, be32, u32, u16, u8, zeros, List.replicate]
    omega

theorem said_add {p : Port} (hw : p.Wf 4) : saidNew [portStatus 4 0 0 p] = [p.no] ∧ saidGone [portStatus 4 0 0 p] = [] := by
  obtain ⟨h1, h2, h3⟩ := status_said (reason := 0) (by decide) hw
  simp [saidNew, saidGone, h1, h2, h3]

theorem said_delete {p : Port} (hw : p.Wf 4) : saidNew [portStatus 4 0 1 p] = [] ∧ saidGone [portStatus 4 0 1 p] = [p.no] := by
  obtain ⟨h1, h2, h3⟩ := status_said (reason := 1) (by decide) hw
  simp [saidNew, saidGone, h1, h2, h3]

theorem said_unrelated {l : List Bytes} (h : ∀ r ∈ l, Unrelated 4 (fun _ => False) r) : saidNew l = [] ∧ saidGone l = [] := by
  have : ∀ r ∈ l, u8 r 1 ≠ 12 := by
    intro r hr
    rcases h r hr with rfl | h
    · decide
    · exact h.2.1
  constructor <;>
  · simp only [saidNew, saidGone, List.map_eq_nil_iff, List.filter_eq_nil_iff]
    intro r hr
    simp [this r hr]

/-- Whether a port can be described does not depend on the reason. -/
theorem port_statusMsg (rnd : Nat) {reason : Nat} {p : PortT} {b : Bytes} (hb : buildPort p = .ok b) (hr : reason < 256) :
    ∃ m, statusMsg rnd reason p = .ok m := by
  have hl := buildPort_length hb
  have hf : fits [B, X 7] [.int reason] = true := by simp [fits, hr]
  refine ⟨ofHeader 4 12 (8 + (enc [B, X 7] [.int reason] ++ b).length) 0 ++ (enc [B, X 7] [.int reason] ++ b), ?_⟩
  unfold statusMsg
  rw [replyHdr_make (by omega) (by omega), ok_bind, hb, ok_bind]
  unfold buildPortStatus
  simp only [obj, pack, hf, if_true, ok_bind]
  exact ofp_make _ _ (by omega) (by omega) (by simp [enc, hl]) (.inl rfl)

/-- What the controller has, if the agent's ports with the numbers `K` were described to it and the deletion of `D` was announced. -/
structure Told (c : Option PortSt) (st : St) (K D : List Nat) : Prop where
  tidy : Tidy st
  bound : ∀ n, n ∈ K ∨ n ∈ D → n ≤ st.lastNo ∨ n = 0xfffffffe
  ghost : ∀ e ∈ st.ports, e.1 ∈ K ∨ ∀ b, buildPort e.2.desc ≠ .ok b
  dup : ¬ D.Nodup → c = none
  view : D.Nodup → ∃ s, c = some s ∧ s.version = 4 ∧ s.init = true ∧ NoWaiters s ∧ s.multi = [] ∧
    Mirrors s.ports fun n => if n ∈ K ∧ n ∉ D then swPorts st n else none

theorem nil_multi {s : PortSt} (h : s.multi = []) : ∀ x, multiGet s.multi x ≠ none → False := by
  intro x hx
  rw [h] at hx
  exact hx rfl

theorem Told.same {c : Option PortSt} {st : St} {K D : List Nat} (h : Told c st K D) {l : List Bytes}
    (hl : ∀ r ∈ l, Unrelated 4 (fun _ => False) r) {st' : St} (ht : Tidy st') (h1 : st.lastNo ≤ st'.lastNo)
    (hg : ∀ e ∈ st'.ports, e ∈ st.ports ∨ ∀ b, buildPort e.2.desc ≠ .ok b) (h2 : ∀ n ∈ K, swPorts st' n = swPorts st n) :
    Told (c.bind (portRun · l)) st' (K ++ saidNew l) (D ++ saidGone l) := by
  obtain ⟨e1, e2⟩ := said_unrelated hl
  rw [e1, e2, List.append_nil, List.append_nil]
  refine ⟨ht, fun n hn => ?_, fun e he => ?_, fun hd => by rw [h.dup hd]; rfl, fun hd => ?_⟩
  · rcases h.bound n hn with h | h
    · exact .inl (Nat.le_trans h h1)
    · exact .inr h
  · rcases hg e he with h' | h'
    · exact h.ghost e h'
    · exact .inr h'
  · obtain ⟨s, rfl, hv, hi, hq, hm, hM⟩ := h.view hd
    have hh : History 4 (fun _ => False) (fun n => if n ∈ K ∧ n ∉ D then swPorts st n else none) (l.map .other)
        (fun n => if n ∈ K ∧ n ∉ D then swPorts st n else none) := by
      clear e1 e2
      induction l with
      | nil => exact .nil _
      | cons r l ih => exact .other r (hl r (by simp)) (ih fun r hr => hl r (by simp [hr]))
    obtain ⟨ps, h3, h4⟩ := history_run (by unfold V14; omega) hh s hv hi hq (nil_multi hm) hM
    refine ⟨{ s with ports := ps }, ?_, hv, hi, hq, hm, ?_⟩
    · simpa [Function.comp_def, Incoming.bytes] using h3
    · convert h4 using 2
      rename_i n
      by_cases hn : n ∈ K ∧ n ∉ D
      · rw [if_pos hn, if_pos hn, h2 n hn.1]
      · rw [if_neg hn, if_neg hn]

theorem lookup_mem {st : St} (ht : Tidy st) {e : Nat × OfPort} (he : e ∈ st.ports) : swPorts st e.1 = some (asPort e.2.desc) := by
  obtain ⟨l1, l2, hl⟩ := List.append_of_mem he
  have hk := ht.keys
  rw [hl] at hk
  unfold swPorts
  rw [hl, lookup_mid hk, if_pos rfl]
  rfl

/-- The controller is told of the deletion of a port. -/
theorem Told.deleted {c : Option PortSt} {st : St} {K D : List Nat} (h : Told c st K D) {e : Nat × OfPort} (he : e ∈ st.ports)
    {rnd : Nat} {m : Bytes} (hm : statusMsg rnd 1 e.2.desc = .ok m) {st' : St} (ht : Tidy st') (h1 : st'.lastNo = st.lastNo)
    (hg : ∀ x ∈ st'.ports, x ∈ st.ports) (h2 : ∀ n, n ≠ e.1 → swPorts st' n = swPorts st n) :
    Told (c.bind (portRun · [m])) st' (K ++ saidNew [m]) (D ++ saidGone [m]) := by
  obtain ⟨rfl, hw⟩ := statusMsg_bytes hm
  obtain ⟨e1, e2⟩ := said_delete hw
  have hno : (asPort e.2.desc).no = e.1 := h.tidy.own e he
  have hK : e.1 ∈ K := by
    rcases h.ghost e he with hk | hk
    · exact hk
    · obtain ⟨b, hb⟩ := statusMsg_port hm
      exact absurd hb (hk b)
  rw [e1, e2, List.append_nil, hno]
  refine ⟨ht, fun n hn => ?_, fun x hx => h.ghost x (hg x hx), fun hd => ?_, fun hd => ?_⟩
  · rw [h1]
    rcases hn with hn | hn
    · exact h.bound n (.inl hn)
    · rcases List.mem_append.1 hn with hn | hn
      · exact h.bound n (.inr hn)
      · rw [List.mem_singleton.1 hn]
        exact h.bound _ (.inl hK)
  · by_cases hD : D.Nodup
    · have hmem : e.1 ∈ D := by
        by_contra hmem
        exact hd (by rw [List.nodup_append]; exact ⟨hD, by simp, fun a ha b hb hx => hmem (by rw [List.mem_singleton] at hb; rw [← hb, ← hx]; exact ha)⟩)
      obtain ⟨s, rfl, hv, hi, hq, hmm, hM⟩ := h.view hD
      have hhit : s.ports.filter (fun x => portNo x == portNo (portView (asPort e.2.desc))) = [] := by
        rw [portNo_view, filter_hit hM.2, hM.1, hno]
        simp [hmem]
      have hu : updatePort s 1 (portView (asPort e.2.desc)) = .error .assertion := by
        simp [updatePort, hhit, hi]
      have hr := recv_status (v := 4) (by unfold V14; omega) s hv 0 1 (by decide) (by decide) (asPort e.2.desc) hw
      rw [hu] at hr
      show portRun s _ = none
      simp only [portRun, hr]
    · rw [h.dup hD]; rfl
  · rw [List.nodup_append] at hd
    have hmem : e.1 ∉ D := fun hx => hd.2.2 _ hx _ (by simp) rfl
    obtain ⟨s, rfl, hv, hi, hq, hmm, hM⟩ := h.view hd.1
    have hh : History 4 (fun _ => False) (fun n => if n ∈ K ∧ n ∉ D then swPorts st n else none)
        [.event (.delete (asPort e.2.desc)) 0] _ :=
      .event _ 0 (by decide) hw (by
        show (if _ then _ else _) ≠ _
        rw [hno, if_pos ⟨hK, hmem⟩, lookup_mem h.tidy he]; simp) (.nil _)
    obtain ⟨ps, h3, h4⟩ := history_run (by unfold V14; omega) hh s hv hi hq (nil_multi hmm) hM
    refine ⟨{ s with ports := ps }, h3, hv, hi, hq, hmm, ?_⟩
    convert h4 using 2
    rename_i n
    simp only [PortEv.apply, hno]
    by_cases hn : n = e.1
    · subst hn; simp
    · rw [if_neg hn, h2 n hn]
      simp [hn]

/-- The controller is told of a new port. -/
theorem Told.added {c : Option PortSt} {st : St} {K D : List Nat} (h : Told c st K D) (hl : st.lastNo + 1 ≠ 0xfffffffe)
    {p : OfPort} (hp : p.desc.portNo = st.lastNo + 1) {rnd : Nat} {m : Bytes} (hm : statusMsg rnd 0 p.desc = .ok m)
    (ht : Tidy { st with lastNo := st.lastNo + 1, ports := st.ports ++ [(st.lastNo + 1, p)] }) :
    Told (c.bind (portRun · [m])) { st with lastNo := st.lastNo + 1, ports := st.ports ++ [(st.lastNo + 1, p)] }
      (K ++ saidNew [m]) (D ++ saidGone [m]) := by
  obtain ⟨rfl, hw⟩ := statusMsg_bytes hm
  obtain ⟨e1, e2⟩ := said_add hw
  have hno : (asPort p.desc).no = st.lastNo + 1 := hp
  have hlast := h.tidy.last
  have hfresh : ∀ n, n ∈ K ∨ n ∈ D → n ≠ st.lastNo + 1 := by
    intro n hn hx
    rcases h.bound n hn with h' | h' <;> omega
  obtain ⟨_, h2⟩ := swPorts_add (st := st) (p := p) (h.tidy.new_no hl) hp (st.lastNo + 1)
  rw [e1, e2, List.append_nil, hno]
  refine ⟨ht, fun n hn => ?_, fun x hx => ?_, fun hd => by rw [h.dup hd]; rfl, fun hd => ?_⟩
  · show n ≤ st.lastNo + 1 ∨ _
    rcases hn with hn | hn
    · rcases List.mem_append.1 hn with hn | hn
      · rcases h.bound n (.inl hn) with h' | h'
        · exact .inl (by omega)
        · exact .inr h'
      · rw [List.mem_singleton.1 hn]; exact .inl (Nat.le_refl _)
    · rcases h.bound n (.inr hn) with h' | h'
      · exact .inl (by omega)
      · exact .inr h'
  · rcases List.mem_append.1 hx with hx | hx
    · rcases h.ghost x hx with h' | h'
      · exact .inl (by simp [h'])
      · exact .inr h'
    · rw [List.mem_singleton.1 hx]; exact .inl (by simp)
  · obtain ⟨s, rfl, hv, hi, hq, hmm, hM⟩ := h.view hd
    have hh : History 4 (fun _ => False) (fun n => if n ∈ K ∧ n ∉ D then swPorts st n else none)
        [.event (.add (asPort p.desc)) 0] _ :=
      .event _ 0 (by decide) hw (by
        show (if _ then _ else _) = _
        rw [hno, if_neg (fun hx => hfresh _ (.inl hx.1) rfl)]) (.nil _)
    obtain ⟨ps, h3, h4⟩ := history_run (by unfold V14; omega) hh s hv hi hq (nil_multi hmm) hM
    refine ⟨{ s with ports := ps }, h3, hv, hi, hq, hmm, ?_⟩
    convert h4 using 2
    rename_i n
    rw [← h2]
    simp only [PortEv.apply, hno]
    by_cases hn : n = st.lastNo + 1
    · have : n ∉ D := fun hx => hfresh n (.inr hx) hn
      subst hn
      simp [this]
    · simp [hn]

theorem told_step {c : Option PortSt} {st : St} {K D : List Nat} (h : Told c st K D) (e : Happening) :
    Told (c.bind (portRun · (messages (step st e).2.1))) (step st e).1 (K ++ saidNew (messages (step st e).2.1))
      (D ++ saidGone (messages (step st e).2.1)) := by
  have ht := step_tidy st h.tidy e
  obtain ⟨o, rnd, ev⟩ := e
  have hnil : ∀ r ∈ messages ([] : List Eff), Unrelated 4 (fun _ => False) r := by intro r hr; cases hr
  cases ev with
  | msg m =>
    unfold step at ht ⊢
    simp only at ht ⊢
    split
    · rename_i st' es he
      rw [he] at ht
      obtain ⟨h1, h2⟩ := switchProc_keeps he
      exact h.same (replies_unrelated he) ht (by rw [h2]) (fun e he => .inl (h1 ▸ he)) (fun n _ => by simp only [swPorts, h1])
    · exact h.same hnil h.tidy (Nat.le_refl _) (fun e he => .inl he) (fun n _ => rfl)
  | op a =>
    unfold step at ht ⊢
    simp only at ht ⊢
    cases a with
    | add dev mac c s =>
      simp only [portOp] at *
      rcases addPort_cases rnd st dev mac c s with ⟨_, he⟩ | ⟨hl, e, he⟩ | ⟨hl, hw, sk, _, _, _, e, ⟨hx, he⟩ | ⟨m, hm, he⟩⟩ <;>
        rw [he] at ht ⊢ <;> simp only at ht ⊢
      · exact h.same hnil h.tidy (Nat.le_refl _) (fun e he => .inl he) (fun n _ => rfl)
      · exact h.same hnil ht (Nat.le_succ _) (fun e he => .inl he) (fun n _ => rfl)
      · have hn := h.tidy.new_no hl
        rw [put_new hn] at ht ⊢
        refine h.same hnil ht (Nat.le_succ _) (fun x hx' => ?_) (fun n hK => ?_)
        · rcases List.mem_append.1 hx' with hx' | hx'
          · exact .inl hx'
          · refine .inr fun b hb => ?_
            rw [List.mem_singleton.1 hx'] at hb
            obtain ⟨m, hm⟩ := port_statusMsg rnd hb (reason := 0) (by decide)
            rw [hx] at hm
            cases hm
        · obtain ⟨_, h2⟩ := swPorts_add (st := st) (p := newPort (st.lastNo + 1) hw dev sk) hn rfl (st.lastNo + 1)
          rw [← h2]
          have hlast := h.tidy.last
          have hne : n ≠ st.lastNo + 1 := by
            intro hx
            rcases h.bound n (.inl hK) with h' | h' <;> omega
          exact if_neg hne
      · have hn := h.tidy.new_no hl
        rw [put_new hn] at ht ⊢
        exact h.added hl rfl hm ht
    | del dev d =>
      simp only [portOp] at *
      rcases delPort_cases o rnd st dev d with ⟨_, he⟩ | ⟨e, hmem, _, ⟨_, _, he⟩ | ⟨m, hm, ⟨_, he⟩ | ⟨_, he⟩⟩⟩ <;>
        rw [he] at ht ⊢ <;> simp only at ht ⊢
      · exact h.same hnil h.tidy (Nat.le_refl _) (fun e he => .inl he) (fun n _ => rfl)
      · exact h.same hnil h.tidy (Nat.le_refl _) (fun e he => .inl he) (fun n _ => rfl)
      · exact h.deleted hmem hm h.tidy rfl (fun x hx => hx) (fun n _ => rfl)
      · refine h.deleted hmem hm ht rfl (fun x hx => (List.mem_filter.1 hx).1) (fun n hn => ?_)
        simp only [swPorts, lookup_del, if_neg hn]

theorem told_run {st : St} {K D : List Nat} {c : Option PortSt} (h : Told c st K D) (hs : List Happening) :
    Told (c.bind (portRun · (messages (sent st hs)))) (after st hs) (K ++ saidNew (messages (sent st hs)))
      (D ++ saidGone (messages (sent st hs))) := by
  induction hs generalizing st K D c with
  | nil =>
    have : (c.bind (portRun · (messages (sent st [])))) = c := by cases c <;> rfl
    rw [this]
    simpa [sent, messages, saidNew, saidGone, after] using h
  | cons e hs ih =>
    have := ih (told_step h e)
    rw [sent]
    have hm : messages ((step st e).2.1 ++ sent (step st e).1 hs) = messages (step st e).2.1 ++ messages (sent (step st e).1 hs) := by
      simp [messages]
    rw [hm, saidNew_append, saidGone_append, ← List.append_assoc, ← List.append_assoc]
    have hc : (c.bind (portRun · (messages (step st e).2.1 ++ messages (sent (step st e).1 hs)))) =
        ((c.bind (portRun · (messages (step st e).2.1))).bind (portRun · (messages (sent (step st e).1 hs)))) := by
      cases c with
      | none => rfl
      | some s => exact portRun_append s _ _
    rw [hc]
    exact this

theorem told_start {s : PortSt} (hv : s.version = 4) (hi : s.init = true) (hq : NoWaiters s) (hm : s.multi = []) {st : St} (ht : Tidy st)
    (hM : Mirrors s.ports (swPorts st)) : Told (some s) st (st.ports.map Prod.fst) [] := by
  refine ⟨ht, fun n hn => ?_, fun e he => .inl (List.mem_map.2 ⟨e, he, rfl⟩), fun h => absurd List.nodup_nil h, fun _ => ⟨s, rfl, hv, hi, hq, hm, ?_⟩⟩
  · rcases hn with hn | hn
    · obtain ⟨e, he, rfl⟩ := List.mem_map.1 hn
      exact ht.low e he
    · cases hn
  · convert hM using 2
    rename_i n
    by_cases hn : n ∈ st.ports.map Prod.fst
    · simp [hn]
    · rw [if_neg (fun h => hn h.1)]
      have : st.ports.lookup n = none := by
        rw [List.lookup_eq_none_iff]
        intro e he
        simp only [bne_iff_ne, ne_eq]
        intro h
        exact hn (List.mem_map.2 ⟨e, he, h.symm⟩)
      simp [swPorts, this]

theorem mem_of_lookup {l : List (Nat × OfPort)} {n : Nat} {p : OfPort} (h : l.lookup n = some p) : (n, p) ∈ l := by
  induction l with
  | nil => cases h
  | cons a l ih =>
    rw [List.lookup_cons] at h
    split at h
    · rename_i hn
      injection h with h
      subst h
      rw [beq_iff_eq.1 hn]
      simp
    · exact List.mem_cons_of_mem _ (ih h)

/-- C53, exactly, for any history of messages and calls of the port manager, whether they raise exceptions or not. A controller
that has the agent's ports receives what the agent sends. It has received everything and has the agent's ports again if and only if
no port's deletion was announced twice, no port whose deletion was announced is still there, and every port that is there was there at the
beginning or was announced. -/
theorem C53_exact (s : PortSt) (hv : s.version = 4) (hi : s.init = true) (hq : NoWaiters s) (hm : s.multi = []) (st : St) (ht : Tidy st)
    (hM : Mirrors s.ports (swPorts st)) (hs : List Happening) :
    (∃ s', portRun s (messages (sent st hs)) = some s' ∧ Mirrors s'.ports (swPorts (after st hs))) ↔
      (saidGone (messages (sent st hs))).Nodup ∧ ∀ e ∈ (after st hs).ports, e.1 ∉ saidGone (messages (sent st hs)) ∧
        (e.1 ∈ st.ports.map Prod.fst ∨ e.1 ∈ saidNew (messages (sent st hs))) := by
  have h := told_run (told_start hv hi hq hm ht hM) hs
  rw [List.nil_append] at h
  constructor
  · rintro ⟨s', h1, h2⟩
    have hd : (saidGone (messages (sent st hs))).Nodup := by
      by_contra hd
      have h3 : portRun s (messages (sent st hs)) = none := h.dup hd
      rw [h1] at h3
      cases h3
    obtain ⟨s'', h3, _, _, _, _, h4⟩ := h.view hd
    have h3 : portRun s (messages (sent st hs)) = some s'' := h3
    rw [h1] at h3
    injection h3 with h3
    subst h3
    refine ⟨hd, fun e he => ?_⟩
    have h5 := h4.1 e.1
    rw [h2.1 e.1, lookup_mem h.tidy he] at h5
    simp only at h5
    by_contra hx
    rw [if_neg (by rw [List.mem_append]; tauto)] at h5
    simp at h5
  · rintro ⟨hd, hx⟩
    obtain ⟨s', h3, _, _, _, _, h4⟩ := h.view hd
    refine ⟨s', h3, ?_⟩
    convert h4 using 2
    rename_i n
    cases hl : (after st hs).ports.lookup n with
    | none => simp [swPorts, hl]
    | some p =>
      have he : (n, p) ∈ (after st hs).ports := mem_of_lookup hl
      have := hx _ he
      rw [if_pos ⟨List.mem_append.2 this.2, this.1⟩]

/-- The controller receives everything without an exception if and only if no deletion was announced twice: `_update_port` asserts
that a deleted port is in its list. -/
theorem C53_received_exact (s : PortSt) (hv : s.version = 4) (hi : s.init = true) (hq : NoWaiters s) (hm : s.multi = []) (st : St)
    (ht : Tidy st) (hM : Mirrors s.ports (swPorts st)) (hs : List Happening) :
    (∃ s', portRun s (messages (sent st hs)) = some s') ↔ (saidGone (messages (sent st hs))).Nodup := by
  have h := told_run (told_start hv hi hq hm ht hM) hs
  rw [List.nil_append] at h
  constructor
  · rintro ⟨s', h1⟩
    by_contra hd
    have h3 : portRun s (messages (sent st hs)) = none := h.dup hd
    rw [h1] at h3
    cases h3
  · intro hd
    obtain ⟨s', h3, _⟩ := h.view hd
    exact ⟨s', h3⟩

/-- C53: a deletion that failed and is tried again, successfully, is announced twice, and the second announcement makes the controller's
`recv` raise `AssertionError`. -/
theorem C53_retry_refuted (s : PortSt) (hv : s.version = 4) (hi : s.init = true) (hq : NoWaiters s) (hm : s.multi = []) (st : St)
    (ht : Tidy st) (hM : Mirrors s.ports (swPorts st)) (o : Order) (rnd : Nat) (dev : Bytes) (e : Nat × OfPort) (he : e ∈ st.ports)
    (hg : GoodPort e.2.desc) (hname : e.2.desc.name = .str dev) (hone : ∀ e' ∈ st.ports, e'.2.desc.name = .str dev → e' = e) :
    (∀ e' ∈ (after st [(o, rnd, .op (.del dev false)), (o, rnd, .op (.del dev true))]).ports, e' ∈ st.ports ∧ e' ≠ e) ∧
    portRun s (messages (sent st [(o, rnd, .op (.del dev false)), (o, rnd, .op (.del dev true))])) = none := by
  obtain ⟨h1, h2, _⟩ := failed_delete ht o rnd he hg hname hone
  obtain ⟨b, hb⟩ := buildPort_make hg
  have hw := (buildPort_ok hb).2
  have h2' : (step st (o, rnd, .op (.del dev false))).1 = st := h2
  have h1' : messages (step st (o, rnd, .op (.del dev false))).2.1 = [portStatus 4 0 1 (asPort e.2.desc)] := by
    simpa [sent] using h1
  have h3 : step st (o, rnd, .op (.del dev true)) =
      ({ st with ports := del st.ports e.1 }, [.send (portStatus 4 0 1 (asPort e.2.desc))], some (.deleted e.1)) := by
    rcases delPort_cases o rnd st dev true with ⟨hn, _⟩ | ⟨e', hmem, hname', ⟨_, hx, hd⟩ | ⟨m, hm', ⟨h, _⟩ | ⟨_, hd⟩⟩⟩
    · exact absurd hname (hn e he)
    · obtain rfl := hone e' hmem hname'
      obtain ⟨m, hm'⟩ := statusMsg_make rnd (reason := 1) hg (by omega)
      rw [hm'] at hx
      cases hx
    · cases h
    · obtain rfl := hone e' hmem hname'
      obtain ⟨h1, _⟩ := statusMsg_bytes hm'
      simp [step, portOp, hd, h1]
  constructor
  · intro e' he'
    simp only [after, h2', h3] at he'
    obtain ⟨h4, h5⟩ := List.mem_filter.1 he'
    refine ⟨h4, fun hx => ?_⟩
    subst hx
    simp at h5
  · by_contra hx
    obtain ⟨s', hs'⟩ := Option.ne_none_iff_exists'.1 hx
    have := (C53_received_exact s hv hi hq hm st ht hM _).1 ⟨s', hs'⟩
    have hms : messages (sent st [(o, rnd, .op (.del dev false)), (o, rnd, .op (.del dev true))]) =
        [portStatus 4 0 1 (asPort e.2.desc), portStatus 4 0 1 (asPort e.2.desc)] := by
      rw [sent, sent, sent, h2', h3]
      have : ∀ a b : List Eff, messages (a ++ b) = messages a ++ messages b := by intro a b; simp [messages]
      rw [this, h1']
      simp [messages]
    rw [hms, show [portStatus 4 0 1 (asPort e.2.desc), portStatus 4 0 1 (asPort e.2.desc)] =
      [portStatus 4 0 1 (asPort e.2.desc)] ++ [portStatus 4 0 1 (asPort e.2.desc)] from rfl, saidGone_append, (said_delete hw).2] at this
    simp at this

/-- The controller's list of the ports of the agent at its start. -/
def knowing : PortSt := { version := 4, init := true, ports := ((start none none).ports.map fun e => asPort e.2.desc).map portView }

theorem knowing_mirrors : Mirrors knowing.ports (swPorts (start none none)) := by
  obtain ⟨h1, h2⟩ := ofList_ports (o := inserted) (tidy_start none none)
  rw [← h1]
  exact mirrors_ofList _ h2

/-- The hypotheses are met by a controller that has the ports of the agent at its start; the failed deletion of `dpif` that is tried
again brings it down. -/
example : portRun knowing (messages (sent (start none none)
    [(inserted, 1, .op (.del [100, 112, 105, 102] false)), (inserted, 1, .op (.del [100, 112, 105, 102] true))])) = none :=
  (C53_retry_refuted knowing rfl rfl ⟨fun _ => rfl, fun _ => rfl⟩ rfl (start none none) (tidy_start _ _) knowing_mirrors inserted 1
    [100, 112, 105, 102] _ (List.mem_cons_of_mem _ (List.mem_cons_of_mem _ (List.mem_cons_self ..)))
    (goodPort_start none none _ (List.mem_cons_of_mem _ (List.mem_cons_of_mem _ (List.mem_cons_self ..)))) (by decide) (by decide)).2

/-- A history with a failed addition, of a name that is too long, and a successful one: the controller lacks the first port. -/
example : ¬ ∃ s', portRun knowing (messages (sent (start none none)
    [(inserted, 1, .op (.add (List.replicate 17 97) [48, 48, 49, 49, 50, 50, 97, 97, 98, 98, 70, 70] true (some (some 7)))),
     (inserted, 1, .op (.add [118, 109] [48, 48, 49, 49, 50, 50, 97, 97, 98, 98, 70, 70] true (some (some 7))))])) = some s' ∧
    Mirrors s'.ports (swPorts (after (start none none)
    [(inserted, 1, .op (.add (List.replicate 17 97) [48, 48, 49, 49, 50, 50, 97, 97, 98, 98, 70, 70] true (some (some 7)))),
     (inserted, 1, .op (.add [118, 109] [48, 48, 49, 49, 50, 50, 97, 97, 98, 98, 70, 70] true (some (some 7))))])) := by
  rw [C53_exact knowing rfl rfl ⟨fun _ => rfl, fun _ => rfl⟩ rfl (start none none) (tidy_start _ _) knowing_mirrors]
  decide +kernel

end Twink.Agent
