import Verif.Spec.Wired
import Verif.Props.Session
import Verif.Props.Sync
import Verif.Props.AgentReply

/-!
# Lemmas about a controller and a switch on one connection
-/

namespace Twink.Wired
open Session Spec Fmt

/-! ## The controller inside the whole -/

/-- The steps of the controller in a run of the whole. -/
def ctlOps (h : Handle σ) (n : Net σ) : List (NOp σ) → List SyncOp
  | [] => []
  | op :: ops =>
    (match op with
      | .ctl (.recv _) => []
      | .ctl o => [o]
      | .deliver =>
        match n.ctl.rpc, n.down with
        | .idle, m :: _ => [.recv m]
        | _, _ => []
      | _ => []) ++ ctlOps h (step h n op) ops

theorem run_append (h : Handle σ) (n : Net σ) (a b : List (NOp σ)) : run h n (a ++ b) = run h (run h n a) b := by
  induction a generalizing n with
  | nil => rfl
  | cons op a ih => exact ih _

theorem ctlOps_append (h : Handle σ) (n : Net σ) (a b : List (NOp σ)) : ctlOps h n (a ++ b) = ctlOps h n a ++ ctlOps h (run h n a) b := by
  induction a generalizing n with
  | nil => rfl
  | cons op a ih => simp only [List.cons_append, ctlOps, run, ih, List.append_assoc]

/-- A step of the whole is no step or one step of the controller. -/
theorem step_ctl (h : Handle σ) (n : Net σ) (op : NOp σ) : (step h n op).ctl = syncRun n.ctl (ctlOps h n [op]) := by
  cases op with
  | ctl o => cases o <;> rfl
  | switch x => simp only [step, ctlOps]; split <;> (try split) <;> rfl
  | own u bs => simp only [step, ctlOps]; split <;> rfl
  | deliver =>
    simp only [step, ctlOps, List.append_nil]
    cases n.ctl.rpc <;> cases n.down <;> rfl

theorem run_ctl (h : Handle σ) (n : Net σ) (ops : List (NOp σ)) : (run h n ops).ctl = syncRun n.ctl (ctlOps h n ops) := by
  induction ops generalizing n with
  | nil => rfl
  | cons op ops ih =>
    have e : ctlOps h n (op :: ops) = ctlOps h n [op] ++ ctlOps h (step h n op) ops := by
      have := ctlOps_append h n [op] ops
      simpa [run] using this
    rw [e, syncRun_append, ← step_ctl]
    exact ih _

theorem ctlOps_open (h : Handle σ) (n : Net σ) {ops : List (NOp σ)} (ho : Open ops) : NoClose (ctlOps h n ops) := by
  induction ops generalizing n with
  | nil => intro o ho; simp [ctlOps] at ho
  | cons op ops ih =>
    intro o hm
    simp only [ctlOps, List.mem_append] at hm
    rcases hm with hm | hm
    · have h1 := ho op (by simp)
      cases op with
      | ctl o' =>
        cases o' <;> simp at hm
        all_goals (subst hm; first | exact absurd rfl h1 | (intro c; cases c))
      | switch x => simp at hm
      | own u bs => simp at hm
      | deliver =>
        simp only at hm
        split at hm
        · simp only [List.mem_singleton] at hm; subst hm; exact fun c => by cases c
        · simp at hm
    · exact ih _ (fun x hx => ho x (by simp [hx])) o hm

theorem asked_step (h : Handle σ) (n : Net σ) (op : NOp σ) : asked n <+: asked (step h n op) := by
  obtain ⟨l, hl⟩ := sent_run n.ctl (ctlOps h n [op])
  rw [← step_ctl] at hl
  exact ⟨l.map (·.1), by simp [asked, hl]⟩

theorem asked_run (h : Handle σ) (n : Net σ) (ops : List (NOp σ)) : asked n <+: asked (run h n ops) := by
  induction ops generalizing n with
  | nil => exact List.prefix_rfl
  | cons op ops ih => exact (asked_step h n op).trans (ih _)

/-! ## The invariant -/

/-- The message of which the receiving thread knows that its id is registered. -/
def pend : RPc → List Bytes
  | .checked m => [m]
  | _ => []

/-- Steps that do not belong to the receiving thread leave it alone. -/
theorem still {st : SyncSt} (op : SyncOp) (h1 : ∀ m, op ≠ .recv m) (h2 : op ≠ .recvStep) :
    (syncOp st op).rx = st.rx ∧ (syncOp st op).rpc = st.rpc := by
  have mv : ∀ {st1 : SyncSt} {o o'}, Move st st1 o o' → st1.rx = st.rx ∧ st1.rpc = st.rpc := by
    intro st1 o o' h; cases h <;> exact ⟨rfl, rfl⟩
  cases op with
  | sendSync m => simp only [syncOp]; cases parseHeader m <;> exact ⟨rfl, rfl⟩
  | multi ms => exact ⟨rfl, rfl⟩
  | thread i ch =>
    simp only [syncOp]
    cases st.threads[i]? with
    | none => exact ⟨rfl, rfl⟩
    | some th =>
      cases th with
      | sync c => have := mv (syncStep_move ch st c); exact this
      | multi c => have := mv (multiStep_move ch st c); exact this
  | recv m => exact absurd rfl (h1 m)
  | recvStep => exact absurd rfl h2
  | close => exact ⟨rfl, rfl⟩
  | closeStep i => simp only [syncOp, closeStep]; split <;> exact ⟨rfl, rfl⟩

theorem recvBegin_pend {st : SyncSt} {m : Bytes} (hi : st.rpc = .idle) (h8 : 8 ≤ m.length) :
    (recvBegin st m).rx ++ pend (recvBegin st m).rpc = st.rx ++ [m] := by
  have hne : m ≠ [] := by rintro rfl; simp at h8
  simp only [recvBegin, hi, if_neg hne, parseHeader_fields m h8]
  split
  · simp [pend]
  · simp [pend, hi]

theorem recvStep_pend {st : SyncSt} (h8 : ∀ m ∈ pend st.rpc, 8 ≤ m.length) :
    (recvStep st).rx ++ pend (recvStep st).rpc = st.rx ++ pend st.rpc := by
  unfold recvStep
  cases hr : st.rpc with
  | idle => simp [pend, hr]
  | checked m =>
    have h8 := h8 m (by simp [hr, pend])
    simp only [parseHeader_fields m h8]
    split <;> simp [pend]
  | found m t => simp only; cases parseHeader m <;> simp [pend, updTracker]
  | stored m t =>
    simp only
    cases parseHeader m with
    | error e => simp [pend]
    | ok r =>
      simp only
      split
      · split
        · split <;> simp [pend, updTracker]
        · simp [pend]
        · simp [pend]
      · simp [pend, updTracker]

/-- Everything asked has been handled or is on the way to the switch; everything said has been received or is on the way to the controller. -/
structure NetInv (n : Net σ) : Prop where
  asked : asked n = n.log.map (·.1) ++ n.up
  said : n.sw.sent = n.ctl.rx ++ pend n.ctl.rpc ++ n.down
  long : ∀ b ∈ pend n.ctl.rpc ++ n.down, 8 ≤ b.length
  version : n.sw.version = some 4
  entry : ∀ e ∈ n.log, Plain e.1 ∧ (e.2 = [] ∨ ∃ r, e.2 = [r] ∧ Answers e.1 r ∧ u8 r 1 ≠ 21)

theorem answers_echo {m : Bytes} (hw : WellFormed m) (h2 : u8 m 1 = 2) : Answers m (ofHeader 4 3 m.length (u32 m 4) ++ m.drop 8) ∧
    u8 (ofHeader 4 3 m.length (u32 m 4) ++ m.drop 8) 1 ≠ 21 := by
  obtain ⟨t, r, h1, h3, h4⟩ := C92_reply m hw (.inl h2)
  simp only [answer, h2, if_true, List.cons.injEq, and_true] at h3
  have ht : t = 3 := by simpa [requires, h2, eq_comm] using h1
  subst ht h3
  have hv := h4.2.1
  have hty := h4.2.2.1
  exact ⟨⟨3, h1, h4, fun hm => by unfold IsMultipartRep at hm; rw [hv, hty] at hm; simp at hm⟩, by omega⟩

/-- One message at the switch. -/
theorem message_polite {h : Handle σ} (hp : Polite h) (x : Nat) (s : Sess σ) (hv : s.version = some 4) {m : Bytes} (hm : Plain m) :
    ∃ out, (message (.seq [.int 4]) x h s m).1.sent = s.sent ++ out ∧ (message (.seq [.int 4]) x h s m).1.version = some 4 ∧
      (out = [] ∨ ∃ r, out = [r] ∧ Answers m r ∧ u8 r 1 ≠ 21) := by
  rw [message_other x h s hm.1.1 hm.2]
  by_cases h2 : u8 m 1 = 2
  · rw [intercept_echo h s hm.1 h2 hv]
    obtain ⟨h3, h4⟩ := answers_echo hm.1 h2
    exact ⟨_, rfl, hv, .inr ⟨_, rfl, h3, h4⟩⟩
  · rw [intercept_handle h s hm.1.1 h2]
    exact ⟨_, rfl, hv, hp s.user m hm.1 hm.2 h2⟩

theorem netInv_ctl {n : Net σ} (hi : NetInv n) (op : SyncOp) (h1 : ∀ m, op ≠ .recv m) (h : Handle σ) : NetInv (step h n (.ctl op)) := by
  have e : step h n (.ctl op) = { n with ctl := syncOp n.ctl op, up := n.up ++ ((syncOp n.ctl op).sent.drop n.ctl.sent.length).map (·.1) } := by
    cases op <;> first | rfl | exact absurd rfl (h1 _)
  rw [e]
  obtain ⟨l, hl⟩ := sent_step n.ctl op
  have ha : Wired.asked { n with ctl := syncOp n.ctl op, up := n.up ++ ((syncOp n.ctl op).sent.drop n.ctl.sent.length).map (·.1) } =
      n.log.map (·.1) ++ (n.up ++ ((syncOp n.ctl op).sent.drop n.ctl.sent.length).map (·.1)) := by
    have := hi.asked
    simp only [Wired.asked] at this ⊢
    rw [hl, List.map_append, this]
    simp
  have hp : (syncOp n.ctl op).rx ++ pend (syncOp n.ctl op).rpc = n.ctl.rx ++ pend n.ctl.rpc ∧
      (∀ b ∈ pend (syncOp n.ctl op).rpc, b ∈ pend n.ctl.rpc) := by
    by_cases h2 : op = .recvStep
    · subst h2
      refine ⟨recvStep_pend fun m hm => hi.long m (by simp [hm]), fun b hb => ?_⟩
      exfalso
      revert hb
      simp only [syncOp, recvStep]
      cases hr : n.ctl.rpc with
      | idle => simp [pend, hr]
      | checked m =>
        simp only
        cases parseHeader m with
        | error e => simp [pend]
        | ok r => simp only; split <;> simp [pend]
      | found m t => simp only; cases parseHeader m <;> simp [pend, updTracker]
      | stored m t =>
        simp only
        cases parseHeader m with
        | error e => simp [pend]
        | ok r =>
          simp only
          split
          · split
            · split <;> simp [pend, updTracker]
            · simp [pend]
            · simp [pend]
          · simp [pend, updTracker]
    · obtain ⟨g1, g2⟩ := still (st := n.ctl) op h1 h2
      rw [g1, g2]
      exact ⟨rfl, fun b hb => hb⟩
  refine ⟨ha, ?_, ?_, hi.version, hi.entry⟩
  · show n.sw.sent = _
    rw [hi.said, hp.1]
  · intro b hb
    rcases List.mem_append.1 hb with hb | hb
    · exact hi.long b (List.mem_append_left _ (hp.2 b hb))
    · exact hi.long b (List.mem_append_right _ hb)

theorem answers_long {m r : Bytes} (h : Answers m r) : 8 ≤ r.length := by
  obtain ⟨t, _, h, _⟩ := h; exact h.1

theorem netInv_switch {h : Handle σ} (hp : Polite h) {n : Net σ} (hi : NetInv n) (hpl : ∀ m ∈ asked n, Plain m) (x : Nat) :
    NetInv (step h n (.switch x)) := by
  simp only [step]
  split
  · split
    · exact hi
    · rename_i m up hu
      have hm : Plain m := hpl m (by rw [hi.asked, hu]; simp)
      obtain ⟨out, g1, g2, g3⟩ := message_polite hp x n.sw hi.version hm
      have hd : (message (.seq [.int 4]) x h n.sw m).1.sent.drop n.sw.sent.length = out := by rw [g1]; simp
      refine ⟨?_, ?_, ?_, g2, ?_⟩
      · have := hi.asked
        rw [hu] at this
        simp only [asked] at this ⊢
        rw [this]; simp
      · simp only [hd]
        rw [g1, hi.said]; simp
      · intro b hb
        simp only [hd, List.mem_append] at hb
        rcases hb with hb | hb | hb
        · exact hi.long b (by simp [hb])
        · exact hi.long b (by simp [hb])
        · rcases g3 with rfl | ⟨r, rfl, g4, _⟩
          · simp at hb
          · simp only [List.mem_singleton] at hb; subst hb; exact answers_long g4
      · intro e he
        simp only [hd, List.mem_append, List.mem_singleton] at he
        rcases he with he | rfl
        · exact hi.entry e he
        · exact ⟨hm, g3⟩
  · exact hi

theorem netInv_step {h : Handle σ} (hp : Polite h) {n : Net σ} (hi : NetInv n) (op : NOp σ) (hpl : ∀ m ∈ asked n, Plain m)
    (ho : ∀ u bs, op = .own u bs → ∀ b ∈ bs, 8 ≤ b.length) : NetInv (step h n op) := by
  cases op with
  | ctl o =>
    by_cases hr : ∃ m, o = .recv m
    · obtain ⟨m, rfl⟩ := hr; exact hi
    · exact netInv_ctl hi o (fun m e => hr ⟨m, e⟩) h
  | switch x => exact netInv_switch hp hi hpl x
  | own u bs =>
    simp only [step]
    split
    · refine ⟨hi.asked, ?_, ?_, hi.version, hi.entry⟩
      · simp only [hi.said, List.append_assoc]
      · intro b hb
        simp only [List.mem_append] at hb
        rcases hb with hb | hb | hb
        · exact hi.long b (by simp [hb])
        · exact hi.long b (by simp [hb])
        · exact ho u bs rfl b hb
    · exact hi
  | deliver =>
    simp only [step]
    split
    · rename_i m down hr hd
      have h8 : 8 ≤ m.length := hi.long m (by simp [hd])
      have hb := recvBegin_pend hr h8
      refine ⟨?_, ?_, ?_, hi.version, hi.entry⟩
      · have := hi.asked
        simp only [asked, syncOp, (passive_recvBegin n.ctl m).sent] at this ⊢
        exact this
      · simp only [syncOp]
        rw [hb, hi.said, hr, hd]; simp [pend]
      · intro b hb'
        simp only [syncOp, List.mem_append] at hb'
        rcases hb' with hb' | hb'
        · have : b ∈ (recvBegin n.ctl m).rx ++ pend (recvBegin n.ctl m).rpc := List.mem_append_right _ hb'
          revert hb'
          simp only [recvBegin, hr, parseHeader_fields m h8]
          split
          · simp [hr, pend]
          · split
            · simp only [pend, List.mem_singleton]; rintro rfl; exact h8
            · simp [pend, hr]
        · exact hi.long b (by simp [hd, hb'])
    · exact hi

theorem netInv_start (u : σ) : NetInv (start u) :=
  ⟨rfl, rfl, by simp [start, freshSync, pend], rfl, by simp [start]⟩

theorem netInv_run {h : Handle σ} (hp : Polite h) {n : Net σ} (hi : NetInv n) (ops : List (NOp σ)) (hpl : ∀ m ∈ asked (run h n ops), Plain m)
    (ho : OwnLong ops) : NetInv (run h n ops) := by
  induction ops generalizing n with
  | nil => exact hi
  | cons op ops ih =>
    have hs : ∀ m ∈ asked n, Plain m := fun m hm => hpl m ((asked_run h n (op :: ops)).subset hm)
    exact ih (netInv_step hp hi op hs fun u bs e => ho u bs (by simp [e])) hpl fun u bs hu => ho u bs (by simp [hu])

/-! ## Replies by id -/

/-- What was said with an id, if other threads of the switch do not use it: what was sent in answer. -/
theorem said_ids {h : Handle σ} {n : Net σ} {x : Nat} (hi : withId x n.sw.sent = withId x (n.log.flatMap (·.2))) (op : NOp σ)
    (hp : Polite h) (hn : NetInv n) (hpl : ∀ m ∈ asked n, Plain m) (ho : ∀ u bs, op = .own u bs → ∀ b ∈ bs, u32 b 4 ≠ x) :
    withId x (step h n op).sw.sent = withId x ((step h n op).log.flatMap (·.2)) := by
  cases op with
  | ctl o => cases o <;> exact hi
  | switch y =>
    simp only [step]
    split
    · split
      · exact hi
      · rename_i m up hu
        obtain ⟨out, g1, _, _⟩ := message_polite hp y n.sw hn.version (hpl m (by rw [hn.asked, hu]; simp))
        have hd : (message (.seq [.int 4]) y h n.sw m).1.sent.drop n.sw.sent.length = out := by rw [g1]; simp
        simp only [hd]
        rw [g1, List.flatMap_append, withId_append, withId_append, hi]
        simp
    · exact hi
  | own u bs =>
    simp only [step]
    split
    · have : withId x bs = [] := by
        simp only [withId, List.filter_eq_nil_iff, decide_eq_true_eq]
        exact ho u bs rfl
      simp only [withId_append, this, List.append_nil]
      exact hi
    · exact hi
  | deliver =>
    simp only [step]
    split <;> exact hi

theorem said_ids_run {h : Handle σ} (hp : Polite h) {n : Net σ} {x : Nat} (hi : withId x n.sw.sent = withId x (n.log.flatMap (·.2)))
    (hn : NetInv n) (ops : List (NOp σ)) (hpl : ∀ m ∈ asked (run h n ops), Plain m) (hl : OwnLong ops) (ho : Apart x ops) :
    withId x (run h n ops).sw.sent = withId x ((run h n ops).log.flatMap (·.2)) := by
  induction ops generalizing n with
  | nil => exact hi
  | cons op ops ih =>
    have hs : ∀ m ∈ asked n, Plain m := fun m hm => hpl m ((asked_run h n (op :: ops)).subset hm)
    exact ih (said_ids hi op hp hn hs fun u bs e => ho u bs (by simp [e]))
      (netInv_step hp hn op hs fun u bs e => hl u bs (by simp [e])) hpl (fun u bs hu => hl u bs (by simp [hu])) fun u bs hu => ho u bs (by simp [hu])

theorem answers_id {m r : Bytes} (h : Answers m r) : u32 r 4 = u32 m 4 := by
  obtain ⟨t, _, h, _⟩ := h; exact h.2.2.2.2.1

/-- The answers with an id belong to the requests with that id. -/
theorem withId_log {log : List (Bytes × List Bytes)} (h : ∀ e ∈ log, e.2 = [] ∨ ∃ r, e.2 = [r] ∧ Answers e.1 r ∧ u8 r 1 ≠ 21) (x : Nat) :
    withId x (log.flatMap (·.2)) = (log.filter (fun e => u32 e.1 4 = x)).flatMap (·.2) := by
  induction log with
  | nil => rfl
  | cons e log ih =>
    rw [List.flatMap_cons, withId_append, ih fun e he => h e (by simp [he]), List.filter_cons]
    rcases h e (by simp) with h0 | ⟨r, hr, ha, _⟩
    · split <;> simp [h0, withId]
    · have hid := answers_id ha
      by_cases hx : u32 e.1 4 = x
      · simp [hx, hr, withId, hid]
      · simp [hx, hr, withId, hid]

theorem filter_map_fst (log : List (Bytes × List Bytes)) (x : Nat) :
    (log.filter (fun e => u32 e.1 4 = x)).map (·.1) = withId x (log.map (·.1)) := by
  induction log with
  | nil => rfl
  | cons e log ih =>
    simp only [List.filter_cons, withId, List.map_cons] at ih ⊢
    split <;> simp [ih]

theorem one_entry {l : List (Bytes × List Bytes)} {m0 : Bytes} (h1 : List.Sublist (l.map (·.1)) [m0])
    (h2 : ∀ e ∈ l, e.2 = [] ∨ ∃ r, e.2 = [r] ∧ Answers e.1 r ∧ u8 r 1 ≠ 21) :
    l.flatMap (·.2) = [] ∨ ∃ r, (m0, [r]) ∈ l ∧ Answers m0 r ∧ l.flatMap (·.2) = [r] := by
  have hlen := h1.length_le
  cases l with
  | nil => exact .inl rfl
  | cons e l =>
    have hl : l = [] := by
      cases l with
      | nil => rfl
      | cons a l => simp at hlen
    subst hl
    obtain ⟨m, out⟩ := e
    have hm : m = m0 := by
      have := h1.subset (List.mem_singleton.2 rfl : m ∈ [m])
      simpa using this
    subst hm
    rcases h2 (m, out) (by simp) with h0 | ⟨r, hr, ha, _⟩
    · exact .inl (by simpa using h0)
    · have hr : out = [r] := hr
      subst hr
      exact .inr ⟨r, by simp, ha, by simp⟩

/-- If one message at most was asked with an id: the answers with this id. -/
theorem one_answer {n : Net σ} (hi : NetInv n) {x : Nat} {m0 : Bytes} (hs : List.Sublist (withId x (asked n)) [m0]) :
    withId x (n.log.flatMap (·.2)) = [] ∨ ∃ r, (m0, [r]) ∈ n.log ∧ Answers m0 r ∧ withId x (n.log.flatMap (·.2)) = [r] := by
  rw [withId_log (fun e he => (hi.entry e he).2) x]
  have h1 : List.Sublist ((n.log.filter (fun e => u32 e.1 4 = x)).map (·.1)) [m0] := by
    rw [filter_map_fst]
    refine List.Sublist.trans ?_ hs
    rw [hi.asked, withId_append]
    exact List.sublist_append_left _ _
  rcases one_entry h1 (fun e he => (hi.entry e (List.mem_filter.1 he).1).2) with h | ⟨r, h2, h3, h4⟩
  · exact .inl h
  · exact .inr ⟨r, (List.mem_filter.1 h2).1, h3, h4⟩

end Twink.Wired
