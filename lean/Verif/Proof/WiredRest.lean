import Verif.Proof.WiredSwitches

/-!
# The network comes to rest
-/

namespace Twink.Wired
open Session Spec Fmt

/-- What the network still has to do. -/
def rank : RPc → Nat
  | .idle => 0
  | .checked _ => 3
  | .found _ _ => 2
  | .stored _ _ => 1

def load (n : Net σ) : Nat := (if n.alive then 5 * n.up.length else 0) + 4 * n.down.length + rank n.ctl.rpc

theorem rank_recvStep {st : SyncSt} (h : st.rpc ≠ .idle) : rank (recvStep st).rpc < rank st.rpc := by
  unfold recvStep
  cases hr : st.rpc with
  | idle => exact absurd hr h
  | checked m =>
    simp only
    cases parseHeader m with
    | error e => simp [rank]
    | ok r => simp only; split <;> simp [rank]
  | found m t => simp only; cases parseHeader m <;> simp [rank, updTracker]
  | stored m t =>
    simp only
    cases parseHeader m with
    | error e => simp [rank]
    | ok r =>
      simp only
      split
      · split
        · split <;> simp [rank, updTracker]
        · simp [rank]
        · simp [rank]
      · simp [rank, updTracker]

theorem rank_recvBegin {st : SyncSt} (m : Bytes) (h : st.rpc = .idle) : rank (recvBegin st m).rpc ≤ 3 := by
  unfold recvBegin
  rw [h]
  simp only
  split
  · simp [h, rank]
  · cases parseHeader m with
    | error e => simp [h, rank]
    | ok r => simp only; split <;> simp [rank, h]

theorem recvStep_idle {st : SyncSt} (h : st.rpc = .idle) : recvStep st = st := by
  unfold recvStep; rw [h]

/-- A step of the network does nothing or leaves less to do. -/
theorem load_step {h : Handle σ} (hp : Polite h) {n : Net σ} (hi : NetInv n) (hpl : ∀ m ∈ asked n, Plain m) {op : NOp σ} (hn : IsNet op) :
    step h n op = n ∨ load (step h n op) < load n := by
  cases op with
  | ctl o =>
    cases o with
    | recvStep =>
      by_cases hr : n.ctl.rpc = .idle
      · left
        simp only [step, syncOp, recvStep_idle hr]
        simp
      · right
        have := rank_recvStep hr
        have hs := (passive_recvStep n.ctl).sent
        simp only [step, syncOp, load, hs]
        simp
        exact this
    | _ => simp [IsNet] at hn
  | switch x =>
    simp only [step]
    split
    · rename_i hal
      split
      · exact .inl rfl
      · rename_i m up hu
        right
        obtain ⟨out, g1, g2, g3⟩ := message_polite hp x n.sw hi.version (hpl m (by rw [hi.asked, hu]; simp))
        have hd : (message (.seq [.int 4]) x h n.sw m).1.sent.drop n.sw.sent.length = out := by rw [g1]; simp
        have hl : out.length ≤ 1 := by rcases g3 with rfl | ⟨r, rfl, _⟩ <;> simp
        simp only [hd, load, hal, hu, if_true, List.length_append, List.length_cons]
        split <;> omega
    · exact .inl rfl
  | own u bs => simp [IsNet] at hn
  | deliver =>
    simp only [step]
    split
    · rename_i m down hr hd
      right
      have := rank_recvBegin m hr
      have h0 : rank .idle = 0 := rfl
      simp only [load, syncOp, hd, hr, List.length_cons]
      omega
    · exact .inl rfl

theorem step_threads_net (h : Handle σ) (n : Net σ) {op : NOp σ} (hn : IsNet op) : (step h n op).ctl.threads = n.ctl.threads ∧
    asked (step h n op) = asked n := by
  cases op with
  | ctl o =>
    cases o with
    | recvStep => exact ⟨(passive_recvStep n.ctl).threads, by simp only [asked, step, syncOp, (passive_recvStep n.ctl).sent]⟩
    | _ => simp [IsNet] at hn
  | switch x => simp only [step]; split <;> (try split) <;> exact ⟨rfl, rfl⟩
  | own u bs => simp [IsNet] at hn
  | deliver =>
    simp only [step]
    split
    · rename_i m down _ _
      exact ⟨(passive_recvBegin n.ctl m).threads, by simp only [asked, syncOp, (passive_recvBegin n.ctl m).sent]⟩
    · exact ⟨rfl, rfl⟩

theorem message_takes {h : Handle σ} (x : Nat) (s : Sess σ) (hv : s.version = some 4) {m : Bytes} (hm : Plain m) (ht : Takes h m) :
    (message (.seq [.int 4]) x h s m).2 = .ok () := by
  rw [message_other x h s hm.1.1 hm.2]
  by_cases h2 : u8 m 1 = 2
  · rw [intercept_echo h s hm.1 h2 hv]
  · rw [intercept_handle h s hm.1.1 h2]
    exact ht.resolve_left h2 s.user

theorem alive_net {h : Handle σ} {n : Net σ} (hi : NetInv n) (hpl : ∀ m ∈ asked n, Plain m) (ht : ∀ m ∈ asked n, Takes h m) (ha : n.alive = true)
    (op : NOp σ) : (step h n op).alive = true := by
  cases op with
  | ctl o => cases o <;> exact ha
  | switch x =>
    simp only [step, ha, if_true]
    split
    · exact ha
    · rename_i m up hu
      have hm : m ∈ asked n := by rw [hi.asked, hu]; simp
      simp only [message_takes x n.sw hi.version (hpl m hm) (ht m hm), returned]
  | own u bs => simp only [step, ha, if_true]
  | deliver => simp only [step]; split <;> exact ha

theorem alive_all {h : Handle σ} (hp : Polite h) {n : Net σ} (hi : NetInv n) (ops : List (NOp σ)) (hpl : ∀ m ∈ asked (run h n ops), Plain m)
    (ht : ∀ m ∈ asked (run h n ops), Takes h m) (ho : OwnLong ops) (ha : n.alive = true) : (run h n ops).alive = true := by
  induction ops generalizing n with
  | nil => exact ha
  | cons op ops ih =>
    have hsub := (asked_run h n (op :: ops)).subset
    exact ih (netInv_step hp hi op (fun m hm => hpl m (hsub hm)) fun u bs e => ho u bs (by simp [e])) hpl ht (fun u bs hu => ho u bs (by simp [hu]))
      (alive_net hi (fun m hm => hpl m (hsub hm)) (fun m hm => ht m (hsub hm)) ha op)

/-- While something is on the way, a step of the network has something to do. -/
theorem busy {h : Handle σ} (n : Net σ) (ha : n.alive = true) (hr : ¬ AtRest n) :
    ∃ op : NOp σ, IsNet op ∧ (load (step h n op) < load n ∨ step h n op ≠ n) := by
  by_cases h1 : n.ctl.rpc = .idle
  · cases hd : n.down with
    | cons m down =>
      refine ⟨.deliver, trivial, .inl ?_⟩
      have := rank_recvBegin m h1
      have h0 : rank .idle = 0 := rfl
      simp only [step, h1, hd, load, syncOp, List.length_cons]
      omega
    | nil =>
      cases hu : n.up with
      | nil => exact absurd ⟨hu, hd, h1⟩ hr
      | cons m up =>
        refine ⟨.switch 0, trivial, .inr fun e => ?_⟩
        have : (step h n (.switch 0)).up = up := by simp only [step, ha, if_true, hu]
        rw [e, hu] at this
        have := congrArg List.length this
        simp at this
  · refine ⟨.ctl .recvStep, trivial, .inl ?_⟩
    have := rank_recvStep h1
    have hs := (passive_recvStep n.ctl).sent
    simp only [step, syncOp, load, hs]
    simp
    exact this

theorem netOwn {ops : List (NOp σ)} (h : ∀ op ∈ ops, IsNet op) : ∀ u bs, NOp.own u bs ∉ ops := by
  intro u bs hm
  have := h _ hm
  simp [IsNet] at this

/-- The network comes to rest, whatever was on the way. -/
theorem drain {h : Handle σ} (hp : Polite h) (k : Nat) : ∀ (n : Net σ), load n ≤ k → NetInv n → (∀ m ∈ asked n, Plain m) → (∀ m ∈ asked n, Takes h m) →
    n.alive = true → ∃ ops : List (NOp σ), (∀ op ∈ ops, IsNet op) ∧ ops.length ≤ k ∧ AtRest (run h n ops) := by
  induction k with
  | zero =>
    intro n hl hi hpl ht ha
    by_cases hr : AtRest n
    · exact ⟨[], by simp, by simp, hr⟩
    · obtain ⟨op, h1, h2⟩ := busy (h := h) n ha hr
      rcases load_step hp hi hpl h1 with h3 | h3
      · rw [h3] at h2; rcases h2 with h2 | h2
        · omega
        · exact absurd rfl h2
      · omega
  | succ k ih =>
    intro n hl hi hpl ht ha
    by_cases hr : AtRest n
    · exact ⟨[], by simp, by simp, hr⟩
    · obtain ⟨op, h1, h2⟩ := busy (h := h) n ha hr
      have h3 : load (step h n op) < load n := by
        rcases h2 with h2 | h2
        · exact h2
        · exact (load_step hp hi hpl h1).resolve_left h2
      have hask := (step_threads_net h n h1).2
      have hi' := netInv_step hp hi op hpl (fun u bs e => by subst e; simp [IsNet] at h1)
      obtain ⟨ops, g1, g2, g3⟩ := ih (step h n op) (by omega) hi' (by rw [hask]; exact hpl) (by rw [hask]; exact ht) (alive_net hi hpl ht ha op)
      exact ⟨op :: ops, by simpa using ⟨h1, g1⟩, by simp; omega, g3⟩

theorem run_net (h : Handle σ) (n : Net σ) {ops : List (NOp σ)} (hn : ∀ op ∈ ops, IsNet op) :
    (run h n ops).ctl.threads = n.ctl.threads ∧ asked (run h n ops) = asked n := by
  induction ops generalizing n with
  | nil => exact ⟨rfl, rfl⟩
  | cons op ops ih =>
    obtain ⟨h1, h2⟩ := ih (step h n op) (fun o ho => hn o (by simp [ho]))
    obtain ⟨h3, h4⟩ := step_threads_net h n (hn op (by simp))
    exact ⟨h1.trans h3, h2.trans h4⟩

/-! ## The log -/

theorem log_all {h : Handle σ} (hp : Polite h) (P : Bytes → List Bytes → Prop)
    (hP : ∀ (x : Nat) (s : Sess σ) (m : Bytes) (out : List Bytes), s.version = some 4 → Plain m →
      (message (.seq [.int 4]) x h s m).1.sent = s.sent ++ out → P m out)
    {n : Net σ} (hi : NetInv n) (hl : ∀ e ∈ n.log, P e.1 e.2) (ops : List (NOp σ)) (hpl : ∀ m ∈ asked (run h n ops), Plain m) (ho : OwnLong ops) :
    ∀ e ∈ (run h n ops).log, P e.1 e.2 := by
  induction ops generalizing n with
  | nil => exact hl
  | cons op ops ih =>
    have hs : ∀ m ∈ asked n, Plain m := fun m hm => hpl m ((asked_run h n (op :: ops)).subset hm)
    refine ih (netInv_step hp hi op hs fun u bs e => ho u bs (by simp [e])) ?_ hpl fun u bs hu => ho u bs (by simp [hu])
    cases op with
    | ctl o => cases o <;> exact hl
    | switch x =>
      simp only [step]
      split
      · split
        · exact hl
        · rename_i m up hu
          have hm : Plain m := hs m (by rw [hi.asked, hu]; simp)
          obtain ⟨out, g1, _, _⟩ := message_polite hp x n.sw hi.version hm
          have hd : (message (.seq [.int 4]) x h n.sw m).1.sent.drop n.sw.sent.length = out := by rw [g1]; simp
          intro e he
          simp only [hd, List.mem_append, List.mem_singleton] at he
          rcases he with he | rfl
          · exact hl e he
          · exact hP x n.sw m out hi.version hm g1
      · exact hl
    | own u bs => simp only [step]; split <;> exact hl
    | deliver => simp only [step]; split <;> exact hl

theorem heeds_message {h : Handle σ} (x : Nat) (s : Sess σ) (m : Bytes) (out : List Bytes) (hv : s.version = some 4) (hm : Plain m)
    (ho : (message (.seq [.int 4]) x h s m).1.sent = s.sent ++ out) (hh : Heeds h m) : out ≠ [] := by
  rw [message_other x h s hm.1.1 hm.2] at ho
  by_cases h2 : u8 m 1 = 2
  · rw [intercept_echo h s hm.1 h2 hv] at ho
    have := List.append_cancel_left ho
    rw [← this]; simp
  · rw [intercept_handle h s hm.1.1 h2] at ho
    have := List.append_cancel_left ho
    rw [← this]; exact hh.resolve_left h2 s.user

/-! ## Calls -/

/-- A call past sending has sent its message. -/
theorem sent_since {st : SyncSt} {i : Nat} {c : SCall} (h : st.threads[i]? = some (.sync c)) (hc : c.pc = .sending) (ops : List SyncOp) {c' : SCall}
    (h' : (syncRun st ops).threads[i]? = some (.sync c')) (h1 : c'.pc ≠ .sending) (h2 : ∀ e, c'.pc ≠ .failed e) :
    c.msg ∈ ((syncRun st ops).sent.drop st.sent.length).map (·.1) := by
  induction ops generalizing st c with
  | nil =>
    simp only [syncRun] at h'
    rw [h] at h'; injection h' with h'; injection h' with h'; subst h'
    exact absurd hc h1
  | cons op ops ih =>
    simp only [syncRun] at h' ⊢
    rcases thread_other op h with hk | ⟨ch, rfl⟩
    · have := ih hk hc h'
      obtain ⟨l, hl⟩ := sent_step st op
      obtain ⟨l', hl'⟩ := sent_run (syncOp st op) ops
      rw [hl'] at this ⊢
      rw [hl] at this ⊢
      rw [List.drop_left] at this
      rw [List.append_assoc, List.drop_left]
      simp only [List.map_append, List.mem_append] at this ⊢
      exact .inr this
    · have hown := thread_own_sync ch h
      by_cases hs : ch.sendOk = true
      · obtain ⟨l', hl'⟩ := sent_run (syncOp st (.thread i ch)) ops
        have e : (syncOp st (.thread i ch)).sent = st.sent ++ [(c.msg, st.rx.length)] := by
          simp [syncOp, h, syncStep, hc, hs]
        rw [hl', e, List.append_assoc, List.drop_left]
        simp
      · have e : (syncStep ch st c).2.pc = .failed .other := by simp [syncStep, hc, hs]
        have := failed_run hown e ops
        rw [h'] at this; injection this with this; injection this with this
        exact absurd (this ▸ e) (h2 _)

/-- Distinct ids in the whole are distinct ids of the controller. -/
theorem distinct_ctl {h : Handle σ} {n : Net σ} {ops : List (NOp σ)} (hd : Distinct h n ops) : DistinctRun n.ctl (ctlOps h n ops) := by
  induction ops generalizing n with
  | nil => exact hd 0
  | cons op ops ih =>
    have h0 := hd 0
    have ht : Distinct h (step h n op) ops := fun k => hd (k + 1)
    have hrec := ih ht
    have hs := step_ctl h n op
    have e : ctlOps h n (op :: ops) = ctlOps h n [op] ++ ctlOps h (step h n op) ops := by
      have := ctlOps_append h n [op] ops
      simpa [run] using this
    rw [e]
    have hl : ctlOps h n [op] = [] ∨ ∃ o, ctlOps h n [op] = [o] := by
      simp only [ctlOps, List.append_nil]
      cases op with
      | ctl o => cases o <;> simp
      | switch x => simp
      | own u bs => simp
      | deliver => cases n.ctl.rpc <;> cases n.down <;> simp
    rcases hl with hl | ⟨o, hl⟩
    · rw [hl] at hs ⊢
      simp only [syncRun] at hs
      rw [hs] at hrec
      simpa using hrec
    · rw [hl] at hs ⊢
      simp only [syncRun] at hs
      rw [hs] at hrec
      exact ⟨h0, hrec⟩

end Twink.Wired
