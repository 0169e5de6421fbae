import Verif.Proof.Life

/-!
# Property C122: the software switch keeps serving its controller
-/

namespace Twink.Life
open Spec Session

/-! ## As long as it serves -/

/-- **C122, exactly when the switch serves.** However the attempts to connect end, whatever the controller sends, whatever calls are made, and whenever the connection
breaks, the switch serves at the end if and only if an attempt succeeded, all attempts before it were refused, and since then the controller has neither hung up nor been cut
off, and every message it sent was one that the switch, with the flows and ports it had then, survives. -/
theorem C122_exact (u : Agent.St) (ops : List Op) (hx : ∀ d x, Op.dial d x ∈ ops → x < 2 ^ 32) :
    Serves (runs (init u) ops) ↔ ∃ pre x post, ops = pre ++ .dial .connected x :: post ∧ (∀ d y, Op.dial d y ∈ pre → d = .refused) ∧
      ∀ a op b, post = a ++ op :: b → Harmless (runs (init u) (pre ++ .dial .connected x :: a)) op := by
  have key : (runs (init u) ops = init u ∧ ∀ d y, Op.dial d y ∈ ops → d = .refused) ∨
      (∃ pre y post, ops = pre ++ .dial .failed y :: post ∧ (∀ d y, Op.dial d y ∈ pre → d = .refused) ∧ (runs (init u) ops).phase = .dead) ∨
      (∃ pre x post, ops = pre ++ .dial .connected x :: post ∧ (∀ d y, Op.dial d y ∈ pre → d = .refused) ∧ (runs (init u) ops).phase = .serving ∧
        Agreed (runs (init u) ops) ∧ ((runs (init u) ops).link = .live ↔
          ∀ a op b, post = a ++ op :: b → Harmless (runs (init u) (pre ++ .dial .connected x :: a)) op)) := by
    induction ops using List.reverseRecOn with
    | nil => left; exact ⟨rfl, by simp⟩
    | append_singleton l op ih =>
      rw [runs_snoc]
      rcases ih fun d x h => hx d x (by simp [h]) with ⟨he, hr⟩ | ⟨pre, y, post, rfl, hr, hp⟩ | ⟨pre, x, post, rfl, hr, hp, hv, hl⟩
      · rw [he]
        cases op with
        | dial d x =>
          cases d with
          | refused =>
            left
            refine ⟨rfl, fun d y h => ?_⟩
            rcases List.mem_append.1 h with h | h
            · exact hr d y h
            · simp only [List.mem_singleton, Op.dial.injEq] at h; exact h.1
          | failed => right; left; exact ⟨l, x, [], rfl, hr, rfl⟩
          | connected =>
            right; right
            have hh := hello13_eq x (hx _ x (List.mem_append_right l (List.mem_singleton.2 rfl)))
            have e : step (init u) (.dial .connected x) = { init u with phase := .serving, link := .live, sess := { (init u).sess with sent := [hello13 x] } } := by
              simp only [step, init, hh]; rfl
            refine ⟨l, x, [], rfl, hr, ?_, ?_, ?_⟩
            · rw [e]
            · rw [e]; exact .inl rfl
            · rw [e]
              exact ⟨fun _ a op b h => absurd h (by simp), fun _ => rfl⟩
        | message o rnd x m => left; exact ⟨rfl, fun d y h => hr d y (by simpa using h)⟩
        | hangup => left; exact ⟨rfl, fun d y h => hr d y (by simpa using h)⟩
        | cut => left; exact ⟨rfl, fun d y h => hr d y (by simpa using h)⟩
        | call o rnd op => left; exact ⟨rfl, fun d y h => hr d y (by simpa using h)⟩
      · right; left
        refine ⟨pre, y, post ++ [op], by simp, hr, ?_⟩
        generalize runs (init u) (pre ++ Op.dial Dial.failed y :: post) = s at hp
        cases op <;> simp only [step, hp] <;> simp [hp]
      · right; right
        refine ⟨pre, x, post ++ [op], by simp, hr, ?_⟩
        by_cases hlv : (runs (init u) (pre ++ .dial .connected x :: post)).link = .live
        · have hs : Serves (runs (init u) (pre ++ .dial .connected x :: post)) := ⟨hp, hlv⟩
          obtain ⟨h1, h2⟩ := step_iff _ hs hv op
          have h3 : (step (runs (init u) (pre ++ .dial .connected x :: post)) op).phase = .serving := by
            cases op with
            | dial d x => simp only [step, hp]
            | message o rnd x m => simp only [step]; rw [if_pos ⟨hp, hlv⟩, receive_phase, hp]
            | hangup => simp only [step]; rw [if_pos ⟨hp, hlv⟩]; exact hp
            | cut => simp only [step]; rw [if_pos hp]; exact hp
            | call o rnd op => simp only [step, hp, hlv, if_true]; exact hp
          refine ⟨h3, h2, ⟨fun h a op' b e => ?_, fun h => ?_⟩⟩
          · rcases List.eq_nil_or_concat b with rfl | ⟨b', z, rfl⟩
            · obtain ⟨e1, e2⟩ := List.append_inj' e rfl
              cases e2
              subst e1
              exact h1.1 ⟨h3, h⟩
            · rw [List.concat_eq_append, ← List.cons_append, ← List.append_assoc] at e
              exact hl.1 hlv a op' b' (List.append_inj' e rfl).1
          · exact (h1.2 (h post op [] rfl)).2
        · obtain ⟨h1, h2, h3, _⟩ := step_ended _ hp hlv op
          refine ⟨h1, ?_, ⟨fun h => absurd h h2, fun h => absurd (hl.2 fun a op' b e => ?_) hlv⟩⟩
          · unfold Agreed; rw [h3]; exact hv
          · exact h a op' (b ++ [op]) (by rw [e]; simp)
  constructor
  · rintro ⟨h1, h2⟩
    rcases key with ⟨he, _⟩ | ⟨_, _, _, _, _, hp⟩ | ⟨pre, x, post, e, hr, _, _, hl⟩
    · rw [he] at h1; cases h1
    · rw [hp] at h1; cases h1
    · exact ⟨pre, x, post, e, hr, hl.1 h2⟩
  · rintro ⟨pre, x, post, e, hr, h⟩
    rcases key with ⟨_, hr'⟩ | ⟨pre', y, post', e', hr', _⟩ | ⟨pre', x', post', e', hr', hp, _, hl⟩
    · have := hr' .connected x (by rw [e]; simp)
      cases this
    · rw [e] at e'
      rcases List.append_eq_append_iff.1 e' with ⟨w, e1, e2⟩ | ⟨w, e1, e2⟩
      · cases w with
        | nil => cases e2
        | cons z w =>
          simp only [List.cons_append, List.cons.injEq] at e2
          have := hr' .connected x (by rw [e1, e2.1]; simp)
          cases this
      · cases w with
        | nil => cases e2
        | cons z w =>
          simp only [List.cons_append, List.cons.injEq] at e2
          have := hr .failed y (by rw [e1, e2.1]; simp)
          cases this
    · have : pre = pre' ∧ Op.dial .connected x :: post = .dial .connected x' :: post' := by
        rw [e] at e'
        rcases List.append_eq_append_iff.1 e' with ⟨w, e1, e2⟩ | ⟨w, e1, e2⟩
        · cases w with
          | nil => exact ⟨by simpa using e1.symm, by simpa using e2⟩
          | cons z w =>
            simp only [List.cons_append, List.cons.injEq] at e2
            have := hr' .connected x (by rw [e1, e2.1]; simp)
            cases this
        · cases w with
          | nil => exact ⟨by simpa using e1, by simpa using e2.symm⟩
          | cons z w =>
            simp only [List.cons_append, List.cons.injEq] at e2
            have := hr .connected x' (by rw [e1, e2.1]; simp)
            cases this
      obtain ⟨rfl, e2⟩ := this
      cases e2
      exact ⟨hp, hl.2 h⟩

/-- An attempt that succeeds after one that was refused, and then a call. -/
example (u : Agent.St) (o : Agent.Order) : Serves (runs (init u) [.dial .refused 0, .dial .connected 2, .call o 0 (.del [100] true)]) :=
  (C122_exact u _ (by simp; omega)).2 ⟨[.dial .refused 0], 2, [.call o 0 (.del [100] true)], rfl, (by
    intro d y h
    simp only [List.mem_cons, Op.dial.injEq, List.not_mem_nil, or_false] at h
    exact h.1), (by
    intro a op b h
    rcases a with _ | ⟨x, a⟩
    · simp only [List.nil_append, List.cons.injEq] at h; rw [← h.1]; trivial
    · simp at h)⟩

/-- **C122, as long as it serves**: a request that the switch survives is answered by exactly one message, a reply of the right type with the id of the request, and
nothing else is sent. -/
theorem C122_answers_partial (o : Agent.Order) (rnd xid : Nat) (s : St) (hs : Serves s) (hv : Agreed s) (m : Bytes) (hm : Survives s.sess m) (t : Nat)
    (ht : Agent.replyType m = some t) :
    ∃ r, Agent.Replies m t r ∧ (step s (.message o rnd xid m)).sess = { s.sess with sent := s.sess.sent ++ [r] } ∧ Serves (step s (.message o rnd xid m)) := by
  have hne : m ≠ [] := by rintro rfl; have := hm.1; simp at this
  have h8 := hm.1
  have h02 : u8 m 1 ≠ 0 ∧ u8 m 1 ≠ 2 := by
    constructor <;> intro h <;> simp [Agent.replyType, h] at ht
  have e : step s (.message o rnd xid m) = receive o rnd xid s m := if_pos hs
  have hsv := (receive_iff o rnd xid s hs hv m).1.2 hm
  have hok := (message_iff o rnd xid s.sess hv m hne).1.2 hm
  rw [e]
  unfold receive at hsv ⊢
  rw [if_neg hne] at hsv ⊢
  rw [message_other xid _ _ h8 h02.1, intercept_handle _ _ h8 h02.2] at hok hsv ⊢
  have hok : (agentHandle o rnd s.sess.user m).2.2 = .ok () := hok
  unfold agentHandle at hok hsv ⊢
  cases hp : Agent.switchProc o rnd s.sess.user m with
  | error e => rw [hp] at hok; cases hok
  | ok x =>
    obtain ⟨st', es⟩ := x
    rw [hp] at hsv
    obtain ⟨h1, r, rfl, h2⟩ := (Agent.C50_answers_partial o rnd s.sess.user st' m es hp).1 t ht
    subst h1
    exact ⟨r, h2, rfl, hsv⟩

/-! ## Once it does not -/

/-- C122 is false: the switch connects only once.  Once the loop has ended, whatever happens then, it does not serve, its flows stay as they were, and no message is
looked at. -/
theorem C122_again_refuted (s : St) (hp : s.phase = .serving) (hl : s.link ≠ .live) (ops : List Op) :
    ¬ Serves (runs s ops) ∧ (runs s ops).phase = .serving ∧ (runs s ops).sess.user.flows = s.sess.user.flows ∧
      ∀ o rnd xid m, step (runs s ops) (.message o rnd xid m) = runs s ops := by
  have : (runs s ops).phase = .serving ∧ (runs s ops).link ≠ .live ∧ (runs s ops).sess.user.flows = s.sess.user.flows := by
    induction ops using List.reverseRecOn with
    | nil => exact ⟨hp, hl, rfl⟩
    | append_singleton l op ih =>
      rw [runs_snoc]
      obtain ⟨h1, h2, _, h4, _⟩ := step_ended _ ih.1 ih.2.1 op
      exact ⟨h1, h2, h4.trans ih.2.2⟩
  exact ⟨fun h => this.2.1 h.2, this.1, this.2.2, fun o rnd xid m => if_neg fun h => this.2.1 h.2⟩

/-- C122 is false: a flow mod that the controller sends twice, which OpenFlow allows, ends the service for good. -/
theorem C122_twice_refuted (o : Agent.Order) (rnd xid : Nat) (s : St) (hs : Serves s) (hv : Agreed s) (m : Bytes) (ht : u8 m 1 = 14) (ops : List Op) :
    ¬ Serves (runs (step (step s (.message o rnd xid m)) (.message o rnd xid m)) ops) := by
  have e : step s (.message o rnd xid m) = receive o rnd xid s m := if_pos hs
  obtain ⟨h1, h2⟩ := receive_iff o rnd xid s hs hv m
  have hph : (receive o rnd xid s m).phase = .serving := (receive_phase ..).trans hs.1
  rw [e]
  by_cases h3 : Serves (receive o rnd xid s m)
  · have e2 : step (receive o rnd xid s m) (.message o rnd xid m) = receive o rnd xid (receive o rnd xid s m) m := if_pos h3
    rw [e2]
    have h4 := (receive_iff o rnd xid _ h3 h2 m).1
    refine (C122_again_refuted _ ((receive_phase ..).trans hph) (fun hl => ?_) ops).1
    have h5 := h4.1 ⟨(receive_phase ..).trans hph, hl⟩
    have h6 := h1.1 h3
    obtain ⟨msg, hp, hsd⟩ := h5.2.2.2 (by omega)
    obtain ⟨msg', hp', hsd'⟩ := h6.2.2.2 (by omega)
    rw [hp] at hp'
    cases hp'
    have hty : (Agent.hdrOf msg).type = 14 := by rw [(Agent.parse_hdr hp).2.2.1]; exact ht
    have hne : m ≠ [] := by rintro rfl; have := h6.1; simp at this
    have hok := (message_iff o rnd xid s.sess hv m hne).1.2 h6
    have hu : ∃ st' es, Agent.switchProc o rnd s.sess.user m = .ok (st', es) ∧ (receive o rnd xid s m).sess.user = st' := by
      unfold receive
      rw [if_neg hne, message_other xid _ _ h6.1 (by omega), intercept_handle _ _ h6.1 (by omega)]
      rw [message_other xid _ _ h6.1 (by omega), intercept_handle _ _ h6.1 (by omega)] at hok
      have hok : (agentHandle o rnd s.sess.user m).2.2 = .ok () := hok
      unfold agentHandle at hok ⊢
      cases hp : Agent.switchProc o rnd s.sess.user m with
      | error e => rw [hp] at hok; cases hok
      | ok x => exact ⟨x.1, x.2, rfl, rfl⟩
    obtain ⟨st', es, h7, h8⟩ := hu
    rw [h8] at hsd
    rw [Agent.switchProc_of hp] at h7
    cases hsd with
    | plain _ h => rw [hty] at h; simp at h
    | flow hd c cm tb cmd i hr p b op og f mt is ht hc =>
      have hd7 := Agent.does_of h7
      cases hd7 with
      | flow => exact hc _ (List.mem_append_right _ (List.mem_singleton.2 rfl))
      | features _ _ _ h5 => rw [hty] at h5; cases h5
      | config _ _ _ h5 => rw [hty] at h5; cases h5
      | quiet _ h5 => rw [hty] at h5; omega
    | packet hd b i l ty ln port ml as d ht hp => simp only [Agent.hdrOf] at hty; omega
    | ask hd type fl bd ht hf hp => simp only [Agent.hdrOf] at hty; omega
  · have hl : (receive o rnd xid s m).link ≠ .live := fun h => h3 ⟨hph, h⟩
    have h4 := (C122_again_refuted _ hph hl [])
    have e2 : step (receive o rnd xid s m) (.message o rnd xid m) = receive o rnd xid s m := h4.2.2.2 o rnd xid m
    rw [e2]
    exact (C122_again_refuted _ hph hl ops).1

/-- A switch that serves and has agreed on version 4 meets the hypotheses. -/
example (u : Agent.St) : Serves ⟨.serving, .live, ⟨some 4, [], u⟩, []⟩ ∧ Agreed ⟨.serving, .live, ⟨some 4, [], u⟩, []⟩ := ⟨⟨rfl, rfl⟩, .inr rfl⟩

/-! ## The port manager -/

/-- **C122, the port manager with a connection**: a call does what the port manager does, even if nobody listens any more, and what it sends is sent. -/
theorem C122_calls_partial (o : Agent.Order) (rnd : Nat) (s : St) (hp : s.phase = .serving) (hl : s.link ≠ .broken) (op : Agent.Op) :
    let r := Agent.portOp o rnd s.sess.user op
    (step s (.call o rnd op)).sess.user = r.1 ∧ (step s (.call o rnd op)).calls = s.calls ++ [r.2.2] ∧
      (step s (.call o rnd op)).sess.sent = s.sess.sent ++ sends r.2.1 := by
  have : step s (.call o rnd op) = call o rnd s op := by
    simp only [step, hp, if_true]; rw [if_neg hl]
  rw [this]
  exact ⟨rfl, rfl, rfl⟩

/-- C122 is false of the port manager: once the connection is broken, and whatever happens then, nothing is sent, no call succeeds, and the ports there are stay. -/
theorem C122_broken_refuted (s : St) (hp : s.phase = .serving) (hl : s.link = .broken) (ht : Agent.Tidy s.sess.user) (ops : List Op) :
    (runs s ops).sess.sent = s.sess.sent ∧ (∃ new, (runs s ops).calls = s.calls ++ new ∧ ∀ r ∈ new, ∀ no, r ≠ .ok (.added no) ∧ r ≠ .ok (.deleted no)) ∧
      ∀ e ∈ s.sess.user.ports, e ∈ (runs s ops).sess.user.ports := by
  have : (runs s ops).phase = .serving ∧ (runs s ops).link = .broken ∧ Agent.Tidy (runs s ops).sess.user ∧ (runs s ops).sess.sent = s.sess.sent ∧
      (∃ new, (runs s ops).calls = s.calls ++ new ∧ ∀ r ∈ new, ∀ no, r ≠ .ok (.added no) ∧ r ≠ .ok (.deleted no)) ∧
      ∀ e ∈ s.sess.user.ports, e ∈ (runs s ops).sess.user.ports := by
    induction ops using List.reverseRecOn with
    | nil => exact ⟨hp, hl, ht, rfl, ⟨[], by simp [runs], by simp⟩, fun e h => h⟩
    | append_singleton l op ih =>
      rw [runs_snoc]
      generalize runs s l = t at ih
      obtain ⟨h1, h2, h3, h4, ⟨new, h5, h6⟩, h7⟩ := ih
      have hst : ∀ op, (∀ o rnd c, op ≠ .call o rnd c) → step t op = t := by
        intro op hop
        cases op with
        | dial d x => simp only [step, h1]
        | message o rnd x m => exact if_neg fun h => by rw [h2] at h; cases h.2
        | hangup => exact if_neg fun h => by rw [h2] at h; cases h.2
        | cut => obtain ⟨a, b, c, d⟩ := t; subst h1 h2; rfl
        | call o rnd c => exact absurd rfl (hop o rnd c)
      cases op with
      | call o rnd c =>
        have e : step t (.call o rnd c) = callBroken o rnd t c := by simp only [step, h1, h2, if_true]
        rw [e]
        obtain ⟨k1, k2, _, k4⟩ := callBroken_keeps o rnd t c
        obtain ⟨u, r, hc, _, hr, hu⟩ := callBroken_cases o rnd t c
        have htd : Agent.Tidy (callBroken o rnd t c).sess.user ∧ ∀ e ∈ t.sess.user.ports, e ∈ (callBroken o rnd t c).sess.user.ports := by
          cases c with
          | add dev mac cr sk =>
            unfold callBroken
            simp only
            rcases Agent.addPort_cases rnd t.sess.user dev mac cr sk with ⟨_, he⟩ | ⟨hn, e, he⟩ | ⟨hn, hw, sk, _, _, _, e, ⟨_, he⟩ | ⟨m, _, he⟩⟩ <;>
              rw [he]
            · exact ⟨h3, fun e h => h⟩
            · exact ⟨Agent.tidy_bump h3 hn, fun e h => h⟩
            · refine ⟨Agent.tidy_add h3 hn hw dev sk, fun e h => ?_⟩
              show e ∈ Agent.put _ _ _
              rw [Agent.put_new (h3.new_no hn)]
              simp [h]
            · refine ⟨Agent.tidy_add h3 hn hw dev sk, fun e h => ?_⟩
              show e ∈ Agent.put _ _ _
              rw [Agent.put_new (h3.new_no hn)]
              simp [h]
          | del dev d =>
            unfold callBroken
            simp only
            rcases Agent.delPort_cases o rnd t.sess.user dev d with ⟨_, he⟩ | ⟨e, _, _, ⟨_, _, he⟩ | ⟨m, _, ⟨_, he⟩ | ⟨_, he⟩⟩⟩ <;>
              rw [he] <;> exact ⟨h3, fun e h => h⟩
        refine ⟨k1.trans h1, k2.trans h2, htd.1, k4.trans h4, ?_, fun e h => htd.2 e (h7 e h)⟩
        refine ⟨new ++ [r], by rw [hc, h5]; simp, fun r' hr' no => ?_⟩
        rcases List.mem_append.1 hr' with hr' | hr'
        · exact h6 r' hr' no
        · rw [List.mem_singleton] at hr'
          subst hr'
          rcases hr with rfl | rfl | ⟨e, rfl⟩ <;> exact ⟨by simp, by simp⟩
      | dial d x => rw [hst _ (by simp)]; exact ⟨h1, h2, h3, h4, ⟨new, h5, h6⟩, h7⟩
      | message o rnd x m => rw [hst _ (by simp)]; exact ⟨h1, h2, h3, h4, ⟨new, h5, h6⟩, h7⟩
      | hangup => rw [hst _ (by simp)]; exact ⟨h1, h2, h3, h4, ⟨new, h5, h6⟩, h7⟩
      | cut => rw [hst _ (by simp)]; exact ⟨h1, h2, h3, h4, ⟨new, h5, h6⟩, h7⟩
  exact ⟨this.2.2.2.1, this.2.2.2.2⟩

/-- The tables of the start are tidy. -/
example : Agent.Tidy (Agent.start none none) := Agent.tidy_start _ _

/-- C122 is false of the port manager: when the connection is broken, adding a port raises though the port is in the table; a client that tries `n` times has added the
device `n` times. -/
theorem C122_retry_refuted (rnd : Nat) (o : Agent.Order) (s : St) (hp : s.phase = .serving) (hl : s.link = .broken) (ht : Agent.Tidy s.sess.user)
    (dev mac hw : Bytes) (sock : Option Nat) (hm : Agent.a2bHex (mac.take 12) = .ok hw) (n : Nat) (hn : s.sess.user.lastNo + n < 0xfffffffe) :
    ∃ t, runs s (List.replicate n (.call o rnd (.add dev mac true (some sock)))) = t ∧
      t.sess.user.ports = s.sess.user.ports ++ (List.range n).map (fun i => (s.sess.user.lastNo + 1 + i, Agent.newPort (s.sess.user.lastNo + 1 + i) hw dev sock)) ∧
      ∃ new, t.calls = s.calls ++ new ∧ new.length = n ∧ ∀ r ∈ new, ∃ e, r = .error e := by
  refine ⟨_, rfl, ?_⟩
  have : (runs s (List.replicate n (.call o rnd (.add dev mac true (some sock))))).phase = .serving ∧
      (runs s (List.replicate n (.call o rnd (.add dev mac true (some sock))))).link = .broken ∧
      Agent.Tidy (runs s (List.replicate n (.call o rnd (.add dev mac true (some sock))))).sess.user ∧
      (runs s (List.replicate n (.call o rnd (.add dev mac true (some sock))))).sess.user.lastNo = s.sess.user.lastNo + n ∧
      (runs s (List.replicate n (.call o rnd (.add dev mac true (some sock))))).sess.user.ports =
        s.sess.user.ports ++ (List.range n).map (fun i => (s.sess.user.lastNo + 1 + i, Agent.newPort (s.sess.user.lastNo + 1 + i) hw dev sock)) ∧
      ∃ new, (runs s (List.replicate n (.call o rnd (.add dev mac true (some sock))))).calls = s.calls ++ new ∧ new.length = n ∧
        ∀ r ∈ new, ∃ e, r = .error e := by
    induction n with
    | zero => exact ⟨hp, hl, ht, rfl, by simp [runs], [], by simp [runs], rfl, by simp⟩
    | succ n ih =>
      rw [List.replicate_succ', runs_snoc]
      have ih := ih (by omega)
      generalize runs s (List.replicate n (.call o rnd (.add dev mac true (some sock)))) = t at ih
      obtain ⟨h1, h2, h3, h4, h5, new, h6, h7, h8⟩ := ih
      have e : step t (.call o rnd (.add dev mac true (some sock))) = callBroken o rnd t (.add dev mac true (some sock)) := by
        simp only [step, h1, h2, if_true]
      rw [e]
      unfold callBroken
      simp only
      have hports : Agent.put t.sess.user.ports (t.sess.user.lastNo + 1) (Agent.newPort (t.sess.user.lastNo + 1) hw dev sock) =
          s.sess.user.ports ++ (List.range (n + 1)).map (fun i => (s.sess.user.lastNo + 1 + i, Agent.newPort (s.sess.user.lastNo + 1 + i) hw dev sock)) := by
        rw [Agent.put_new (h3.new_no (by omega)), h5, h4, List.range_succ, List.map_append, List.append_assoc,
          show s.sess.user.lastNo + n + 1 = s.sess.user.lastNo + 1 + n by omega]
        rfl
      rcases Agent.addPort_cases rnd t.sess.user dev mac true (some sock) with ⟨hz, _⟩ | ⟨hz, e, he⟩ | ⟨hz, hw', sk, _, hs, ha, e, ⟨_, he⟩ | ⟨m, _, he⟩⟩
      · omega
      · exfalso
        have hap : (Agent.addPort rnd t.sess.user dev mac true (some sock)).1.ports =
            Agent.put t.sess.user.ports (t.sess.user.lastNo + 1) (Agent.newPort (t.sess.user.lastNo + 1) hw dev sock) := by
          unfold Agent.addPort
          rw [if_neg hz]
          simp only [hm]
          split
          · rename_i h; cases h
          · split <;> rfl
        rw [he, Agent.put_new (h3.new_no hz)] at hap
        have hap := congrArg List.length hap
        simp at hap
      · rw [hm] at ha; cases ha; cases hs
        rw [he]
        refine ⟨h1, h2, Agent.tidy_add h3 hz hw dev sock, by show t.sess.user.lastNo + 1 = _; omega, hports, new ++ [.error e], ?_, ?_, ?_⟩
        · simp [h6]
        · simp [h7]
        · intro r hr
          rcases List.mem_append.1 hr with hr | hr
          · exact h8 r hr
          · exact ⟨e, List.mem_singleton.1 hr⟩
      · rw [hm] at ha; cases ha; cases hs
        rw [he]
        refine ⟨h1, h2, Agent.tidy_add h3 hz hw dev sock, by show t.sess.user.lastNo + 1 = _; omega, hports, new ++ [.error .other], ?_, ?_, ?_⟩
        · simp [h6]
        · simp [h7]
        · intro r hr
          rcases List.mem_append.1 hr with hr | hr
          · exact h8 r hr
          · exact ⟨_, List.mem_singleton.1 hr⟩
  exact this.2.2.2.2

end Twink.Life
