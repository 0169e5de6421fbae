import Verif.Spec.Parent
import Verif.Props.Controller

/-! # Properties C32, C33 and C54: monitors and jack-in clients of a parent channel -/

namespace Twink
open Spec

/-! ## C32 -/

theorem fanout_ok {ok : Nat → Bool} {m : Bytes} {order : List Nat} (h : ∀ k ∈ order, ok k = true) (w : List (Nat × Bytes)) :
    fanout ok m order w = (w ++ order.map (·, m), .ok ()) := by
  induction order generalizing w with
  | nil => simp [fanout]
  | cons k ks ih =>
    simp only [fanout, h k (by simp), if_true]
    rw [ih (fun k hk => h k (by simp [hk]))]
    simp

theorem parentRecv_ok {p : Parent} {m : Bytes} {order : List Nat} {ok : Nat → Bool} (hm : 8 ≤ m.length) (hh : u8 m 1 ≠ 0)
    (hok : ∀ k ∈ order, ok k = true) :
    parentRecv order ok p m = ({ p with wrote := p.wrote ++ order.map (·, m) }, .ok m) := by
  unfold parentRecv
  rw [if_neg (by intro e; subst e; simp at hm), parseHeader_fields m hm]
  simp only [if_neg hh, fanout_ok hok]

theorem filter_order {order ms : List Nat} (ho : order.Perm ms) (hn : ms.Nodup) (k : Nat) (m : Bytes) :
    ((order.map (·, m)).filter (·.1 = k)).map (·.2) = if k ∈ ms then [m] else [] := by
  have hno : order.Nodup := ho.nodup_iff.2 hn
  simp only [← ho.mem_iff]
  clear ho hn
  induction order with
  | nil => simp
  | cons a as ih =>
    rw [List.nodup_cons] at hno
    have ih := ih hno.2
    simp only [List.map_cons, List.filter_cons]
    by_cases e : a = k
    · subst e
      rw [if_neg hno.1] at ih
      simp [ih]
    · simp only [e, decide_false, Bool.false_eq_true, if_false, ih, List.mem_cons, Ne.symm e, false_or]

/-- **C32** (writes to monitors succeed, no further hello): whatever monitors connect and disconnect, each monitor is sent exactly
the messages received while it is connected, unchanged, in order, once each, and `recv` hands every message on to the
parent's handler. (Partial: a failing write to a monitor, or a second hello, ends the parent's receive loop,
`C32_refuted_write`, `C32_refuted_hello`.) -/
theorem C32_monitors_partial (p : Parent) (hn : p.monitors.Nodup) {es : List PEvent} (h : Possible p.monitors es) :
    (∀ k, wroteTo k (pRun p es).1 = wroteTo k p ++ seenBy k (decide (k ∈ p.monitors)) es) ∧
    (pRun p es).2 = (received es).map some := by
  generalize hms : p.monitors = ms at h hn
  induction h generalizing p with
  | nil ms => exact ⟨fun k => by simp [pRun, seenBy], rfl⟩
  | @connect ms es k hk _ ih =>
    obtain ⟨i1, i2⟩ := ih { p with monitors := p.monitors ++ [k] } (by simp [hms])
      (by rw [List.nodup_append]; exact ⟨hn, by simp, by intro a ha b hb; simp at hb; subst hb; rintro rfl; exact hk ha⟩)
    refine ⟨fun j => ?_, by simpa [pRun, pStep, received] using i2⟩
    have := i1 j
    simp only [pRun, pStep, seenBy]
    simp only [wroteTo] at this ⊢
    rw [this]
    congr 2
    rw [Bool.eq_iff_iff]
    simp [@eq_comm _ k j]
  | @disconnect ms es k _ ih =>
    obtain ⟨i1, i2⟩ := ih { p with monitors := p.monitors.filter (· != k) } (by simp [hms]) (hn.filter _)
    refine ⟨fun j => ?_, by simpa [pRun, pStep, received] using i2⟩
    have := i1 j
    simp only [pRun, pStep, seenBy]
    simp only [wroteTo] at this ⊢
    rw [this]
    congr 2
    rw [Bool.eq_iff_iff]
    simp [@eq_comm _ k j]
  | @message ms es m order ok hm hh ho hok _ ih =>
    have hr : parentRecv order ok p m = ({ p with wrote := p.wrote ++ order.map (·, m) }, .ok m) :=
      parentRecv_ok hm hh (fun k hk => hok k (ho.mem_iff.1 hk))
    obtain ⟨i1, i2⟩ := ih { p with wrote := p.wrote ++ order.map (·, m) } hms hn
    refine ⟨fun j => ?_, by simp [pRun, pStep, received, hr, i2]⟩
    have := i1 j
    simp only [pRun, pStep, seenBy, hr]
    rw [this]
    simp only [wroteTo, List.filter_append, List.map_append, filter_order ho hn, List.append_assoc, decide_eq_true_eq]

/-- **C32 is false**: if the write to some monitor fails (it went away, or it does not read fast enough), `recv` of the parent
channel raises, so the message does not reach the parent's handler. -/
theorem C32_refuted_write (p : Parent) (m : Bytes) (hm : 8 ≤ m.length) (hh : u8 m 1 ≠ 0) (order : List Nat) (ok : Nat → Bool)
    (k : Nat) (hk : k ∈ order) (hbad : ok k = false) : (parentRecv order ok p m).2 = .error .other := by
  have key : ∀ w, (fanout ok m order w).2 = .error .other := by
    induction order with
    | nil => simp at hk
    | cons a as ih =>
      intro w
      simp only [fanout]
      split
      · rename_i ha
        rcases List.mem_cons.1 hk with rfl | hk
        · rw [hbad] at ha; cases ha
        · exact ih hk _
      · rfl
  unfold parentRecv
  rw [if_neg (by intro e; subst e; simp at hm), parseHeader_fields m hm]
  simp only [if_neg hh]
  have := key p.wrote
  split
  · rename_i h; rw [h] at this; cases this
  · rename_i h; rw [h] at this; simpa using this

/-- **C32 is false**: a second hello makes `recv` of a monitored channel raise. -/
theorem C32_refuted_hello (p : Parent) (hp : p.monitor = true) (hs : p.serving = true) (m : Bytes) (hm : 8 ≤ m.length)
    (hh : u8 m 1 = 0) (order : List Nat) (ok : Nat → Bool) : parentRecv order ok p m = (p, .error .other) := by
  unfold parentRecv
  rw [if_neg (by intro e; subst e; simp at hm), parseHeader_fields m hm]
  simp [hh, hp, hs]

theorem pStep_serving (p : Parent) (e : PEvent) : (pStep p e).1.monitor = p.monitor ∧ (p.serving = true → (pStep p e).1.serving = true) := by
  cases e with
  | connect k => exact ⟨rfl, id⟩
  | disconnect k => exact ⟨rfl, id⟩
  | message m order ok =>
    have h : (parentRecv order ok p m).1.monitor = p.monitor ∧ (p.serving = true → (parentRecv order ok p m).1.serving = true) := by
      unfold parentRecv
      repeat' split
      all_goals simp
    simp only [pStep]
    split
    all_goals (rename_i e; rw [e] at h; exact h)

theorem pRun_serving (p : Parent) (es : List PEvent) : (pRun p es).1.monitor = p.monitor ∧ (p.serving = true → (pRun p es).1.serving = true) := by
  induction es generalizing p with
  | nil => exact ⟨rfl, id⟩
  | cons e es ih =>
    obtain ⟨a, b⟩ := pStep_serving p e
    obtain ⟨c, d⟩ := ih (pStep p e).1
    exact ⟨c.trans a, fun h => d (b h)⟩

theorem pRun_append (p : Parent) (es fs : List PEvent) :
    pRun p (es ++ fs) = ((pRun (pRun p es).1 fs).1, (pRun p es).2 ++ (pRun (pRun p es).1 fs).2) := by
  induction es generalizing p with
  | nil => simp [pRun]
  | cons e es ih => simp only [List.cons_append, pRun, ih, List.append_assoc]

/-- **C32, from the beginning**: the switch's hello starts the server, which has no monitors at first, and is handed on; from there on
every monitor gets what `C32_monitors_partial` says; and when a second hello comes, `recv` raises, whatever happened in between. (Partial for the
reasons given there.) -/
theorem C32_whole_partial (p : Parent) (hp : p.monitor = true) (hs : p.serving = false) (hw : p.wrote = []) (m0 : Bytes) (hm : 8 ≤ m0.length)
    (hh : u8 m0 1 = 0) (order : List Nat) (ok : Nat → Bool) {es : List PEvent} (h : Possible [] es) :
    (∀ k, wroteTo k (pRun p (.message m0 order ok :: es)).1 = seenBy k false es) ∧
    (pRun p (.message m0 order ok :: es)).2 = some m0 :: (received es).map some ∧
    ∀ m1 order1 ok1, 8 ≤ m1.length → u8 m1 1 = 0 →
      (pRun p (.message m0 order ok :: es ++ [.message m1 order1 ok1])).2 = some m0 :: (received es).map some ++ [none] := by
  have h0 : parentRecv order ok p m0 = ({ p with serving := true, monitors := [] }, .ok m0) := by
    unfold parentRecv
    rw [if_neg (by intro e; subst e; simp at hm), parseHeader_fields m0 hm]
    simp [hh, hp, hs]
  obtain ⟨i1, i2⟩ := C32_monitors_partial { p with serving := true, monitors := [] } (by simp) h
  have hr : (pRun p (.message m0 order ok :: es)).2 = some m0 :: (received es).map some := by
    simp only [pRun, pStep, h0, i2, List.singleton_append]
  refine ⟨fun k => ?_, hr, fun m1 order1 ok1 hm1 hh1 => ?_⟩
  · have := i1 k
    simp only [pRun, pStep, h0]
    rw [this]
    simp [wroteTo, hw]
  · rw [pRun_append, hr]
    congr 1
    obtain ⟨a, b⟩ := pRun_serving { p with serving := true, monitors := [] } es
    have e : (pRun p (.message m0 order ok :: es)).1 = (pRun { p with serving := true, monitors := [] } es).1 := by
      simp only [pRun, pStep, h0]
    rw [e]
    simp only [pRun, pStep, C32_refuted_hello _ (a.trans hp) (b rfl) m1 hm1 hh1, List.append_nil]

/-- Non-vacuity of C32: two monitors, one of them joining late and leaving early. -/
example : Possible [] [.connect 1, .message [4, 10, 0, 8, 0, 0, 0, 1] [1] (fun _ => true), .connect 2,
    .message [4, 10, 0, 8, 0, 0, 0, 2] [2, 1] (fun _ => true), .disconnect 2,
    .message [4, 10, 0, 8, 0, 0, 0, 3] [1] (fun _ => true)] :=
  .connect 1 (by simp) (.message _ _ _ (by decide) (by decide) (by decide) (by simp)
    (.connect 2 (by simp) (.message _ _ _ (by decide) (by decide) (by decide) (by simp)
      (.disconnect 2 (.message _ _ _ (by decide) (by decide) (by decide) (by simp) (.nil _))))))

example : (seenBy 2 false [.connect 1, .message [4, 10, 0, 8, 0, 0, 0, 1] [1] (fun _ => true), .connect 2,
    .message [4, 10, 0, 8, 0, 0, 0, 2] [2, 1] (fun _ => true), .disconnect 2,
    .message [4, 10, 0, 8, 0, 0, 0, 3] [1] (fun _ => true)]) = [[4, 10, 0, 8, 0, 0, 0, 2]] := by decide

/-! ## C33 -/

theorem jackHandle_eq (m : Bytes) (hm : 8 ≤ m.length) : jackHandle m = if u8 m 1 ≠ 0 then .ok (some m) else .ok none := by
  unfold jackHandle; rw [parseHeader_fields m hm]

theorem jackReach_sys {hasAsync : Bool} {isClient : Nat → Bool} {j : Jack} (h : JackReach hasAsync isClient j) :
    SysReach hasAsync j.sys := by
  induction h with
  | init v d alive => exact .init v d alive
  | @step j j' _ hs ih =>
    cases hs with
    | request k m now hk ha hlen =>
      simp only [jackRequest, jackHandle_eq m hlen]
      by_cases h0 : u8 m 1 ≠ 0
      · simp only [if_pos h0]
        exact .step ih (.send _ _ _ _ hlen (by intro c hc; injection hc with hc; subst hc; exact ha))
      · simp only [if_neg h0]; exact ih
    | other m cb now hlen hcb => exact .step ih (.send _ _ _ _ hlen (fun c hc => (hcb c hc).1))
    | env s' h hc hd => exact .step ih h
    | deliver p rest hp => exact .step ih (.deliver _ _ _ hp)

/-- **C33, requests.** In every execution the messages forwarded to the switch for a client are exactly the client's non-hello
messages (whose forwarding did not raise), unchanged and in order. -/
theorem C33_requests_forwarded {hasAsync : Bool} {isClient : Nat → Bool} {j : Jack} (h : JackReach hasAsync isClient j)
    (k : Nat) (hk : isClient k = true) : forwardedFor k j = requestsOf k j := by
  induction h with
  | init v d alive => rfl
  | @step j j' _ hs ih =>
    cases hs with
    | request k' m now hk' ha hlen =>
      simp only [jackRequest, jackHandle_eq m hlen]
      by_cases h0 : u8 m 1 ≠ 0
      · simp only [if_pos h0, forwardedFor, requestsOf, sysSend, send_userPart, List.filter_append, List.map_append] at ih ⊢
        rw [ih]
        congr 1
        by_cases hok : (ctlSend j.sys.alive now true true j.sys.ctl m (some k')).2 = .ok ()
        · simp only [hok, if_true]
          by_cases e : k' = k <;> simp [e, h0]
        · simp [hok]
      · simp only [if_neg h0, forwardedFor, requestsOf, List.filter_append, List.map_append] at ih ⊢
        rw [ih]
        simp only [ne_eq, Decidable.not_not] at h0
        simp [h0]
    | other m cb now hlen hcb =>
      simp only [forwardedFor, requestsOf, sysSend, send_userPart, List.filter_append, List.map_append] at ih ⊢
      rw [ih]
      have hne : cb ≠ some k := by
        intro e; have := (hcb k e).2; rw [hk] at this; cases this
      split <;> simp [hne]
    | env s' h hc hd =>
      simp only [forwardedFor, requestsOf] at ih ⊢
      rw [hc.1]; exact ih
    | deliver p rest hp =>
      simp only [forwardedFor, requestsOf, jackDeliver] at ih ⊢
      rw [(handle_wire _ _ _ _).1]; exact ih

/-- **C33, forwarding does not fail** once a version (below 256) has been negotiated, as long as transaction ids fit. -/
theorem C33_forwarding_succeeds (j : Jack) (k : Nat) (m : Bytes) (now : Clock) (hlen : 8 ≤ m.length) (v : Nat)
    (hv : j.sys.ctl.version = some v) (hv' : v < 256) (hx : hmsXid j.sys.ctl.dedup now < 4294967296) :
    ∀ r ∈ (jackRequest j k m now).requests, r ∈ j.requests ∨ r = (k, m, .ok ()) := by
  simp only [jackRequest, jackHandle_eq m hlen]
  have hw : ∀ st', (ctlWrite true st' (.user m (some k))).2 = .ok () := fun _ => rfl
  have hok : (ctlSend j.sys.alive now true true j.sys.ctl m (some k)).2 = .ok () := by
    have hc := ctlSend_cases j.sys.alive now true true j.sys.ctl m (some k)
    unfold ctlSend at *
    rw [parseHeader_fields m hlen] at *
    simp only at *
    split
    · rfl
    · split
      · split
        · obtain ⟨b, hb⟩ : ∃ b, barrierMsg j.sys.ctl.version (hmsXid j.sys.ctl.dedup now) = .ok b := by
            unfold barrierMsg
            rw [hv]
            split
            · exact ⟨_, pack_eq_ok.2 ⟨by simp [fits, hdrFmt, hx], rfl⟩⟩
            · exact ⟨_, pack_eq_ok.2 ⟨by simp [fits, hdrFmt, hx, hv'], rfl⟩⟩
          simp [hb, ctlWrite]
        · rfl
      · rfl
      · rfl
  by_cases h0 : u8 m 1 ≠ 0
  · simp only [if_pos h0, hok]
    intro r hr; simpa using hr
  · simp only [if_neg h0]
    intro r hr; simpa using hr

/-- **C33, handling.** Every message from the switch that was caused by a client's request (and every barrier reply) has been
handled for exactly that client: given to the client's callback if the client was still connected, otherwise to no client. -/
theorem C33_handled {hasAsync : Bool} {isClient : Nat → Bool} {j : Jack} (h : JackReach hasAsync isClient j) :
    ∀ p alive hd q, (p, alive, hd) ∈ j.handled → p.origin = some q → (q.cb ≠ none ∨ IsBarrierReq q.bytes) →
      hd = belongsTo alive q := by
  induction h with
  | init v d alive => simp
  | @step j j' hj hs ih =>
    cases hs with
    | request k' m now hk' ha hlen =>
      simp only [jackRequest, jackHandle_eq m hlen]
      by_cases h0 : u8 m 1 ≠ 0
      · simp only [if_pos h0]; exact ih
      · simp only [if_neg h0]; exact ih
    | other m cb now hlen hcb => exact ih
    | env s' h hc hd => exact ih
    | deliver p rest hp =>
      intro p' alive hd q hm ho hq
      simp only [jackDeliver, List.mem_append, List.mem_singleton] at hm
      rcases hm with hm | hm
      · exact ih p' alive hd q hm ho hq
      · simp only [Prod.mk.injEq] at hm
        obtain ⟨rfl, rfl, rfl⟩ := hm
        exact C17_replies_reach_their_callback (jackReach_sys hj) hp ho hq

/-- **C33, delivery.** What a client has been sent is exactly the messages handled for it, in order. -/
theorem C33_delivered {hasAsync : Bool} {isClient : Nat → Bool} {j : Jack} (h : JackReach hasAsync isClient j)
    (k : Nat) (hk : isClient k = true) :
    (j.toClient.filter (·.1 = k)).map (·.2) = (j.handled.filter (·.2.2 = .callback k)).map (·.1.bytes) := by
  induction h with
  | init v d alive => rfl
  | @step j j' hj hs ih =>
    cases hs with
    | request k' m now hk' ha hlen =>
      simp only [jackRequest, jackHandle_eq m hlen]
      by_cases h0 : u8 m 1 ≠ 0
      · simp only [if_pos h0]; exact ih
      · simp only [if_neg h0]; exact ih
    | other m cb now hlen hcb => exact ih
    | env s' h hc hd => exact ih
    | deliver p rest hp =>
      simp only [jackDeliver, List.filter_append, List.map_append, ih]
      congr 1
      cases (ctlHandle hasAsync j.sys.alive j.sys.ctl p.bytes).2 with
      | callback c =>
        by_cases e : c = k
        · subst e; simp [weakCallback, hk]
        · simp only [weakCallback]
          split <;> simp [e]
      | _ => simp [weakCallback]

/-- **C33.** A reply caused by a request of client `k` is never sent to another client: if it was handled for client `c`, then
`c = k`; and it was handled for `k` if `k` was connected at that time. -/
theorem C33_own_replies {hasAsync : Bool} {isClient : Nat → Bool} {j : Jack} (h : JackReach hasAsync isClient j)
    {p : Rep} {alive : Nat → Bool} {hd : Handled} {q : Req} {k : Nat} (hm : (p, alive, hd) ∈ j.handled)
    (ho : p.origin = some q) (hq : q.cb = some k) :
    (∀ c, hd = .callback c → c = k) ∧ (alive k = true → hd = .callback k) := by
  have := C33_handled h p alive hd q hm ho (.inl (by rw [hq]; simp))
  subst this
  simp only [belongsTo, hq]
  constructor
  · intro c hc
    split at hc
    · injection hc with hc; exact hc.symm
    · split at hc <;> cases hc
  · intro ha; simp [ha]

/-- Non-vacuity of C33: clients 1 and 2 send a request each; the reply to client 2's request is handled. -/
example : ∃ j, JackReach false (fun _ => true) j ∧ ∃ p alive q, (p, alive, Handled.callback 2) ∈ j.handled ∧
    p.origin = some q ∧ q.cb = some 2 ∧ alive 2 = true := by
  let j0 : Jack := ⟨⟨freshCtl (some 4) (some 9), fun _ => true, [], []⟩, [], [], []⟩
  let j1 := jackRequest j0 1 [4, 7, 0, 8, 0, 0, 0, 2] ⟨0, 0, 0, 0⟩
  let j2 := jackRequest j1 2 [4, 5, 0, 8, 0, 0, 0, 3] ⟨0, 0, 0, 0⟩
  have h2 : JackReach false (fun _ => true) j2 :=
    .step (.step (.init (some 4) (some 9) (fun _ => true)) (.request j0 1 _ ⟨0, 0, 0, 0⟩ rfl rfl (by decide)))
      (.request j1 2 _ ⟨0, 0, 0, 0⟩ rfl rfl (by decide))
  let q1 : Req := ⟨[4, 7, 0, 8, 0, 0, 0, 2], some 1, false⟩
  let qb : Req := ⟨[4, 20, 0, 8, 0, 0, 0, 10], none, true⟩
  let q2 : Req := ⟨[4, 5, 0, 8, 0, 0, 0, 3], some 2, true⟩
  have w1 := SysStep.work (hasAsync := false) j2.sys q1 [qb, q2] [] (by decide) (by decide) (by simp)
  have h3 := JackReach.step h2 (.env _ _ w1 ⟨rfl, rfl⟩ (by simp))
  have h4 := JackReach.step h3 (.env _ _ (SysStep.barrier (hasAsync := false) _ qb [q2] [4, 21, 0, 8, 0, 0, 0, 10] rfl (by decide)
    ⟨by decide, by decide, by decide, by decide⟩) ⟨rfl, rfl⟩ (by simp))
  have h5 := JackReach.step h4 (.deliver _ ⟨[4, 21, 0, 8, 0, 0, 0, 10], some qb⟩ [] rfl)
  have h6 := JackReach.step h5 (.env _ _ (SysStep.work (hasAsync := false) _ q2 [] [[4, 6, 0, 8, 0, 0, 0, 3]] rfl (by decide)
    (by intro b hb; simp only [List.mem_singleton] at hb; subst hb; exact ⟨by decide, by decide, fun _ => by decide⟩))
    ⟨rfl, rfl⟩ (by simp [jackDeliver]))
  have h7 := JackReach.step h6 (.deliver _ ⟨[4, 6, 0, 8, 0, 0, 0, 3], some q2⟩ [] rfl)
  refine ⟨_, h7, ⟨[4, 6, 0, 8, 0, 0, 0, 3], some q2⟩, fun _ => true, q2, ?_, rfl, rfl, rfl⟩
  simp only [jackDeliver, List.mem_append]
  right
  simp
  constructor
  · rfl
  · decide +kernel

/-! ## C54 -/

/-- **C54 is false**: an unsolicited message of the switch (here a PACKET_IN, when the parent has no `handle_async`) is sent to a
jack-in client that happens to have a request outstanding. -/
theorem C54_refuted : ∃ j, JackReach false (fun _ => true) j ∧ ∃ p alive, (p, alive, Handled.callback 1) ∈ j.handled ∧
    p.origin = none ∧ (1, p.bytes) ∈ j.toClient := by
  let j0 : Jack := ⟨⟨freshCtl (some 4) (some 9), fun _ => true, [], []⟩, [], [], []⟩
  let j1 := jackRequest j0 1 [4, 7, 0, 8, 0, 0, 0, 2] ⟨0, 0, 0, 0⟩
  have h1 : JackReach false (fun _ => true) j1 :=
    .step (.init (some 4) (some 9) (fun _ => true)) (.request j0 1 _ ⟨0, 0, 0, 0⟩ rfl rfl (by decide))
  have h2 := JackReach.step h1 (.env _ _ (SysStep.unsolicited (hasAsync := false) j1.sys [4, 10, 0, 8, 0, 0, 0, 0] (by decide)
    (by decide)) ⟨rfl, rfl⟩ (by simp))
  have h3 := JackReach.step h2 (.deliver _ ⟨[4, 10, 0, 8, 0, 0, 0, 0], none⟩ [] rfl)
  refine ⟨_, h3, ⟨[4, 10, 0, 8, 0, 0, 0, 0], none⟩, fun _ => true, ?_, rfl, ?_⟩
  · simp only [jackDeliver, List.mem_append]
    right
    simp
    constructor
    · rfl
    · decide +kernel
  · decide +kernel

/-- **C54, provable part**: with `handle_async` present, PACKET_IN, FLOW_REMOVED and PORT_STATUS never reach a client. -/
theorem C54_async_partial {isClient : Nat → Bool} {j : Jack} (h : JackReach true isClient j) :
    ∀ p alive hd, (p, alive, hd) ∈ j.handled → IsAsyncMsg p.bytes → hd = .async := by
  induction h with
  | init v d alive => simp
  | @step j j' hj hs ih =>
    cases hs with
    | request k' m now hk' ha hlen =>
      simp only [jackRequest, jackHandle_eq m hlen]
      by_cases h0 : u8 m 1 ≠ 0
      · simp only [if_pos h0]; exact ih
      · simp only [if_neg h0]; exact ih
    | other m cb now hlen hcb => exact ih
    | env s' h hc hd => exact ih
    | deliver p rest hp =>
      intro p' alive hd hm hasy
      simp only [jackDeliver, List.mem_append, List.mem_singleton] at hm
      rcases hm with hm | hm
      · exact ih p' alive hd hm hasy
      · simp only [Prod.mk.injEq] at hm
        obtain ⟨rfl, rfl, rfl⟩ := hm
        have hlen := ((sysReach_inv (jackReach_sys hj)).2 p' (by rw [hp]; simp)).1
        rw [ctlHandle_def _ _ _ _ hlen, if_pos ⟨rfl, hasy⟩]

end Twink
