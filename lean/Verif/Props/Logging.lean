import Verif.Spec.Logging
import Verif.Props.Chan

/-!
# C83: the log of a channel
-/

namespace Twink.Logging

theorem value_digit : ∀ n < 16, value (digit n) = n ∧ digit n ≠ ' ' := by decide

theorem unhex_hex (m : Bytes) : unhex (b2aHex m) = m := by
  induction m with
  | nil => rfl
  | cons b bs ih =>
    have hb : b.toNat < 256 := b.toNat_lt
    rw [b2aHex, unhex, ih, (value_digit _ (by omega)).1, (value_digit _ (by omega)).1]
    congr 1
    have : 16 * (b.toNat / 16) + b.toNat % 16 = b.toNat := by omega
    rw [this]
    exact UInt8.ofNat_toNat

theorem hex_nospace (m : Bytes) : ∀ c ∈ b2aHex m, c ≠ ' ' := by
  induction m with
  | nil => intro c hc; cases hc
  | cons b bs ih =>
    have hb : b.toNat < 256 := b.toNat_lt
    intro c hc
    rw [b2aHex] at hc
    simp only [List.mem_cons] at hc
    rcases hc with rfl | rfl | hc
    · exact (value_digit _ (by omega)).2
    · exact (value_digit _ (by omega)).2
    · exact ih c hc

theorem takeWhile_stop (l r : Text) (h : ∀ c ∈ l, c ≠ ' ') : (l ++ ' ' :: r).takeWhile (· ≠ ' ') = l := by
  induction l with
  | nil => simp
  | cons c l ih =>
    rw [List.cons_append, List.takeWhile_cons, if_pos (by simpa using h c (by simp)), ih (fun c hc => h c (by simp [hc]))]

theorem told_line (self : Text) (m : Bytes) : told (line self m) = m := by
  unfold told lastWord line
  rw [List.reverse_append, List.reverse_cons, List.append_assoc]
  show unhex (((b2aHex m).reverse ++ ' ' :: self.reverse).takeWhile _).reverse = m
  rw [takeWhile_stop _ _ (by simpa using hex_nospace m), List.reverse_reverse, unhex_hex]

/-- C83. Lines of messages are complete: the text of the message determines the bytes. -/
theorem C83_lines {self self' : Text} {m m' : Bytes} (h : line self m = line self' m') : self = self' ∧ m = m' := by
  have hm : m = m' := by rw [← told_line self m, h, told_line]
  subst hm
  exact ⟨List.append_cancel_right h, rfl⟩

theorem recv_run {self : Text} (s : St) :
    (recv self s).1.lines.recv.map told = s.lines.recv.map told ++ ((match (recv self s).2 with | some (.ok m) => [m] | _ => []).filter (· ≠ [])) ∧
    (recv self s).1.lines.send = s.lines.send ∧ (recv self s).1.lines.channel = s.lines.channel ∧ (recv self s).1.sent = s.sent ∧
    (recv self s).1.chan = (chRecv s.chan).chan := by
  unfold recv
  cases h : chRecv s.chan with
  | ret m c =>
    simp only
    by_cases hm : m = []
    · subst hm; simp [ChRecv.chan]
    · rw [if_pos hm]; simp [hm, told_line, ChRecv.chan]
  | raised e c => simp [ChRecv.chan]
  | blocked c => simp [ChRecv.chan]

/-- C83. The log of received messages tells exactly the messages that `recv` returned, in order, whatever is called on the channel;
the empty message that stands for the end is not logged. -/
theorem C83_received (self remote : Text) (s : St) (ops : List Op) :
    (run self remote s ops).1.lines.recv.map told = s.lines.recv.map told ++ (run self remote s ops).2.filter (· ≠ []) := by
  induction ops generalizing s with
  | nil => simp [run]
  | cons op ops ih =>
    rw [run, List.filter_append, ← List.append_assoc]
    simp only
    rw [ih]
    congr 1
    cases op with
    | send m fails => cases fails <;> simp [step, send]
    | recv =>
      have h := (recv_run (self := self) s).1
      simp only [step]
      cases hr : recv self s with
      | mk s' r =>
        rw [hr] at h
        simp only at h ⊢
        cases r with
        | none => exact h
        | some r => cases r with
          | ok m => exact h
          | error e => exact h
    | close => simp only [step, close]; split <;> simp
    | attach tr => simp [step]

/-- C83. The log of sent messages tells exactly the messages given to `send`, in order, also those that could not be sent. -/
theorem C83_given (self remote : Text) (s : St) (ops : List Op) :
    (run self remote s ops).1.lines.send.map told = s.lines.send.map told ++ given ops := by
  induction ops generalizing s with
  | nil => simp [run, given]
  | cons op ops ih =>
    rw [run]
    simp only
    rw [ih]
    cases op with
    | send m fails => cases fails <;> simp [step, send, given, told_line]
    | recv =>
      have h := (recv_run (self := self) s).2.1
      simp only [step, given]
      cases hr : recv self s with
      | mk s' r =>
        rw [hr] at h
        simp only at h
        cases r with
        | none => simp [h]
        | some r => cases r <;> simp [h]
    | close => simp only [step, close, given]; split <;> simp
    | attach tr => simp [step, given]

/-- C83. If no `send` fails, the log of sent messages tells exactly the messages handed to the transport. -/
theorem C83_sent_partial (self remote : Text) (s : St) (ops : List Op) (hs : s.lines.send.map told = s.sent)
    (hok : ∀ m e, Op.send m (some e) ∉ ops) : (run self remote s ops).1.lines.send.map told = (run self remote s ops).1.sent := by
  induction ops generalizing s with
  | nil => exact hs
  | cons op ops ih =>
    rw [run]
    refine ih _ ?_ (fun m e h => hok m e (by simp [h]))
    cases op with
    | send m fails =>
      cases fails with
      | none => simp [step, send, told_line, hs]
      | some e => exact (hok m e (by simp)).elim
    | recv =>
      have h := recv_run (self := self) s
      simp only [step]
      cases hr : recv self s with
      | mk s' r =>
        rw [hr] at h
        simp only at h
        cases r with
        | none => simp [h, hs]
        | some r => cases r <;> simp [h, hs]
    | close => simp only [step, close]; split <;> simp [hs]
    | attach tr => simpa [step] using hs

theorem chFill_closed {need : Nat} {closed : Bool} {buf : Bytes} {tr : List Raw} :
    (match chFill need closed buf tr with | .full c => c.closed | .empty c => c.closed | .raised _ c => c.closed | .blocked c => c.closed) = closed := by
  induction tr generalizing buf with
  | nil =>
    rw [chFill]
    by_cases h1 : need ≤ buf.length
    · rw [if_pos h1]
    · rw [if_neg h1]
      by_cases h2 : closed = true
      · rw [if_pos h2]
      · rw [if_neg h2]
  | cons r tr ih =>
    rw [chFill]
    by_cases h1 : need ≤ buf.length
    · rw [if_pos h1]
    · rw [if_neg h1]
      by_cases h2 : closed = true
      · rw [if_pos h2]
      · rw [if_neg h2]
        cases defaultWrapper r with
        | error e => rfl
        | ok o =>
          match o with
          | none => exact ih
          | some [] => rfl
          | some (x :: b) => exact ih

theorem chRecv_closed (c : Chan) : (chRecv c).chan.closed = c.closed := by
  unfold chRecv
  have h1 := chFill_closed (need := 8) (closed := c.closed) (buf := c.buf) (tr := c.transport)
  cases hf : chFill 8 c.closed c.buf c.transport with
  | full c' =>
    rw [hf] at h1
    simp only
    cases parseHeader c'.buf with
    | error e => exact h1
    | ok p =>
      obtain ⟨_, _, need, _⟩ := p
      simp only
      have h2 := chFill_closed (need := need) (closed := c'.closed) (buf := c'.buf) (tr := c'.transport)
      cases hg : chFill need c'.closed c'.buf c'.transport with
      | full d => rw [hg] at h2; exact h2.trans h1
      | empty d => rw [hg] at h2; exact h2.trans h1
      | raised e d => rw [hg] at h2; exact h2.trans h1
      | blocked d => rw [hg] at h2; exact h2.trans h1
  | empty c' => rw [hf] at h1; exact h1
  | raised e c' => rw [hf] at h1; exact h1
  | blocked c' => rw [hf] at h1; exact h1

theorem step_closed (self remote : Text) (s : St) (op : Op) : (step self remote s op).1.chan.closed =
    match op with | .close => true | .attach _ => false | _ => s.chan.closed := by
  cases op with
  | send m fails => cases fails <;> rfl
  | recv =>
    have h := (recv_run (self := self) s).2.2.2.2
    simp only [step]
    cases hr : recv self s with
    | mk s' r =>
      rw [hr] at h
      simp only at h
      cases r with
      | none => simp [h, chRecv_closed]
      | some r => cases r <;> simp [h, chRecv_closed]
  | close => simp only [step, close]; split <;> simp_all [Chan.close]
  | attach tr => rfl

/-- C83. In one thread: one line for the connection, and one line each time the channel goes from open to closed. -/
theorem C83_channel_partial (self remote : Text) (s : St) (ops : List Op) :
    (run self remote s ops).1.lines.channel = s.lines.channel ++ List.replicate (closings s.chan.closed ops) (closeLine self remote) := by
  induction ops generalizing s with
  | nil => simp [run, closings]
  | cons op ops ih =>
    rw [run]
    simp only
    rw [ih, step_closed]
    cases op with
    | send m fails => cases fails <;> simp [step, send, closings]
    | recv =>
      have h := (recv_run (self := self) s).2.2.1
      simp only [step, closings]
      cases hr : recv self s with
      | mk s' r =>
        rw [hr] at h
        simp only at h
        cases r with
        | none => simp [h]
        | some r => cases r <;> simp [h]
    | close =>
      simp only [step, close, closings]
      split
      · rename_i h; simp [h]
      · rename_i h; simp [h, List.append_assoc, Nat.add_comm 1, List.replicate_succ]
    | attach tr => simp [step, closings]

/-- With the lock, threads are inside one at a time. -/
structure LockInv (t : Threads) : Prop where
  inside : ∀ i, t.pc i = .entered ∨ t.pc i = .seenOpen ∨ t.pc i = .closing ∨ t.pc i = .leaving → t.holder = some i
  seen : ∀ i, t.pc i = .seenOpen → t.closed = false
  open_ : t.closed = false → t.closeLines = 0
  closing : ∀ i, t.pc i = .closing → t.closed = true ∧ t.closeLines = 0
  shut : t.closed = true → (∀ i, t.pc i ≠ .closing) → t.closeLines = 1
  left : ∀ i, t.pc i = .leaving ∨ t.pc i = .done → t.closed = true ∧ t.closeLines = 1

theorem pc_set (t : Threads) (i j : Nat) (p : Pc) : (setPc t i p).pc j = if j = i then p else t.pc j := rfl

theorem lock_outside {t : Threads} (h : LockInv t) {i j : Nat} (hi : t.holder = some i) (hj : j ≠ i) : t.pc j = .before ∨ t.pc j = .done := by
  cases hp : t.pc j with
  | before => exact .inl rfl
  | done => exact .inr rfl
  | entered => have := h.inside j (by simp [hp]); rw [hi] at this; injection this with e; exact (hj e.symm).elim
  | seenOpen => have := h.inside j (by simp [hp]); rw [hi] at this; injection this with e; exact (hj e.symm).elim
  | closing => have := h.inside j (by simp [hp]); rw [hi] at this; injection this with e; exact (hj e.symm).elim
  | leaving => have := h.inside j (by simp [hp]); rw [hi] at this; injection this with e; exact (hj e.symm).elim

theorem tick_lock {t : Threads} (h : LockInv t) (i : Nat) : LockInv (tick true t i) := by
  unfold tick
  cases hp : t.pc i with
  | before =>
    simp only [if_true]
    split
    · rename_i hn
      have hout : ∀ j, t.pc j = .before ∨ t.pc j = .done := by
        intro j
        cases hj : t.pc j with
        | before => exact .inl rfl
        | done => exact .inr rfl
        | entered => have := h.inside j (by simp [hj]); rw [hn] at this; cases this
        | seenOpen => have := h.inside j (by simp [hj]); rw [hn] at this; cases this
        | closing => have := h.inside j (by simp [hj]); rw [hn] at this; cases this
        | leaving => have := h.inside j (by simp [hj]); rw [hn] at this; cases this
      refine ⟨fun j hj => ?_, fun j hj => ?_, h.open_, fun j hj => ?_, fun hc _ => h.shut hc (fun j e => ?_), fun j hj => ?_⟩
      · simp only [pc_set] at hj
        by_cases e : j = i
        · subst e; rfl
        · rw [if_neg e] at hj; rcases hout j with h' | h' <;> simp [h'] at hj
      · simp only [pc_set] at hj
        by_cases e : j = i
        · simp [e] at hj
        · rw [if_neg e] at hj; exact h.seen j hj
      · simp only [pc_set] at hj
        by_cases e : j = i
        · simp [e] at hj
        · rw [if_neg e] at hj; exact h.closing j hj
      · rcases hout j with h' | h' <;> simp [h'] at e
      · simp only [pc_set] at hj
        by_cases e : j = i
        · simp [e] at hj
        · rw [if_neg e] at hj; exact h.left j hj
    · exact h
  | entered =>
    have hh := h.inside i (by simp [hp])
    have hout := fun j (hj : j ≠ i) => lock_outside h hh hj
    have hnc : ∀ j, t.pc j ≠ .closing := by
      intro j
      by_cases e : j = i
      · rw [e, hp]; simp
      · rcases hout j e with h' | h' <;> simp [h']
    simp only
    split
    · rename_i hc
      refine ⟨fun j hj => ?_, fun j hj => ?_, h.open_, fun j hj => ?_, fun _ _ => h.shut hc hnc, fun j hj => ⟨hc, h.shut hc hnc⟩⟩
      · simp only [pc_set] at hj
        by_cases e : j = i
        · subst e; exact hh
        · rw [if_neg e] at hj; rcases hout j e with h' | h' <;> simp [h'] at hj
      · simp only [pc_set] at hj
        by_cases e : j = i
        · simp [e] at hj
        · rw [if_neg e] at hj; exact h.seen j hj
      · simp only [pc_set] at hj
        by_cases e : j = i
        · simp [e] at hj
        · rw [if_neg e] at hj; exact h.closing j hj
    · rename_i hc
      have hc : t.closed = false := by simpa using hc
      refine ⟨fun j hj => ?_, fun j _ => hc, h.open_, fun j hj => ?_, fun hc' _ => ?_, fun j hj => ?_⟩
      · simp only [pc_set] at hj
        by_cases e : j = i
        · subst e; exact hh
        · rw [if_neg e] at hj; rcases hout j e with h' | h' <;> simp [h'] at hj
      · simp only [pc_set] at hj
        by_cases e : j = i
        · simp [e] at hj
        · rw [if_neg e] at hj; exact h.closing j hj
      · have : t.closed = true := hc'
        rw [hc] at this; cases this
      · simp only [pc_set] at hj
        by_cases e : j = i
        · simp [e] at hj
        · rw [if_neg e] at hj; exact h.left j hj
  | seenOpen =>
    have hh := h.inside i (by simp [hp])
    have hout := fun j (hj : j ≠ i) => lock_outside h hh hj
    have hc := h.seen i hp
    simp only
    refine ⟨fun j hj => ?_, fun j hj => ?_, fun e => ?_, fun j _ => ⟨rfl, h.open_ hc⟩, fun _ hn => ?_, fun j hj => ?_⟩
    · simp only [pc_set] at hj
      by_cases e : j = i
      · subst e; exact hh
      · rw [if_neg e] at hj; rcases hout j e with h' | h' <;> simp [h'] at hj
    · simp only [pc_set] at hj
      by_cases e : j = i
      · simp [e] at hj
      · rw [if_neg e] at hj; rcases hout j e with h' | h' <;> simp [h'] at hj
    · cases e
    · exact (hn i (by simp [pc_set])).elim
    · simp only [pc_set] at hj
      by_cases e : j = i
      · simp [e] at hj
      · rw [if_neg e] at hj
        have := (h.left j hj).1
        rw [hc] at this; cases this
  | closing =>
    have hh := h.inside i (by simp [hp])
    have hout := fun j (hj : j ≠ i) => lock_outside h hh hj
    obtain ⟨hc, h0⟩ := h.closing i hp
    simp only
    have h1 : t.closeLines + 1 = 1 := by omega
    refine ⟨fun j hj => ?_, fun j hj => ?_, fun e => ?_, fun j hj => ?_, fun _ _ => h1, fun j hj => ⟨hc, h1⟩⟩
    · simp only [pc_set] at hj
      by_cases e : j = i
      · subst e; exact hh
      · rw [if_neg e] at hj; rcases hout j e with h' | h' <;> simp [h'] at hj
    · simp only [pc_set] at hj
      by_cases e : j = i
      · simp [e] at hj
      · rw [if_neg e] at hj; rcases hout j e with h' | h' <;> simp [h'] at hj
    · have : t.closed = false := e
      rw [hc] at this; cases this
    · simp only [pc_set] at hj
      by_cases e : j = i
      · simp [e] at hj
      · rw [if_neg e] at hj; rcases hout j e with h' | h' <;> simp [h'] at hj
  | leaving =>
    have hh := h.inside i (by simp [hp])
    have hout := fun j (hj : j ≠ i) => lock_outside h hh hj
    have hl := h.left i (by simp [hp])
    simp only [if_true]
    refine ⟨fun j hj => ?_, fun j hj => ?_, h.open_, fun j hj => ?_, fun _ _ => hl.2, fun j hj => hl⟩
    · simp only [pc_set] at hj
      by_cases e : j = i
      · simp [e] at hj
      · rw [if_neg e] at hj; rcases hout j e with h' | h' <;> simp [h'] at hj
    · simp only [pc_set] at hj
      by_cases e : j = i
      · simp [e] at hj
      · rw [if_neg e] at hj; exact h.seen j hj
    · simp only [pc_set] at hj
      by_cases e : j = i
      · simp [e] at hj
      · rw [if_neg e] at hj; exact h.closing j hj
  | done => exact h

theorem ticks_lock {t : Threads} (h : LockInv t) (is : List Nat) : LockInv (ticks true t is) := by
  induction is generalizing t with
  | nil => exact h
  | cons i is ih => exact ih (tick_lock h i)

theorem lock0 : LockInv threads0 := by
  refine ⟨fun i h => ?_, fun i h => ?_, fun _ => rfl, fun i h => ?_, fun h => ?_, fun i h => ?_⟩ <;> simp [threads0] at h

/-- C83. With `ParallelChannel` in front, however many threads call `close` and however they interleave: never more than one line, and
exactly one, on a closed channel, once a call has returned. -/
theorem C83_close_once_partial (is : List Nat) : (ticks true threads0 is).closeLines ≤ 1 ∧
    ∀ i, (ticks true threads0 is).pc i = .done → (ticks true threads0 is).closed = true ∧ (ticks true threads0 is).closeLines = 1 := by
  have h := ticks_lock lock0 is
  refine ⟨?_, fun i hi => h.left i (.inr hi)⟩
  cases hc : (ticks true threads0 is).closed with
  | false => have := h.open_ hc; omega
  | true =>
    by_cases hn : ∃ i, (ticks true threads0 is).pc i = .closing
    · obtain ⟨i, hi⟩ := hn; have := (h.closing i hi).2; omega
    · have := h.shut hc (fun i e => hn ⟨i, e⟩); omega

/-- C83, the part that fails. Channels of jack-in and monitor servers have no such lock: `StreamServer.stop` and the thread of the
connection may both log that the channel closes. -/
theorem C83_close_once_refuted : ∃ is : List Nat, (ticks false threads0 is).closeLines = 2 ∧ ∀ i < 2, (ticks false threads0 is).pc i = .done :=
  ⟨[0, 1, 0, 1, 0, 1, 0, 1, 0, 1], by decide⟩

/-- C83, the part that fails. The log tells of a message that was never handed to the transport. -/
theorem C83_sent_refuted : ∃ (self remote : Text) (s : St) (ops : List Op), s.lines.send = [] ∧ s.sent = [] ∧
    (run self remote s ops).1.lines.send.map told = [[4, 2, 0, 8, 0, 0, 0, 1]] ∧ (run self remote s ops).1.sent = [] :=
  ⟨"x".toList, [], init "x".toList [] ⟨false, [], []⟩, [.send [4, 2, 0, 8, 0, 0, 0, 1] (some .other)], rfl, rfl, by decide +kernel, rfl⟩

example : b2aHex [4, 0, 0xab, 0xff] = "0400abff".toList := by decide +kernel
example : line "<Ch>".toList [4, 16] = "<Ch> 0410".toList := by decide +kernel
example : (run [] [] (init [] [] ⟨false, [], [.data [4, 2, 0, 8, 0, 0, 0, 1, 4]]⟩) [.recv, .recv, .close, .close, .attach [.data []], .recv, .close]).2
    = [[4, 2, 0, 8, 0, 0, 0, 1], []] := by decide +kernel
example : closings false [.recv, .recv, .close, .close, .attach [], .recv, .close] = 2 := by decide
example : ∃ is, (ticks true threads0 is).pc 0 = .done ∧ (ticks true threads0 is).pc 1 = .done :=
  ⟨[0, 1, 0, 1, 0, 0, 0, 1, 1, 1, 1], by decide⟩

end Twink.Logging
