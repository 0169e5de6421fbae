import Verif.Model.Attach
import Verif.Props.Chan

/-! # Property C97: a channel that is attached to a new connection starts afresh -/

namespace Twink.Att
open Twink Spec

/-! ## Specification -/

/-- A channel has just been attached to a connection on which `tr` can be read: it is open, has read nothing, knows no version, and the
connection has got the greeting `h` and nothing else. -/
def JustGreeted (s : St) (tr : List Raw) (h : Bytes) : Prop :=
  s.chan = ⟨false, [], tr⟩ ∧ s.version = none ∧ s.out.getLast? = some [h] ∧ s.started = true

/-! ## Runs -/

theorem send_started (s : St) (m : Bytes) : (send s m).1.started = s.started ∧ (send s m).1.chan = s.chan ∧ (send s m).1.version = s.version := by
  unfold send; split <;> exact ⟨rfl, rfl, rfl⟩

theorem start_started (accept : PyVers) (xid : Nat) (s : St) (h : s.started = true) : start accept xid s = (s, .ok ()) := by
  unfold start; rw [if_pos h]

theorem step_started (accept : PyVers) (s : St) (op : Op) (h : s.started = true) : (step accept s op).started = true := by
  cases op with
  | attach xid a tr =>
    simp only [step, attach]
    cases a
    · exact h
    · rw [if_pos rfl, start_started]
      · exact h
      · exact h
  | start xid => simp only [step]; rw [start_started _ _ _ h]; exact h
  | close => exact h
  | send m => simp only [step]; rw [(send_started s m).1]; exact h
  | recv xid =>
    simp only [step, recv]
    split
    · exact h
    · exact h
    · split
      · exact h
      · split
        · rename_i hs
          have := congrArg (fun z => z.1.started) hs
          simp only [(send_started _ _).1] at this; rw [← this]; exact h
        · rename_i hs
          have := congrArg (fun z => z.1.started) hs
          simp only [(send_started _ _).1] at this; rw [← this]; exact h

theorem run_started (accept : PyVers) (s : St) (ops : List Op) (h : s.started = true) : (run accept s ops).started = true := by
  induction ops generalizing s with
  | nil => exact h
  | cons op ops ih => exact ih _ (step_started accept s op h)

/-! ## C97 -/

/-- **C97, first connection.** A channel that is attached for the first time is open, has nothing in its buffer and sends its greeting first. -/
theorem C97_first (accept : PyVers) (xid : Nat) (tr : List Raw) (h : Bytes) (hh : hello accept xid = .ok h) :
    (attach accept xid true tr fresh).2 = .ok () ∧ JustGreeted (attach accept xid true tr fresh).1 tr h := by
  simp [attach, start, fresh, hh, send, JustGreeted, Chan.attach]

/-- **C97, before the first connection.** A channel that has not been attached is closed: receiving returns the empty value at once, iterating
yields nothing and ends, and sending, also the greeting, raises ValueError without counting as started, so that `C97_first` applies later. -/
theorem C97_unattached (accept : PyVers) (xid : Nat) (m h : Bytes) (hh : hello accept xid = .ok h) (n : Nat) :
    recv accept xid fresh = (fresh, some (.ok [])) ∧ chIter (n + 1) fresh.chan = ([], fresh.chan, true) ∧
    send fresh m = (fresh, .error .valueError) ∧ start accept xid fresh = (fresh, .error .valueError) := by
  refine ⟨by cases hr : recv accept xid fresh; simp [recv, fresh, chRecv, chFill, ofRecv] at hr ⊢; simp [← hr], ?_, ?_, ?_⟩
  · simp [chIter, fresh, chRecv, chFill]
  · rfl
  · simp [start, fresh, hh, send]

/-- **C97, provable part.** If all that was received on earlier connections has been consumed, the messages that iterating over the channel
yields are those that a new channel would yield. (Missing: the greeting and the version, `C97_greeting_refuted`,
`C97_version_refuted`, and left-over bytes, `C97_bytes_refuted`.) -/
theorem C97_messages_partial (accept : PyVers) (xid : Nat) (a : Bool) (tr : List Raw) (s : St) (hb : s.chan.buf = []) (n : Nat) :
    chIter n (attach accept xid a tr s).1.chan = chIter n (attach accept xid a tr fresh).1.chan := by
  have h : ∀ s : St, (attach accept xid a tr s).1.chan = ⟨false, s.chan.buf, tr⟩ := by
    intro s
    simp only [attach]
    cases a
    · rfl
    · simp only [if_true, start]
      split
      · rfl
      · split
        · rfl
        · split
          · rename_i hs
            have := congrArg (fun z => z.1.chan) hs
            simp only [(send_started _ _).2.1] at this; rw [← this]; rfl
          · rename_i hs
            have := congrArg (fun z => z.1.chan) hs
            simp only [(send_started _ _).2.1] at this; rw [← this]; rfl
  rw [h, h, hb]; rfl

/-- **C97 is false of the code**: once a channel has been started, no connection that it is attached to later is greeted, whatever was done
in between: nothing is written to it, and the version that was negotiated on the old connection stays. -/
theorem C97_greeting_refuted (accept : PyVers) (s : St) (hs : s.started = true) (ops : List Op) (xid : Nat) (tr : List Raw) :
    let t := run accept s ops
    let t' := (attach accept xid true tr t).1
    t'.out = t.out ++ [[]] ∧ t'.version = t.version ∧ t'.chan.buf = t.chan.buf ∧ ∀ h, ¬ JustGreeted t' tr h := by
  intro t t'
  have ht : t.started = true := run_started accept s ops hs
  have e : t' = { t with chan := t.chan.attach tr, out := t.out ++ [[]] } := by
    simp only [t', attach]
    rw [if_pos trivial, start_started _ _ _ (by exact ht)]
  rw [e]
  refine ⟨rfl, rfl, rfl, ?_⟩
  rintro h ⟨_, _, h3, _⟩
  simp at h3

theorem chFill_data (need : Nat) (r b : Bytes) (tr : List Raw) (hb : b ≠ []) (hr : r.length < need) :
    chFill need false r (.data b :: tr) = chFill need false (r ++ b) tr := by
  obtain ⟨x, b, rfl⟩ := List.exists_cons_of_ne_nil hb
  rw [chFill, if_neg (by omega)]
  rfl

/-- **C97, what happens to left-over bytes.** If a part of a message is left from the old connection, the first bytes of the new connection
are taken for its continuation. -/
theorem C97_mixed (r b : Bytes) (tr : List Raw) (hb : b ≠ []) (hr : ¬ Complete r) :
    chRecv ⟨false, r, .data b :: tr⟩ = chRecv ⟨false, r ++ b, tr⟩ := by
  unfold chRecv
  simp only
  by_cases h8 : r.length < 8
  · rw [chFill_data _ _ _ _ hb h8]
  · have e : ∀ q : Bytes, ∀ l : List Raw, 8 ≤ q.length → chFill 8 false q l = .full ⟨false, q, l⟩ := by
      intro q l hq; cases l <;> rw [chFill, if_pos hq]
    rw [e _ _ (by omega), e _ _ (by rw [List.length_append]; omega)]
    simp only
    have hlt : r.length < announced r := by
      by_cases h : announced r ≤ r.length
      · exact absurd ⟨by omega, h⟩ hr
      · omega
    have ha : announced (r ++ b) = announced r := announced_append r b (by omega)
    rw [parseHeader_fields r (by omega), parseHeader_fields (r ++ b) (by rw [List.length_append]; omega)]
    simp only
    rw [← announced_eq_u16 r (by omega), ← announced_eq_u16 (r ++ b) (by rw [List.length_append]; omega), ha, chFill_data _ _ _ _ hb hlt]

/-- **C97 is false of the code**: the connection breaks within a message of 16 bytes; the greeting of the switch on the new connection is
swallowed as the end of that message, of which the channel gets a mixture. -/
theorem C97_bytes_refuted : ∃ (ops : List Op) (s : St), s = run (.seq [.int 4]) fresh ops ∧
    ops = [.attach 1 true [.data [4, 10, 0, 16, 0, 0, 0, 9], .data []], .recv 0, .close, .attach 2 true [.data [4, 0, 0, 8, 0, 0, 0, 1]]] ∧
    (recv (.seq [.int 4]) 0 s).2 = some (.ok [4, 10, 0, 16, 0, 0, 0, 9, 4, 0, 0, 8, 0, 0, 0, 1]) ∧
    (recv (.seq [.int 4]) 0 s).1.version = none :=
  ⟨_, _, rfl, rfl, by decide +kernel, by decide +kernel⟩

/-- **C97 is false of the code**: on a new connection, before anything has arrived, the channel has the version of the old one (with which
it would answer echo requests), though it has neither greeted nor been greeted. -/
theorem C97_version_refuted : ∃ (ops : List Op) (s : St), s = run (.seq [.int 4]) fresh ops ∧
    ops = [.attach 1 true [.data [4, 0, 0, 8, 0, 0, 0, 1]], .recv 0, .close, .attach 2 true []] ∧
    s.version = some 4 ∧ s.out.getLast? = some [] ∧ s.chan = ⟨false, [], []⟩ :=
  ⟨_, _, rfl, rfl, by decide +kernel, by decide +kernel, by decide +kernel⟩

/-- Number of connections a list of calls attaches. -/
def attached : List Op → Nat
  | [] => 0
  | .attach _ _ _ :: ops => attached ops + 1
  | _ :: ops => attached ops

/-- `b` comes from `a` by appending messages to the last connection, and then connections. -/
def Grows (a b : List (List Bytes)) : Prop :=
  a = [] ∨ ∃ init l new more, a = init ++ [l] ∧ b = init ++ [l ++ new] ++ more

theorem grows_refl (a : List (List Bytes)) : Grows a a := by
  rcases List.eq_nil_or_concat a with rfl | ⟨i, l, rfl⟩
  · exact .inl rfl
  · exact .inr ⟨i, l, [], [], by simp, by simp⟩

theorem grows_trans {a b c : List (List Bytes)} (h1 : Grows a b) (h2 : Grows b c) : Grows a c := by
  rcases h1 with rfl | ⟨i, l, new, more, rfl, rfl⟩
  · exact .inl rfl
  · rcases h2 with h | ⟨i', l', new', more', e, rfl⟩
    · simp at h
    · refine .inr ?_
      rcases List.eq_nil_or_concat more with rfl | ⟨m, k, rfl⟩
      · rw [List.append_nil] at e
        obtain ⟨e1, e2⟩ := List.append_inj' e rfl
        cases e2
        exact ⟨i, l, new ++ new', more', rfl, by rw [e1]; simp⟩
      · have e' : (i ++ [l ++ new] ++ m) ++ [k] = i' ++ [l'] := by rw [← e]; simp
        obtain ⟨e1, e2⟩ := List.append_inj' e' rfl
        cases e2
        exact ⟨i, l, new, m ++ [l' ++ new'] ++ more', rfl, by rw [← e1]; simp⟩

theorem grows_send (s : St) (m : Bytes) : Grows s.out (send s m).1.out ∧ (send s m).1.out.length = s.out.length := by
  unfold send
  rcases List.eq_nil_or_concat s.out with h | ⟨i, l, h⟩
  · rw [h]; exact ⟨.inl rfl, by simp [h]⟩
  · simp only [h, List.concat_eq_append, List.getLast?_append, List.getLast?_singleton, Option.some_or, List.dropLast_concat]
    exact ⟨.inr ⟨i, l, [m], [], rfl, by simp⟩, by simp⟩

theorem grows_send_of {s t : St} (h : t.out = s.out) (m : Bytes) :
    Grows s.out (send t m).1.out ∧ (send t m).1.out.length = s.out.length := h ▸ grows_send t m

theorem grows_start (accept : PyVers) (xid : Nat) (s : St) :
    Grows s.out (start accept xid s).1.out ∧ (start accept xid s).1.out.length = s.out.length := by
  unfold start
  split
  · exact ⟨grows_refl _, rfl⟩
  · split
    · exact ⟨grows_refl _, rfl⟩
    · rename_i h _
      have := grows_send s h
      split
      · rename_i hs; rw [hs] at this; exact this
      · rename_i hs; rw [hs] at this; exact this

theorem grows_step (accept : PyVers) (s : St) (op : Op) :
    Grows s.out (step accept s op).out ∧ (step accept s op).out.length = s.out.length + attached [op] := by
  cases op with
  | attach xid a tr =>
    have h0 : Grows s.out (s.out ++ [[]]) := by
      rcases List.eq_nil_or_concat s.out with h | ⟨i, l, h⟩
      · exact .inl h
      · exact .inr ⟨i, l, [], [[]], by simp [h], by simp [h]⟩
    simp only [step, attach, attached]
    cases a
    · exact ⟨h0, by simp⟩
    · have := grows_start accept xid { s with chan := s.chan.attach tr, out := s.out ++ [[]] }
      exact ⟨grows_trans h0 this.1, by rw [if_pos rfl, this.2]; simp⟩
  | start xid => exact grows_start accept xid s
  | close => exact ⟨grows_refl _, rfl⟩
  | send m => exact grows_send s m
  | recv xid =>
    simp only [step, recv, attached]
    split
    · exact ⟨grows_refl _, rfl⟩
    · exact ⟨grows_refl _, rfl⟩
    · split
      · exact ⟨grows_refl _, rfl⟩
      · split
        · rename_i hs
          have h := congrArg (fun z => z.1.out) hs
          simp only at h; rw [← h]
          refine grows_send_of (s := s) ?_ _; rfl
        · rename_i hs
          have h := congrArg (fun z => z.1.out) hs
          simp only at h; rw [← h]
          refine grows_send_of (s := s) ?_ _; rfl

/-- **C97, connections are kept apart.** Whatever is called: what is written goes to the connection attached last, after what has been written
there; earlier connections get nothing more, and there are as many connections as have been attached. -/
theorem C97_connections (accept : PyVers) (s : St) (ops : List Op) :
    Grows s.out (run accept s ops).out ∧ (run accept s ops).out.length = s.out.length + attached ops := by
  induction ops generalizing s with
  | nil => exact ⟨grows_refl _, rfl⟩
  | cons op ops ih =>
    have h := grows_step accept s op
    have hi := ih (step accept s op)
    refine ⟨grows_trans h.1 hi.1, ?_⟩
    rw [run, hi.2, h.2]
    cases op <;> simp only [attached] <;> omega

/-- Non-vacuity of `C97_messages_partial`: a channel that has consumed one message. -/
example : (run (.seq [.int 4]) fresh [.attach 1 true [.data [4, 0, 0, 8, 0, 0, 0, 1]], .recv 0, .close]).chan = ⟨true, [], []⟩ ∧
    ∃ h, hello (.seq [.int 4]) 1 = .ok h := ⟨by decide +kernel, _, rfl⟩

end Twink.Att
