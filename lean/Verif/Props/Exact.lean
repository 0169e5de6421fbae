import Verif.Props.Sending
import Verif.Props.Threadlet
import Verif.Props.AgentOut
import Verif.Props.Parent
import Verif.Props.Outstanding

/-!
# C36, C54, C61, C68: exactly when they hold
-/

namespace Twink.Exact
open Spec

/-! ## C36 -/

/-- C36, exactly: after the function has ended, all of `n` calls report the outcome if and only if it is a value or there is at most one
call. -/
theorem C36_exact {α : Type} (o : Outcome α) (n : Nat) :
    (∀ g ∈ Threadlet.gets n (Threadlet.new.finish o), Reports o g) ↔ (∃ v, o = .value v) ∨ n ≤ 1 := by
  cases o with
  | value v => exact ⟨fun _ => .inl ⟨v, rfl⟩, fun _ g hg => C36_values_partial v n g hg⟩
  | exc e =>
    cases n with
    | zero => simp [Threadlet.gets]
    | succ n =>
      rw [C36_refuted]
      cases n with
      | zero => simp [Reports]
      | succ n => simp [List.replicate_succ, Reports]

example : (∃ v, Outcome.value (α := Nat) 3 = .value v) ∧ ¬ ((∃ v, Outcome.exc (α := Nat) .keyError = .value v) ∨ 2 ≤ 1) := by simp

/-! ## C68 -/

/-- C68, exactly: given a transport that is read without end and delivers what the sockets accepted, the receiver gets precisely the messages whose
`send` did not raise if and only if each `send` took its message as a whole or raised. -/
theorem C68_exact (l : List (Bytes × Sent)) (hl : ∀ x ∈ l, Lawful x) (hm : ∀ m ∈ sentOf l, WellFormed m) (evs : List Ev)
    (hev : ∀ e ∈ evs, IsChunk e ∨ IsWait e) (hs : carried evs = chanSends [] l) (n : Nat) (hn : (sentOf l).length < n) :
    (iterate n [] evs).out = sentOf l ↔ ∀ x ∈ l, Whole x := by
  constructor
  · intro h x hx
    apply Classical.byContradiction
    intro hw
    have h1 := C68_loses_bytes_refuted l hl x hx hw
    obtain ⟨used, h2, h3⟩ := C02_iterate_conserves_bytes n [] evs
    have h4 : carried evs = carried used ++ carried (iterate n [] evs).rest := by rw [← carried_append, ← h2]
    have h5 := congrArg List.length h3
    have h6 := congrArg List.length h4
    rw [h] at h5
    rw [hs] at h6
    simp only [List.length_append, List.nil_append] at h5 h6
    omega
  · intro hw
    rw [(C68_partial l hm hw evs hev hs n hn).2]

/-- The hypotheses hold both with and without partial sends. -/
example : ∃ (l l' : List (Bytes × Sent)) (evs evs' : List Ev), (∀ x ∈ l, Lawful x) ∧ (∀ m ∈ sentOf l, WellFormed m) ∧
    (∀ e ∈ evs, IsChunk e ∨ IsWait e) ∧ carried evs = chanSends [] l ∧ (∀ x ∈ l, Whole x) ∧ sentOf l ≠ [] ∧
    (∀ x ∈ l', Lawful x) ∧ (∀ m ∈ sentOf l', WellFormed m) ∧
    (∀ e ∈ evs', IsChunk e ∨ IsWait e) ∧ carried evs' = chanSends [] l' ∧ ¬ ∀ x ∈ l', Whole x :=
  ⟨[([4, 2, 0, 8, 0, 0, 0, 1], .accepts 8)], [([4, 2, 0, 8, 0, 0, 0, 1], .accepts 3)],
    [.raw (.data [4, 2, 0, 8, 0, 0, 0, 1])], [.raw (.data [4, 2, 0])], by simp [Lawful], by simp [sentOf, WellFormed, announced], by simp [IsChunk],
    by simp [carried, payload, chanSends, chanSend], by simp [Whole], by simp [sentOf], by simp [Lawful],
    by simp [sentOf, WellFormed, announced], by simp [IsChunk], by simp [carried, payload, chanSends, chanSend], by simp [Whole]⟩

/-! ## C54 -/

/-- The outstanding requests after a step of the parent channel: a barrier reply handled completes the requests up to its own; then the requests just
written are added. -/
def outAfter (j j' : Jack) (out : List Req) : List Req :=
  (match j'.handled.drop j.handled.length with
    | (p, _, _) :: _ => complete p.bytes out
    | [] => out) ++ newReqs (j.sys.ctl.seq ≠ []) (j'.sys.ctl.wire.drop j.sys.ctl.wire.length)

/-- Executions of a parent channel with jack-in clients, with the requests outstanding. -/
inductive JackOut (hasAsync : Bool) (isClient : Nat → Bool) : Jack → List Req → Prop
  | init (version dedup : Option Nat) (alive : Nat → Bool) :
      JackOut hasAsync isClient ⟨⟨freshCtl version dedup, alive, [], []⟩, [], [], []⟩ []
  | step {j j' : Jack} {out : List Req} : JackOut hasAsync isClient j out → JackStep hasAsync isClient j j' →
      JackOut hasAsync isClient j' (outAfter j j' out)

/-- Each execution has its outstanding requests. -/
theorem jackOut_exists {hasAsync : Bool} {isClient : Nat → Bool} {j : Jack} (h : JackReach hasAsync isClient j) :
    ∃ out, JackOut hasAsync isClient j out := by
  induction h with
  | init v d a => exact ⟨[], .init v d a⟩
  | step _ hs ih => obtain ⟨out, ih⟩ := ih; exact ⟨_, .step ih hs⟩

theorem jackOut_reach {hasAsync : Bool} {isClient : Nat → Bool} {j : Jack} {out : List Req} (h : JackOut hasAsync isClient j out) :
    JackReach hasAsync isClient j := by
  induction h with
  | init v d a => exact .init v d a
  | step _ hs ih => exact .step ih hs

theorem jackOut_out {hasAsync : Bool} {isClient : Nat → Bool} {j : Jack} {out : List Req} (h : JackOut hasAsync isClient j out) :
    OutReach j.sys.ctl j.sys.alive out := by
  induction h with
  | init v d a => exact .init v d a
  | @step j j' out _ hs ih =>
    cases hs with
    | request k m now hk ha hlen =>
      simp only [jackRequest, jackHandle_eq m hlen, outAfter]
      by_cases h0 : u8 m 1 ≠ 0
      · simp only [if_pos h0, List.drop_length, sysSend]
        exact .send m (some k) now (by intro c hc; injection hc with hc; subst hc; exact ha) ih
      · simp only [if_neg h0, List.drop_length, newReqs, List.map_nil, List.append_nil]; exact ih
    | other m cb now hlen hcb =>
      simp only [outAfter, List.drop_length, sysSend]
      exact .send m cb now (fun c hc => (hcb c hc).1) ih
    | env s' h hc hd =>
      simp only [outAfter, List.drop_length]
      cases h with
      | send m cb now hlen hcb => exact .send m cb now hcb ih
      | deliver p rest hp => simp [hp] at hd; omega
      | die alive' hle => simpa [newReqs] using OutReach.die alive' hle ih
      | otherXid now => simpa [newReqs] using OutReach.otherXid now ih
      | _ => simpa [newReqs] using ih
    | deliver p rest hp =>
      simp only [outAfter, jackDeliver, List.drop_left, (handle_wire _ _ _ _).1, List.drop_length, newReqs, List.map_nil, List.append_nil]
      exact .handle hasAsync p.bytes ih

/-- C54, exactly: the message that the parent's handler receives next is sent to client `k` if and only if `k` is connected and
* it is a barrier reply with the id of the first outstanding barrier request, and this is a request of `k`; or
* it is another message, not one for `handle_async`, and some outstanding request before the first outstanding barrier request is of `k`.
In particular an unsolicited message reaches a client precisely in the second case. -/
theorem C54_exact {hasAsync : Bool} {isClient : Nat → Bool} {j : Jack} {out : List Req} (h : JackOut hasAsync isClient j out)
    (p : Rep) (rest : List Rep) (hp : j.sys.toCtl = p :: rest) (k : Nat) (hk : isClient k = true) :
    (jackDeliver hasAsync isClient j p rest).toClient = j.toClient ++ [(k, p.bytes)] ↔
      j.sys.alive k = true ∧
        ((IsBarrierRep p.bytes ∧ ∃ b, Outstanding.firstBarrier out = some b ∧ u32 p.bytes 4 = u32 b.bytes 4 ∧ b.cb = some k) ∨
         (¬ IsBarrierRep p.bytes ∧ ¬ (hasAsync = true ∧ IsAsyncMsg p.bytes) ∧ ∃ q ∈ Outstanding.firstPart out, q.cb = some k)) := by
  have hm : 8 ≤ p.bytes.length := ((sysReach_inv (jackReach_sys (jackOut_reach h))).2 p (by rw [hp]; simp)).1
  have ho := jackOut_out h
  have e0 : (jackDeliver hasAsync isClient j p rest).toClient = j.toClient ++ [(k, p.bytes)] ↔
      (ctlHandle hasAsync j.sys.alive j.sys.ctl p.bytes).2 = .callback k := by
    simp only [jackDeliver, List.append_cancel_left_eq]
    cases (ctlHandle hasAsync j.sys.alive j.sys.ctl p.bytes).2 with
    | callback c =>
      simp only [weakCallback, Handled.callback.injEq]
      constructor
      · intro e; split at e
        · simpa using e
        · cases e
      · rintro rfl; simp [hk]
    | _ => simp [weakCallback]
  rw [e0]
  by_cases hb : IsBarrierRep p.bytes
  · obtain ⟨h1, h2, h3, h4⟩ := Outstanding.C19_exact ho hasAsync p.bytes hm hb
    simp only [hb, true_and, not_true, false_and, or_false]
    cases hf : Outstanding.firstBarrier out with
    | none =>
      simp only [reduceCtorEq, false_and, exists_false, and_false, iff_false]
      by_cases hq : ∃ q ∈ out, q.cb ≠ none ∨ q.busy = true
      · rw [h3 hf hq]; simp
      · rw [h4 hf (fun q hq' => ?_)]
        · simp
        · by_cases c1 : q.cb = none
          · by_cases c2 : q.busy = true
            · exact absurd ⟨q, hq', .inr c2⟩ hq
            · exact ⟨c1, by simpa using c2⟩
          · exact absurd ⟨q, hq', .inl c1⟩ hq
    | some b =>
      simp only [Option.some.injEq, exists_eq_left']
      by_cases hx : u32 p.bytes 4 = u32 b.bytes 4
      · rw [h1 b hf hx]
        simp only [hx, true_and, belongsTo]
        cases hcb : b.cb with
        | none => simp only; split <;> simp
        | some c =>
          simp only [Option.some.injEq]
          by_cases ha : j.sys.alive c = true
          · rw [if_pos ha]
            simp only [Handled.callback.injEq]
            exact ⟨fun e => ⟨e ▸ ha, e⟩, fun e => e.2⟩
          · rw [if_neg ha]
            constructor
            · intro e; split at e <;> cases e
            · rintro ⟨a, rfl⟩; exact absurd a ha
      · rw [h2 b hf hx]
        simp [hx]
  · by_cases ha : hasAsync = true ∧ IsAsyncMsg p.bytes
    · rw [ctlHandle_def _ _ _ _ hm, if_pos ha]
      simp [hb, ha]
    · rw [(Outstanding.C18_exact ho hasAsync p.bytes hm hb ha).1 k]
      simp only [hb, ha, not_false_eq_true, true_and, false_and, false_or]

/-- An execution with a request of client 1 outstanding, in which the switch sends a message of its own. -/
example : ∃ j out p rest, JackOut false (fun _ => true) j out ∧ j.sys.toCtl = p :: rest ∧ p.origin = none ∧ ¬ IsBarrierRep p.bytes ∧
    j.sys.alive 1 = true ∧ ∃ q ∈ Outstanding.firstPart out, q.cb = some 1 := by
  let j0 : Jack := ⟨⟨freshCtl (some 4) (some 9), fun _ => true, [], []⟩, [], [], []⟩
  let j1 := jackRequest j0 1 [4, 7, 0, 8, 0, 0, 0, 2] ⟨0, 0, 0, 0⟩
  have h1 : JackOut false (fun _ => true) j1 _ :=
    .step (.init (some 4) (some 9) (fun _ => true)) (.request j0 1 _ ⟨0, 0, 0, 0⟩ rfl rfl (by decide))
  have h2 := JackOut.step h1 (.env _ _ (SysStep.unsolicited (hasAsync := false) j1.sys [4, 10, 0, 8, 0, 0, 0, 0] (by decide)
    (by decide)) ⟨rfl, rfl⟩ (by simp))
  exact ⟨_, _, ⟨[4, 10, 0, 8, 0, 0, 0, 0], none⟩, [], h2, rfl, rfl, by decide, rfl, ⟨[4, 7, 0, 8, 0, 0, 0, 2], some 1, false⟩, by decide, rfl⟩

end Twink.Exact

namespace Twink.Agent
open Of13 Spec Fmt

/-! ## C61 -/

theorem forwards_cons (st : St) (a : Action) (as : List Action) (d : Bytes) : forwards st (a :: as) d = forwards st [a] d ++ forwards st as d := by
  unfold forwards
  rw [← List.filterMap_append]; rfl

/-- C61, what is done: the first action decides.  Without actions the result is IndexError; if the first action is no output it is
AttributeError; if the port does not exist it is KeyError; otherwise the packet is forwarded as the first action says. -/
theorem C61_outcome (o : Order) (rnd : Nat) (st : St) (m : Bytes) (hd : Hdr) (b i l : Nat) (as : List Action) (d : Bytes)
    (hp : parse m 0 = .ok (.packetOut hd b i l as d)) (ht : u8 m 1 = 13) :
    (as = [] → switchProc o rnd st m = .error .indexError) ∧
    (∀ a rest, as = a :: rest → (∀ t len n ml, a ≠ .output t len n ml) → switchProc o rnd st m = .error .attributeError) ∧
    (∀ t len n ml rest, as = .output t len n ml :: rest →
      (st.ports.lookup n = none → switchProc o rnd st m = .error .keyError) ∧
      (st.ports.lookup n ≠ none → switchProc o rnd st m = .ok (st, forwards st [.output t len n ml] d))) := by
  obtain ⟨_, _, hh, _⟩ := parse_hdr hp
  have ht' : hd.type = 13 := by
    have : hd.type = u8 m 1 := by have := congrArg Hdr.type hh; simpa [hdrOf] using this
    rw [this]; exact ht
  rw [packetOut_does hp ht']
  refine ⟨?_, ?_, ?_⟩
  · rintro rfl; rfl
  · rintro a rest rfl ha
    cases a with
    | output t len n ml => exact absurd rfl (ha t len n ml)
    | _ => rfl
  · rintro t len n ml rest rfl
    simp only [packetOutStep, firstPort, ok_bind, forwards]
    cases hlk : st.ports.lookup n with
    | none => exact ⟨fun _ => rfl, fun h => absurd rfl h⟩
    | some p => refine ⟨fun h => (by cases h), fun _ => ?_⟩; cases hsk : p.sock <;> simp [hsk, hlk, Except.map]

/-- C61, exactly: a PACKET_OUT message is forwarded as all its actions say if and only if the first is an output to an existing port and no later
action is an output to a port with a socket. -/
theorem C61_exact (o : Order) (rnd : Nat) (st : St) (m : Bytes) (hd : Hdr) (b i l : Nat) (as : List Action) (d : Bytes)
    (hp : parse m 0 = .ok (.packetOut hd b i l as d)) (ht : u8 m 1 = 13) :
    switchProc o rnd st m = .ok (st, forwards st as d) ↔
      ∃ t len n ml rest, as = .output t len n ml :: rest ∧ st.ports.lookup n ≠ none ∧
        ∀ t' len' n' ml' p, Action.output t' len' n' ml' ∈ rest → st.ports.lookup n' = some p → p.sock = none := by
  obtain ⟨h1, h2, h3⟩ := C61_outcome o rnd st m hd b i l as d hp ht
  have key : ∀ rest : List Action, forwards st rest d = [] ↔
      ∀ t' len' n' ml' p, Action.output t' len' n' ml' ∈ rest → st.ports.lookup n' = some p → p.sock = none := by
    intro rest
    simp only [forwards, List.filterMap_eq_nil_iff]
    constructor
    · intro h t' len' n' ml' p hm hl
      have := h _ hm
      simp [hl] at this
      exact this
    · intro h a ha
      cases a with
      | output t' len' n' ml' =>
        cases hl : st.ports.lookup n' with
        | none => simp [hl]
        | some p => simp [hl, h t' len' n' ml' p ha hl]
      | _ => rfl
  cases as with
  | nil => rw [h1 rfl]; simp
  | cons a rest =>
    by_cases ha : ∃ t len n ml, a = .output t len n ml
    · obtain ⟨t, len, n, ml, rfl⟩ := ha
      obtain ⟨h4, h5⟩ := h3 t len n ml rest rfl
      by_cases hn : st.ports.lookup n = none
      · rw [h4 hn]
        constructor
        · intro e; cases e
        · rintro ⟨_, _, _, _, _, e, hne, _⟩
          injection e with e1 e2; injection e1 with _ _ e3; subst e3; exact absurd hn hne
      · rw [h5 hn, forwards_cons st _ rest]
        simp only [Except.ok.injEq, Prod.mk.injEq, true_and]
        rw [List.self_eq_append_right, key rest]
        constructor
        · intro h; exact ⟨t, len, n, ml, rest, rfl, hn, h⟩
        · rintro ⟨_, _, _, _, _, e, _, h⟩
          injection e with _ e2; subst e2; exact h
    · have ha' : ∀ t len n ml, a ≠ .output t len n ml := fun t len n ml e => ha ⟨t, len, n, ml, e⟩
      rw [h2 a rest rfl ha']
      constructor
      · intro e; cases e
      · rintro ⟨t, len, n, ml, _, e, _⟩
        injection e with e1; exact absurd e1 (ha' t len n ml)

/-- A message with two output actions, of which the second names a port that does not exist. -/
example : ∃ m hd b i l as d, parse m 0 = .ok (.packetOut hd b i l as d) ∧ u8 m 1 = 13 ∧ as.length = 2 ∧
    ∃ t len n ml rest, as = .output t len n ml :: rest ∧ (start (some 5) (some 6)).ports.lookup n ≠ none ∧
        ∀ t' len' n' ml' p, Action.output t' len' n' ml' ∈ rest → (start (some 5) (some 6)).ports.lookup n' = some p → p.sock = none := by
  have ⟨m, hm⟩ : ∃ m, buildPacketOut 1 .none none 2 (tups [.output none none 1 0, .output none none 9 0]) (some [7]) = .ok m := ⟨_, rfl⟩
  have hp := built_packetOut hm (by simp [Action.Parseable])
  refine ⟨m, _, _, _, _, _, _, hp, ?_, rfl, _, _, _, _, _, rfl, by decide +kernel, ?_⟩
  · obtain ⟨_, _, hh, _⟩ := parse_hdr hp
    have := congrArg Hdr.type hh
    simpa [hdrOf] using this.symm
  · intro t' len' n' ml' p hm hl
    simp [Action.wire] at hm
    obtain ⟨_, _, rfl, _⟩ := hm
    have : (start (some 5) (some 6)).ports.lookup 9 = none := by decide +kernel
    rw [this] at hl; cases hl

end Twink.Agent
