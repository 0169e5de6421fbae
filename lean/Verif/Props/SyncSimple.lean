import Verif.Model.SyncSimple
import Verif.Props.Sync
import Verif.Spec.Wire
import Verif.Proof.Ports

/-! # Properties C98, C99: simple synchronous requests; receiving on a synchronous channel -/

namespace Twink.Simple
open Twink Spec Fmt

/-! ## Specification -/

/-- Message types of requests and replies in the standard: ECHO 2/3, FEATURES 5/6, GET_CONFIG 7/8, and BARRIER, which is 18/19 in
OpenFlow 1.0 and 20/21 later. -/
def RequestType (version : Nat) : Req → Nat → Prop
  | .echo, t => t = 2
  | .feature, t => t = 5
  | .getConfig, t => t = 7
  | .barrier, t => (version = 1 ∧ t = 18) ∨ (version ≠ 1 ∧ t = 20)

def ReplyType (version : Nat) : Req → Nat → Prop
  | .echo, t => t = 3
  | .feature, t => t = 6
  | .getConfig, t => t = 8
  | .barrier, t => (version = 1 ∧ t = 19) ∨ (version ≠ 1 ∧ t = 21)

/-! ## C98 -/

theorem types_ok (v : Nat) (r : Req) : RequestType v r (types (some v) r).1 ∧ ReplyType v r (types (some v) r).2 ∧ (types (some v) r).1 < 256 := by
  cases r with
  | barrier =>
    by_cases h : v = 1
    · subst h; exact ⟨.inl ⟨rfl, rfl⟩, .inl ⟨rfl, rfl⟩, by decide⟩
    · have e : types (some v) .barrier = (20, 21) := by simp [types, h]
      rw [e]; exact ⟨.inr ⟨h, rfl⟩, .inr ⟨h, rfl⟩, by decide⟩
  | _ => exact ⟨rfl, rfl, by simp [types]⟩

/-- **C98, request.** Each method sends a bare header of the negotiated version, of the type of the standard, with the id given.  Without a
negotiated version it raises. -/
theorem C98_request (v xid : Nat) (r : Req) (hv : v < 256) (hx : xid < 2 ^ 32) :
    (∃ t, RequestType v r t ∧ request (some v) xid r = .ok (ofHeader v t 8 xid)) ∧ request none xid r = .error .structError := by
  obtain ⟨h1, _, h3⟩ := types_ok v r
  refine ⟨⟨_, h1, ?_⟩, rfl⟩
  rw [ofHeader_enc]
  exact pack_eq_ok.2 ⟨by simp [fits, hdrFmt, hv, h3]; omega, rfl⟩

theorem id_of {v t xid : Nat} {r : Req} (hv : v < 256) (ht : RequestType v r t) (hx : xid < 2 ^ 32) : u32 (ofHeader v t 8 xid) 4 = xid := by
  have h : t < 256 := by
    cases r <;> simp only [RequestType] at ht <;> omega
  have := parseHeader_ofHeader v t 8 xid [] hv h (by decide) hx
  rw [List.append_nil, parseHeader_fields _ (by simp)] at this
  simp only [Except.ok.injEq, Prod.mk.injEq] at this
  exact this.2.2.2

theorem result_ok (v : Nat) (r : Req) (d : Option Bytes) (m : Bytes) (h : result (some v) r d = .ok m) :
    d = some m ∧ 8 ≤ m.length ∧ ReplyType v r (u8 m 1) := by
  unfold result at h
  split at h
  · cases h
  · cases h
  · rename_i b l
    by_cases h8 : 8 ≤ (b :: l).length
    · rw [parseHeader_fields _ h8] at h
      simp only at h
      split at h
      · cases h
      · rename_i ht
        cases h
        refine ⟨rfl, h8, ?_⟩
        rw [Classical.not_not.mp ht]
        exact (types_ok v r).2.1
    · rw [parseHeader_short _ (by omega)] at h; cases h

/-- **C98, result.** In every run in which nobody closes the channel: if the method returns, it returns a message of the type of the reply, and
this is what arrived with the id of the request after the call began. -/
theorem C98_reply {w : Option Nat} {v xid : Nat} {r : Req} {ops1 ops2 : List SyncOp} {m0 m : Bytes} {c : SCall} {d : Option Bytes} {st1 st2 : SyncSt}
    (hv : v < 256) (hx : xid < 2 ^ 32) (hm0 : request (some v) xid r = .ok m0)
    (h1 : st1 = syncRun (freshSync w) ops1) (h2 : st2 = syncRun st1 (.sendSync m0 :: ops2)) (hc : NoClose (ops1 ++ .sendSync m0 :: ops2))
    (h : st2.threads[st1.threads.length]? = some (.sync c)) (hd : c.pc = .done d) (hr : result (some v) r d = .ok m) :
    ReplyType v r (u8 m 1) ∧ ∃ got, got <+: st2.rx.drop st1.rx.length ∧ some m = assembled (withId xid got) := by
  obtain ⟨⟨t, ht0, e⟩, _⟩ := C98_request v xid r hv hx
  rw [hm0] at e
  cases e
  obtain ⟨hd', _, ht⟩ := result_ok v r d m hr
  obtain ⟨got, g1, g2, _⟩ := C22_own_reply h1 h2 hc h hd
  refine ⟨ht, got, g1, ?_⟩
  have hid : u32 (ofHeader v t 8 xid) 4 = xid := id_of hv ht0 hx
  rw [hid] at g2
  rw [← g2, hd']

/-- **C98, a single reply.** If none of the messages with that id is a multipart reply, what is returned is one of the messages received. -/
theorem C98_received {w : Option Nat} {v xid : Nat} {r : Req} {ops1 ops2 : List SyncOp} {m0 m : Bytes} {c : SCall} {d : Option Bytes} {st1 st2 : SyncSt}
    (hv : v < 256) (hx : xid < 2 ^ 32) (hm0 : request (some v) xid r = .ok m0)
    (h1 : st1 = syncRun (freshSync w) ops1) (h2 : st2 = syncRun st1 (.sendSync m0 :: ops2)) (hc : NoClose (ops1 ++ .sendSync m0 :: ops2))
    (h : st2.threads[st1.threads.length]? = some (.sync c)) (hd : c.pc = .done d) (hr : result (some v) r d = .ok m)
    (hs : ∀ m ∈ st2.rx.drop st1.rx.length, u32 m 4 = xid → ¬ IsMultipartRep m) : m ∈ st2.rx.drop st1.rx.length ∧ u32 m 4 = xid := by
  obtain ⟨⟨t, ht0, e⟩, _⟩ := C98_request v xid r hv hx
  rw [hm0] at e
  cases e
  obtain ⟨hd', _, _⟩ := result_ok v r d m hr
  have hid : u32 (ofHeader v t 8 xid) 4 = xid := id_of hv ht0 hx
  have := C24_single_partial h1 h2 hc h (by rw [hd, hd']) (by rw [hid]; exact hs)
  rw [hid] at this
  exact this

/-- **C98, failures.** No reply (timeout) or an empty one (the channel was closed): ChannelClose. -/
theorem C98_no_reply (w : Option Nat) (r : Req) : result w r none = .error .channelClose ∧ result w r (some []) = .error .channelClose := ⟨rfl, rfl⟩

/-- What `multi` does with the reply to its barrier request is what `barrier()` does. -/
theorem C98_multi (w : Option Nat) (d : Option Bytes) : barrierResult w d = (result w .barrier d).map (fun _ => ()) := by
  unfold barrierResult result
  rcases d with _ | (_ | ⟨b, m⟩)
  · rfl
  · rfl
  · simp only
    cases parseHeader (b :: m) with
    | error e => rfl
    | ok p =>
      have e : (types w .barrier).2 = if w = some 1 then 19 else 21 := by simp only [types]; split <;> rfl
      simp only [e]
      by_cases h : p.2.1 = if w = some 1 then 19 else 21
      · rw [if_neg (by simpa using h), if_neg (by simpa using h)]; rfl
      · rw [if_pos h, if_pos h]; rfl

/-- **C98 is false of the code**: whatever message of another type answers, such as an error message, the caller does not get an exception with
that message, but NameError. -/
theorem C98_error_refuted (v : Nat) (r : Req) (m : Bytes) (h8 : 8 ≤ m.length) (ht : ¬ ReplyType v r (u8 m 1)) :
    result (some v) r (some m) = .error .nameError := by
  obtain ⟨b, l, rfl⟩ : ∃ b l, m = b :: l := by cases m with | nil => simp at h8 | cons b l => exact ⟨b, l, rfl⟩
  unfold result
  simp only [parseHeader_fields _ h8]
  rw [if_pos]
  intro e
  exact ht (e ▸ (types_ok v r).2.1)

/-- Non-vacuity: an error message answers `echo()`; and a run in which `echo()` returns. -/
example : result (some 4) .echo (some [4, 1, 0, 12, 0, 0, 0, 7, 0, 1, 0, 0]) = .error .nameError := by decide +kernel

example : ∃ c, (syncRun (freshSync (some 4)) ([.sendSync [4, 2, 0, 8, 0, 0, 0, 7], .thread 0 go] ++ recvAll [4, 3, 0, 8, 0, 0, 0, 7] ++
    [.thread 0 go, .thread 0 go, .thread 0 go])).threads[0]? = some (.sync c) ∧ request (some 4) 7 .echo = .ok [4, 2, 0, 8, 0, 0, 0, 7] ∧
    c.pc = .done (some [4, 3, 0, 8, 0, 0, 0, 7]) ∧ result (some 4) .echo (some [4, 3, 0, 8, 0, 0, 0, 7]) = .ok [4, 3, 0, 8, 0, 0, 0, 7] :=
  ⟨⟨7, 0, .done (some [4, 3, 0, 8, 0, 0, 0, 7]), true, [4, 2, 0, 8, 0, 0, 0, 7]⟩, by decide +kernel, by decide +kernel, rfl, by decide +kernel⟩

/-! ## C99 -/

/-- **C99, a message for nobody.** A message whose id nobody waits for is passed on, and nothing else changes. -/
theorem C99_other (st : SyncSt) (m : Bytes) (hi : st.rpc = .idle) (h8 : 8 ≤ m.length) (hs : st.syncs (u32 m 4) = none) :
    syncRun st (recvAll m) = { st with rx := st.rx ++ [m] } := by
  have hm : m ≠ [] := by intro e; rw [e] at h8; simp at h8
  simp [recvAll, syncRun, syncOp, recvBegin, hi, hm, parseHeader_fields m h8, hs, recvStep]

/-- **C99, a message that somebody waits for.** Received without interference: it is stored (appended, if it is part of a multipart
reply); the waiter is woken up iff it is the last part; `recv` raises iff it claims to be part of a multipart reply, but is too short for that. -/
theorem C99_awaited (st : SyncSt) (m : Bytes) (t : Nat) (tr : Tracker) (hi : st.rpc = .idle) (h8 : 8 ≤ m.length) (hs : st.syncs (u32 m 4) = some t)
    (ht : st.heap[t]? = some tr) :
    let st' := syncRun st (recvAll m)
    st'.heap = st.heap.set t { tr with
        data := some (if IsMultipartRep m then tr.data.getD [] ++ m else m), ev := tr.ev || decide (IsFinal m) } ∧
      st'.rx = st.rx ++ [m] ∧ st'.rpc = .idle ∧ st'.syncs = st.syncs ∧ st'.threads = st.threads ∧ st'.sent = st.sent ∧
      st'.rerr = if IsMultipartRep m ∧ m.length < 12 then some .structError else st.rerr := by
  have hm : m ≠ [] := by intro e; rw [e] at h8; simp at h8
  have hlt := lt_of_getElem? ht
  have hset : ∀ f : Tracker → Tracker, st.heap.modify t f = st.heap.set t (f tr) := by
    intro f
    apply List.ext_getElem?
    intro j
    rw [List.getElem?_modify, List.getElem?_set]
    by_cases hj : t = j
    · subst hj; rw [ht]; simp [hlt]
    · simp [hj]
  have hset2 : ∀ (a : Tracker) (f : Tracker → Tracker), (st.heap.set t a).modify t f = st.heap.set t (f a) := by
    intro a f
    apply List.ext_getElem?
    intro j
    rw [List.getElem?_modify, List.getElem?_set, List.getElem?_set]
    by_cases hj : t = j
    · subst hj; simp [hlt]
    · simp [hj]
  intro st'
  have e3 : st' = recvStep { st with
      rpc := .stored m t
      rx := st.rx ++ [m]
      heap := st.heap.set t { tr with data := storeData (isMultipart (u8 m 0) (u8 m 1)) m tr.data } } := by
    simp only [st', recvAll, syncRun, syncOp, recvBegin, hi, hm, if_false, parseHeader_fields m h8, hs, Option.isSome_some, if_true]
    congr 1
    simp only [recvStep, parseHeader_fields m h8, hs, updTracker, hset]
  by_cases hmp : IsMultipartRep m
  · have hb : isMultipart (u8 m 0) (u8 m 1) = true := (isMultipart_iff m).2 hmp
    have hd : storeData true m tr.data = some (tr.data.getD [] ++ m) := by
      unfold storeData; cases tr.data <;> rfl
    rw [hb, hd] at e3
    by_cases h12 : 12 ≤ m.length
    · have hu := unpack_flags m h12
      by_cases hfl : u16 m 10 % 2 = 0
      · have hf : IsFinal m := fun _ => ⟨h12, hfl⟩
        simp only [recvStep, parseHeader_fields m h8, hb, if_true, hu, hfl, updTracker, hset2] at e3
        rw [e3]; simp [hmp, hf]; omega
      · have hf : ¬ IsFinal m := fun h => hfl (h hmp).2
        simp only [recvStep, parseHeader_fields m h8, hb, if_true, hu, if_neg hfl] at e3
        rw [e3]; simp [hmp, hf]; omega
    · have hu := unpack_flags_short m (by omega)
      have hf : ¬ IsFinal m := fun h => h12 (h hmp).1
      simp only [recvStep, parseHeader_fields m h8, hb, if_true, hu] at e3
      rw [e3]; simp [hmp, hf]; omega
  · have hb : isMultipart (u8 m 0) (u8 m 1) = false := by
      cases h : isMultipart (u8 m 0) (u8 m 1) with
      | false => rfl
      | true => exact absurd ((isMultipart_iff m).1 h) hmp
    have hf : IsFinal m := fun h => absurd h hmp
    rw [hb] at e3
    simp only [recvStep, parseHeader_fields m h8, hb, Bool.false_eq_true, if_false, updTracker, hset2, storeData] at e3
    rw [e3]; simp [hmp, hf]

theorem syncStep_rerr (ch : Choice) (st : SyncSt) (c : SCall) : (syncStep ch st c).1.rerr = st.rerr := by
  unfold syncStep unregister
  cases c.pc <;> simp only <;> (try split) <;> (try split) <;> (try split) <;> rfl

theorem multiStep_rerr (ch : Choice) (st : SyncSt) (c : MCall) : (multiStep ch st c).1.rerr = st.rerr := by
  unfold multiStep register unregister
  repeat' (first | rfl | exact syncStep_rerr _ _ _ | split)

/-- **C99, causes.** In every run the receiving thread raises only in these cases: a message shorter than a header; a message that claims to be
part of a multipart reply and is shorter than 12 bytes (struct.error); or the caller it was meant for has stopped waiting between the two
look-ups of its id (KeyError). -/
theorem C99_causes {w : Option Nat} {ops : List SyncOp} {st : SyncSt} (h : st = syncRun (freshSync w) ops) (op : SyncOp) :
    (syncOp st op).rerr = st.rerr ∨
    ((∃ m, op = .recv m ∧ m.length < 8) ∧ (syncOp st op).rerr = some .structError) ∨
    (op = .recvStep ∧ (∃ m, st.rpc = .checked m ∧ st.syncs (u32 m 4) = none) ∧ (syncOp st op).rerr = some .keyError) ∨
    (op = .recvStep ∧ (∃ m t, st.rpc = .stored m t ∧ IsMultipartRep m ∧ m.length < 12) ∧ (syncOp st op).rerr = some .structError) := by
  have hr : RunInv st := h ▸ runInv_fresh w ops
  cases op with
  | sendSync m => left; simp only [syncOp]; split <;> rfl
  | multi ms => left; rfl
  | thread i ch =>
    left; simp only [syncOp]
    split
    · exact syncStep_rerr _ _ _
    · exact multiStep_rerr _ _ _
    · rfl
  | close => left; rfl
  | closeStep i => left; simp only [syncOp, closeStep]; split <;> rfl
  | recv m =>
    simp only [syncOp, recvBegin]
    split
    · split
      · left; rfl
      · by_cases h8 : 8 ≤ m.length
        · rw [parseHeader_fields m h8]; left; simp only; split <;> rfl
        · rw [parseHeader_short m (by omega)]; right; left; exact ⟨⟨m, rfl, by omega⟩, rfl⟩
    · left; rfl
  | recvStep =>
    simp only [syncOp]
    cases hp : st.rpc with
    | idle => left; simp only [recvStep, hp]
    | checked m =>
      have h8 := hr.inv.checked m hp
      simp only [recvStep, hp, parseHeader_fields m h8]
      cases hs : st.syncs (u32 m 4) with
      | some t => left; rfl
      | none => right; right; left; exact ⟨trivial, ⟨m, rfl, hs⟩, rfl⟩
    | found m t =>
      have h8 := (hr.inv.busy m t (.inl hp)).1
      left; simp only [recvStep, hp, parseHeader_fields m h8, updTracker]
    | stored m t =>
      have h8 := (hr.inv.busy m t (.inr hp)).1
      simp only [recvStep, hp, parseHeader_fields m h8]
      split
      · rename_i hb
        have hmp := (isMultipart_iff m).1 hb
        by_cases h12 : 12 ≤ m.length
        · rw [unpack_flags m h12]
          left; simp only [updTracker]; split <;> rfl
        · rw [unpack_flags_short m (by omega)]
          right; right; right; exact ⟨trivial, ⟨m, t, rfl, hmp, by omega⟩, rfl⟩
      · left; rfl

/-- Non-vacuity of C99: a call waits for id 7; the first fragment of its reply, then a message for nobody. -/
example : (syncRun (freshSync (some 4)) [.sendSync exReq, .thread 0 go]).rpc = .idle ∧
    (syncRun (freshSync (some 4)) [.sendSync exReq, .thread 0 go]).syncs (u32 exFrag1 4) = some 0 ∧
    (syncRun (freshSync (some 4)) [.sendSync exReq, .thread 0 go]).heap[0]? = some ⟨7, false, none, 0, false⟩ ∧
    (syncRun (freshSync (some 4)) [.sendSync exReq, .thread 0 go]).syncs (u32 exOther 4) = none ∧ IsMultipartRep exFrag1 ∧ ¬ IsFinal exFrag1 := by
  decide +kernel

/-- **C99 is false of the code**: a request times out just when its reply arrives; the receiving thread ends with KeyError. -/
theorem C99_race_refuted : ∃ ops : List SyncOp,
    ops = [.sendSync exReq, .thread 0 go, .recv [4, 3, 0, 8, 0, 0, 0, 7], .thread 0 timedOut, .thread 0 go, .recvStep] ∧
    (syncRun (freshSync (some 4)) ops).rerr = some .keyError := ⟨_, rfl, by decide +kernel⟩

/-- **C99 is false of the code**: a reply of 8 bytes that has the type of multipart replies ends the receiving thread with struct.error. -/
theorem C99_short_refuted : ∃ ops : List SyncOp, ops = [.sendSync exReq, .thread 0 go] ++ recvAll [4, 19, 0, 8, 0, 0, 0, 7] ∧
    (syncRun (freshSync (some 4)) ops).rerr = some .structError := ⟨_, rfl, by decide +kernel⟩

end Twink.Simple
