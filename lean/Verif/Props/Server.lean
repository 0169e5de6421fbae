import Verif.Model.Server
import Verif.Model.Xid
import Verif.Proof.HelloSpec
import Mathlib.Data.List.Pairwise

/-! # Properties C10–C14: start-up, transaction ids, echo, server loop -/

namespace Twink
open Spec Fmt

namespace Spec
/-- The call starts the handshake: `start()`, or `attach` with autostart. -/
def IsStarter : StartOp → Prop
  | .start _ => True
  | .attach a _ => a = true
  | .other _ => False

/-- What a call writes on the user's behalf. -/
def userWrites : StartOp → List Written
  | .other bs => bs.map .user
  | _ => []

/-- The id used by a starting call. -/
def starterXid : StartOp → Nat
  | .start x => x
  | .attach _ x => x
  | .other _ => 0
end Spec

theorem startRun_append (accept : PyVers) (st : StartState) (a b : List StartOp) :
    startRun accept st (a ++ b) = startRun accept (startRun accept st a) b := by
  induction a generalizing st with
  | nil => rfl
  | cons op a ih => simp [startRun, ih]

theorem startRun_started (accept : PyVers) (w : List Written) (ops : List StartOp) :
    startRun accept ⟨true, w⟩ ops = ⟨true, w ++ ops.flatMap userWrites⟩ := by
  induction ops generalizing w with
  | nil => simp [startRun]
  | cons op ops ih =>
    cases op with
    | start x => simp [startRun, startStep, doStart, ih, userWrites]
    | attach a x => cases a <;> simp [startRun, startStep, doStart, ih, userWrites]
    | other bs => simp [startRun, startStep, ih, userWrites]

theorem startRun_unstarted (accept : PyVers) (w : List Written) (ops : List StartOp) (h : ∀ op ∈ ops, ¬ IsStarter op) :
    startRun accept ⟨false, w⟩ ops = ⟨false, w ++ ops.flatMap userWrites⟩ := by
  induction ops generalizing w with
  | nil => simp [startRun]
  | cons op ops ih =>
    have h1 := h op (by simp)
    have h2 := fun w => ih w (fun o ho => h o (by simp [ho]))
    cases op with
    | start x => simp [IsStarter] at h1
    | attach a x => cases a <;> simp [IsStarter] at h1 <;> simp [startRun, startStep, h2, userWrites]
    | other bs => simp [startRun, startStep, h2, userWrites]

/-- **C10.** With no starting call nothing is written for the handshake. With `s` the first starting call (and a hello that
can be built), the written sequence is: the other writes before `s`, one hello, all the other writes after `s` — whatever
starting calls follow. -/
theorem C10_hello_sent_exactly_once (accept : PyVers) (pre post : List StartOp) (s : StartOp) (hello_bytes : Bytes)
    (hpre : ∀ op ∈ pre, ¬ IsStarter op) (hs : IsStarter s) (hh : hello accept (starterXid s) = .ok hello_bytes) :
    (startRun accept ⟨false, []⟩ (pre ++ s :: post)).written =
      pre.flatMap userWrites ++ [.handshake hello_bytes] ++ post.flatMap userWrites := by
  rw [startRun_append, startRun_unstarted _ _ _ hpre]
  have : startRun accept ⟨false, [] ++ pre.flatMap userWrites⟩ (s :: post) =
      startRun accept ⟨true, pre.flatMap userWrites ++ [.handshake hello_bytes]⟩ post := by
    cases s with
    | start x => simp [startRun, startStep, doStart, starterXid] at hh ⊢; simp [hh]
    | attach a x =>
      simp only [IsStarter] at hs; subst hs
      simp [startRun, startStep, doStart, starterXid] at hh ⊢; simp [hh]
    | other bs => exact hs.elim
  rw [this, startRun_started]

/-- **C10**, no start: no hello. -/
theorem C10_no_hello_without_start (accept : PyVers) (ops : List StartOp) (h : ∀ op ∈ ops, ¬ IsStarter op) :
    (startRun accept ⟨false, []⟩ ops).written = ops.flatMap userWrites := by
  rw [startRun_unstarted _ _ _ h]; simp

/-- The writes attributed to the user contain no handshake, so C10 counts all of them. -/
theorem C10_user_writes_are_no_handshake (ops : List StartOp) (b : Bytes) : .handshake b ∉ ops.flatMap userWrites := by
  simp only [List.mem_flatMap, not_exists, not_and]
  intro op _ h
  cases op <;> simp [userWrites] at h

example : ∃ b, hello (.seq [.int 4]) 7 = .ok b ∧ IsStarter (.attach true 7) ∧
    (startRun (.seq [.int 4]) ⟨false, []⟩ [.attach false 5, .attach true 7, .other [[1]], .start 8]).written =
      [.handshake b, .user [1]] := ⟨_, rfl, rfl, by decide⟩

/-! ## Transaction ids -/

theorem candidate_eq (c : Clock) :
    candidate c = c.hour * 100000000 + c.minute * 1000000 + c.second * 10000 + c.micro / 100 := by
  have h1 := c.hour.isLt; have h2 := c.minute.isLt; have h3 := c.second.isLt; have h4 := c.micro.isLt
  simp only [candidate, intOfDigits, digits2, digits4, List.cons_append, List.nil_append, List.foldl]
  omega

theorem candidate_le (c : Clock) : candidate c ≤ 2359599999 := by
  rw [candidate_eq]
  have h1 := c.hour.isLt; have h2 := c.minute.isLt; have h3 := c.second.isLt; have h4 := c.micro.isLt
  omega

theorem hmsXids_gt (d : Nat) (cs : List Clock) : ∀ x ∈ hmsXids (some d) cs, d < x := by
  induction cs generalizing d with
  | nil => simp [hmsXids]
  | cons c cs ih =>
    intro x hx
    simp only [hmsXids, List.mem_cons] at hx
    have : d < hmsXid (some d) c := by simp only [hmsXid]; split <;> omega
    rcases hx with rfl | hx
    · exact this
    · exact Nat.lt_trans this (ih _ x hx)

/-- **C11, monotonicity.** For every sequence of clock readings (also running backwards) and every earlier state, successive
ids are strictly increasing, and larger than every id returned before. -/
theorem C11_strictly_increasing (d : Option Nat) (cs : List Clock) :
    (hmsXids d cs).Pairwise (· < ·) ∧ ∀ d', d = some d' → ∀ x ∈ hmsXids d cs, d' < x := by
  refine ⟨?_, fun d' hd => hd ▸ hmsXids_gt d' cs⟩
  induction cs generalizing d with
  | nil => simp [hmsXids]
  | cons c cs ih => exact List.pairwise_cons.2 ⟨hmsXids_gt _ _, ih _⟩

theorem hmsXids_le (d : Option Nat) (b : Nat) (cs : List Clock) (hb : 2359599999 ≤ b + 1) (hd : ∀ d', d = some d' → d' ≤ b)
    (i : Nat) (x : Nat) (hx : (hmsXids d cs)[i]? = some x) : x ≤ b + 1 + i := by
  induction cs generalizing d b i with
  | nil => simp [hmsXids] at hx
  | cons c cs ih =>
    have h0 : hmsXid d c ≤ b + 1 := by
      have := candidate_le c
      cases d with
      | none => simp only [hmsXid]; omega
      | some d' =>
        have := hd d' rfl
        simp only [hmsXid]; split <;> omega
    cases i with
    | zero => simp [hmsXids] at hx; omega
    | succ i =>
      simp only [hmsXids, List.getElem?_cons_succ] at hx
      have := ih (some (hmsXid d c)) (b + 1) (by omega) (by rintro d' ⟨⟩; exact h0) i hx
      omega

/-- **C11, range.** Each of the first 1 935 367 297 ids of a process fits the 32-bit header field. -/
theorem C11_fits_32_bits (cs : List Clock) (i x : Nat) (hi : i < 1935367297) (hx : (hmsXids none cs)[i]? = some x) :
    x < 2 ^ 32 := by
  have := hmsXids_le none 2359599998 cs (by omega) (by simp) i x hx
  omega

theorem hmsXids_same (d : Nat) (c : Clock) (h : candidate c ≤ d) (n i : Nat) (hi : i < n) :
    (hmsXids (some d) (List.replicate n c))[i]? = some (d + 1 + i) := by
  induction n generalizing d i with
  | zero => omega
  | succ n ih =>
    have e : hmsXid (some d) c = d + 1 := by rw [hmsXid, if_pos h]
    simp only [List.replicate_succ, hmsXids, e]
    cases i with
    | zero => rfl
    | succ i =>
      rw [List.getElem?_cons_succ, ih (d + 1) (by omega) i (by omega)]
      congr 1; omega

/-- **C11, the bound is exact**: of a process that asks within the last tenth of a millisecond before midnight, and again while the clock
shows the same time, the id after the first 1 935 367 297 does not fit the 32-bit header field (and those before do). -/
theorem C11_range_exact : ∃ c : Clock, c.hour = 23 ∧ ∀ i n, i < n → (hmsXids none (List.replicate n c))[i]? = some (2359599999 + i) ∧
    (2359599999 + i < 2 ^ 32 ↔ i < 1935367297) := by
  refine ⟨⟨23, 59, 59, 999999⟩, rfl, fun i n hi => ⟨?_, by constructor <;> intro h <;> omega⟩⟩
  have e : candidate ⟨23, 59, 59, 999999⟩ = 2359599999 := by decide
  obtain ⟨n, rfl⟩ : ∃ k, n = k + 1 := ⟨n - 1, by omega⟩
  simp only [List.replicate_succ, hmsXids, hmsXid, e]
  cases i with
  | zero => rfl
  | succ i =>
    rw [List.getElem?_cons_succ, hmsXids_same _ _ (by rw [e]) n i (by omega)]
    congr 1; omega

/-- **C11**, one result per call. -/
theorem C11_one_id_per_call (d : Option Nat) (cs : List Clock) : (hmsXids d cs).length = cs.length := by
  induction cs generalizing d with
  | nil => rfl
  | cons c cs ih => simp [hmsXids, ih]

/-- **C11**, readability: whenever the clock has moved past the last id, the id is exactly the reading HHMMSSffff. -/
theorem C11_readable (d : Option Nat) (c : Clock)
    (h : ∀ d', d = some d' → d' < c.hour * 100000000 + c.minute * 1000000 + c.second * 10000 + c.micro / 100) :
    hmsXid d c = c.hour * 100000000 + c.minute * 1000000 + c.second * 10000 + c.micro / 100 := by
  cases d with
  | none => exact candidate_eq c
  | some d =>
    have := h d rfl
    rw [← candidate_eq] at this
    rw [hmsXid, if_neg (by omega), candidate_eq]

/-- Non-vacuity: a clock that goes backwards. -/
example : hmsXids none [⟨12, 34, 56, 789000⟩, ⟨12, 34, 56, 789000⟩, ⟨12, 0, 0, 0⟩] =
    [1234567890, 1234567891, 1234567892] := by decide

/-- **C12 is false of the code**: two threads that interleave inside `hms_xid` obtain the same id. -/
theorem C12_refuted :
    ∃ (sched : List (Nat × Clock)) (x : Nat),
      (xrun ⟨none, fun _ => .idle, []⟩ sched).out = [(1, x), (2, x)] :=
  let c : Clock := ⟨12, 34, 56, 789000⟩
  ⟨[(1, c), (2, c), (1, c), (2, c), (1, c), (2, c)], 1234567890, by decide⟩

/-- **C12 is false of the code** even when the counter is already set and clocks differ: a delayed writer sets the counter back, so
a call that starts after another one has ended repeats its id. -/
theorem C12_refuted_later_call :
    ∃ (d : Nat) (sched : List (Nat × Clock)) (x : Nat),
      (xrun ⟨some d, fun _ => .idle, []⟩ sched).out = [(2, x), (2, x + 1), (1, x), (3, x + 1)] := by
  let c : Clock := ⟨0, 0, 0, 0⟩
  refine ⟨5, [(1, c), (1, c), (1, c), (1, c)] ++ [(2, c), (2, c), (2, c), (2, c), (2, c)] ++
    [(2, c), (2, c), (2, c), (2, c), (2, c)] ++ [(1, c)] ++ [(3, c), (3, c), (3, c), (3, c), (3, c)], 6, by decide⟩

/-- A call executed without interruption: the steps of one thread from entry to return. -/
def xcall (s : XState) (t : Nat) (c : Clock) : XState :=
  match s.dedup with
  | none => xrun s [(t, c), (t, c), (t, c)]
  | some d => if d ≥ candidate c then xrun s [(t, c), (t, c), (t, c), (t, c), (t, c)] else xrun s [(t, c), (t, c), (t, c), (t, c)]

def xcalls (s : XState) : List (Nat × Clock) → XState
  | [] => s
  | (t, c) :: cs => xcalls (xcall s t c) cs

theorem xcall_eq (s : XState) (t : Nat) (c : Clock) (hidle : ∀ u, s.pc u = .idle) :
    (xcall s t c).dedup = some (hmsXid s.dedup c) ∧ (xcall s t c).out = s.out ++ [(t, hmsXid s.dedup c)] ∧
    ∀ u, (xcall s t c).pc u = .idle := by
  obtain ⟨d, pc, out⟩ := s
  simp only at hidle
  cases d with
  | none => simp [xcall, xrun, xstep, hidle, setPc, hmsXid]; intro u hu; split <;> simp_all
  | some d =>
    by_cases h : d ≥ candidate c
    · simp [xcall, xrun, xstep, hidle, setPc, hmsXid, h]; intro u hu; split <;> simp_all
    · simp [xcall, xrun, xstep, hidle, setPc, hmsXid, h]; intro u hu; split <;> simp_all

/-- **C12, provable part.** If calls in different threads do not overlap, all returned ids are pairwise different
(strictly increasing). Missing: overlapping calls, where the claim is false (`C12_refuted`). -/
theorem C12_serialized_partial (s : XState) (calls : List (Nat × Clock)) (hidle : ∀ u, s.pc u = .idle) (hout : s.out = []) :
    (xcalls s calls).out.map (·.2) = hmsXids s.dedup (calls.map (·.2)) ∧
    ((xcalls s calls).out.map (·.2)).Pairwise (· < ·) ∧ (xcalls s calls).out.map (·.1) = calls.map (·.1) := by
  have key : ∀ (s : XState), (∀ u, s.pc u = .idle) →
      (xcalls s calls).out.map (·.2) = s.out.map (·.2) ++ hmsXids s.dedup (calls.map (·.2)) ∧
      (xcalls s calls).out.map (·.1) = s.out.map (·.1) ++ calls.map (·.1) := by
    induction calls with
    | nil => intro s _; simp [xcalls, hmsXids]
    | cons tc cs ih =>
      intro s hs
      obtain ⟨t, c⟩ := tc
      obtain ⟨h1, h2, h3⟩ := xcall_eq s t c hs
      obtain ⟨i1, i2⟩ := ih (xcall s t c) h3
      simp only [xcalls, i1, i2, h1, h2, hmsXids, List.map_cons, List.map_append, List.map_nil, List.append_assoc,
        List.cons_append, List.nil_append, and_self]
  obtain ⟨k1, k2⟩ := key s hidle
  simp only [hout, List.map_nil, List.nil_append] at k1 k2
  exact ⟨k1, k1 ▸ (C11_strictly_increasing _ _).1, k2⟩

example : (xcalls ⟨none, fun _ => .idle, []⟩ [(1, ⟨1, 2, 3, 400⟩), (2, ⟨1, 2, 3, 400⟩)]).out = [(1, 102030004), (2, 102030005)] := by
  decide

/-! ## Echo -/

namespace Spec
/-- ECHO_REQUEST messages. -/
def IsEchoRequest (m : Bytes) : Prop := u8 m 1 = 2
instance : DecidablePred IsEchoRequest := fun m => inferInstanceAs (Decidable (u8 m 1 = 2))

/-- `r` answers the echo request `m` in version `v`. -/
def IsEchoReply (v : Nat) (m r : Bytes) : Prop :=
  u8 r 0 = v ∧ u8 r 1 = 3 ∧ u16 r 2 = u16 m 2 ∧ u32 r 4 = u32 m 4 ∧ r.length = m.length ∧ r.drop 8 = m.drop 8

/-- Fold of the user's handler over messages. -/
def runHandler {σ : Type} (handle : σ → Bytes → σ × Py Unit) : σ → List Bytes → σ
  | s, [] => s
  | s, m :: ms => runHandler handle (handle s m).1 ms
end Spec

theorem u8_lt (m : Bytes) (i : Nat) : u8 m i < 256 := (m.getD i 0).toNat_lt
theorem u16_lt (m : Bytes) (i : Nat) : u16 m i < 65536 := by
  have := u8_lt m i; have := u8_lt m (i + 1); simp only [u16]; omega
theorem u32_lt (m : Bytes) (i : Nat) : u32 m i < 2 ^ 32 := by
  have := u16_lt m i; have := u16_lt m (i + 2); simp only [u32]; omega

theorem hdr_fields (v t l x : Nat) (rest : Bytes) (hv : v < 256) (ht : t < 256) (hl : l < 65536) (hx : x < 2 ^ 32) :
    let m := enc hdrFmt [.int v, .int t, .int l, .int x] ++ rest
    m.length = 8 + rest.length ∧ u8 m 0 = v ∧ u8 m 1 = t ∧ u16 m 2 = l ∧ u32 m 4 = x ∧ m.drop 8 = rest := by
  intro m
  have f1 : fits hdrFmt [.int v, .int t, .int l, .int x] = true := by simp [fits, hdrFmt]; omega
  have hlen : m.length = 8 + rest.length := by simp only [m, List.length_append, enc_hdr_length]
  have hp := parseHeader_pack _ _ _ _ rest f1
  rw [parseHeader_fields _ (by show 8 ≤ m.length; omega)] at hp
  simp only [Except.ok.injEq, Prod.mk.injEq] at hp
  refine ⟨hlen, hp.1, hp.2.1, hp.2.2.1, hp.2.2.2, ?_⟩
  simp only [m]
  rw [List.drop_append_of_le_length (by rw [enc_hdr_length]), ← enc_hdr_length v t l x, List.drop_length]; rfl

/-- **C13, one message.** A message of at least header size on a channel with negotiated version `v`: an echo request causes
exactly one write, a faithful reply, and the user's handler is not called; anything else writes nothing and is handed to
the handler unchanged. -/
theorem C13_echo_step {σ : Type} (handle : σ → Bytes → σ × Py Unit) (v : Nat) (hv : v < 256) (st : EchoState σ) (m : Bytes)
    (hm : 8 ≤ m.length) :
    (IsEchoRequest m → ∃ r, IsEchoReply v m r ∧ autoEcho handle (some v) st m = (⟨st.sent ++ [r], st.user⟩, .ok ())) ∧
    (¬ IsEchoRequest m → autoEcho handle (some v) st m = (⟨st.sent, (handle st.user m).1⟩, (handle st.user m).2)) := by
  have hne : m ≠ [] := by intro e; subst e; simp at hm
  have hu := u16_lt m 2
  have hx := u32_lt m 4
  constructor
  · intro he
    simp only [IsEchoRequest] at he
    have f1 : fits hdrFmt [.int v, .int 3, .int (u16 m 2), .int (u32 m 4)] = true := by simp [fits, hdrFmt]; omega
    refine ⟨_, ?_, by simp only [autoEcho, if_neg hne, parseHeader_fields m hm]; rw [if_pos he, pack, if_pos f1]⟩
    obtain ⟨a, b, c, d, e, f⟩ := hdr_fields v 3 (u16 m 2) (u32 m 4) (m.drop 8) hv (by decide) hu hx
    exact ⟨b, c, d, e, by rw [a, List.length_drop]; omega, f⟩
  · intro he
    simp only [IsEchoRequest] at he
    simp only [autoEcho, if_neg hne, parseHeader_fields m hm]
    rw [if_neg he]

/-- **C13.** Over any sequence of messages (each with the version negotiated at that time) and any handler that does not
raise: there is exactly one faithful reply per echo request, in order, nothing else is written, and the handler gets exactly
the other messages, once each, in order. -/
theorem C13_echo_sequence {σ : Type} (handle : σ → Bytes → σ × Py Unit) (st : EchoState σ) (ms : List (Nat × Bytes))
    (hms : ∀ p ∈ ms, p.1 < 256 ∧ 8 ≤ p.2.length) (hok : ∀ s m, (handle s m).2 = .ok ()) :
    ∃ replies, List.Forall₂ (fun p r => IsEchoReply p.1 p.2 r) (ms.filter (fun p => IsEchoRequest p.2)) replies ∧
      echoRun handle st ms =
        (⟨st.sent ++ replies, runHandler handle st.user ((ms.map (·.2)).filter (fun m => ¬ IsEchoRequest m))⟩, .ok ()) := by
  induction ms generalizing st with
  | nil => exact ⟨[], .nil, by simp [echoRun, runHandler]⟩
  | cons p ms ih =>
    obtain ⟨v, m⟩ := p
    obtain ⟨hv, hm⟩ := hms (v, m) (by simp)
    obtain ⟨e1, e2⟩ := C13_echo_step handle v hv st m hm
    by_cases he : IsEchoRequest m
    · obtain ⟨r, hr, hstep⟩ := e1 he
      obtain ⟨rs, hrs, hrun⟩ := ih ⟨st.sent ++ [r], st.user⟩ (fun p hp => hms p (by simp [hp]))
      refine ⟨r :: rs, ?_, ?_⟩
      · rw [List.filter_cons_of_pos (by simpa using he)]; exact .cons hr hrs
      · simp only [echoRun, hstep, hrun, List.map_cons]
        rw [List.filter_cons_of_neg (by simpa using he)]; simp
    · have hstep := e2 he
      rw [hok] at hstep
      obtain ⟨rs, hrs, hrun⟩ := ih ⟨st.sent, (handle st.user m).1⟩ (fun p hp => hms p (by simp [hp]))
      refine ⟨rs, ?_, ?_⟩
      · rw [List.filter_cons_of_neg (by simpa using he)]; exact hrs
      · simp only [echoRun, hstep, hrun, List.map_cons]
        rw [List.filter_cons_of_pos (by simpa using he)]; rfl

/-- Non-vacuity of C13. -/
example : (echoRun (fun (s : List Bytes) m => (s ++ [m], .ok ())) ⟨[], []⟩
    [(4, [4, 2, 0, 9, 0, 0, 0, 1, 77]), (4, [4, 10, 0, 8, 0, 0, 0, 2])]).1.sent = [[4, 3, 0, 9, 0, 0, 0, 1, 77]] := by decide

/-- Before the version has been negotiated an echo request raises instead (hence the hypothesis of C13). -/
theorem C13_note_before_hello {σ : Type} (handle : σ → Bytes → σ × Py Unit) (st : EchoState σ) (m : Bytes)
    (hm : 8 ≤ m.length) (he : IsEchoRequest m) : autoEcho handle none st m = (st, .error .structError) := by
  have hne : m ≠ [] := by intro e; subst e; simp at hm
  simp only [IsEchoRequest] at he
  simp only [autoEcho, if_neg hne, parseHeader_fields m hm]
  rw [if_pos he]

/-! ## Server loop -/

namespace Spec
/-- What the handler does on a sequence of messages, if it never raises on them: the final state. -/
inductive HandlesAll {σ : Type} (h : σ → Bytes → σ × Py Unit) : σ → List Bytes → σ → Prop
  | nil (s) : HandlesAll h s [] s
  | cons {s s' s'' m ms} : h s m = (s', .ok ()) → HandlesAll h s' ms s'' → HandlesAll h s (m :: ms) s''
end Spec

/-- **C14.** Every run of the server loop: a prefix `pre` of the received (non-empty) messages is handled in order, each once;
then one of: still waiting; end of stream; the channel-close signal from `recv` or from the handler of one further message
(then the channel is closed); another exception from `recv` or from the handler (not closed). In no case is anything after
that point handled. -/
theorem C14_loop {σ : Type} (h : σ → Bytes → σ × Py Unit) (s : σ) (rs : List (Py Bytes)) :
    ∃ (pre : List Bytes) (rest : List (Py Bytes)) (s' : σ), rs = pre.map .ok ++ rest ∧ (∀ m ∈ pre, m ≠ []) ∧ HandlesAll h s pre s' ∧
      ((rest = [] ∧ loop h s rs = (pre, s', .waiting)) ∨
       ((∃ later, rest = .ok [] :: later) ∧ loop h s rs = (pre, s', .finished)) ∨
       (∃ e later, rest = .error e :: later ∧ loop h s rs = (pre, s', if e = .channelClose then .closed else .raised e)) ∨
       (∃ m later s'' e, rest = .ok m :: later ∧ m ≠ [] ∧ h s' m = (s'', .error e) ∧
          loop h s rs = (pre ++ [m], s'', if e = .channelClose then .closed else .raised e))) := by
  induction rs generalizing s with
  | nil => exact ⟨[], [], s, rfl, by simp, .nil s, .inl ⟨rfl, rfl⟩⟩
  | cons r rs ih =>
    match r with
    | .error e =>
      refine ⟨[], .error e :: rs, s, rfl, by simp, .nil s, .inr (.inr (.inl ⟨e, rs, rfl, ?_⟩))⟩
      cases e <;> rfl
    | .ok [] => exact ⟨[], .ok [] :: rs, s, rfl, by simp, .nil s, .inr (.inl ⟨⟨rs, rfl⟩, rfl⟩)⟩
    | .ok (b :: m) =>
      match hh : h s (b :: m) with
      | (s1, .error e) =>
        refine ⟨[], .ok (b :: m) :: rs, s, rfl, by simp, .nil s, .inr (.inr (.inr ⟨b :: m, rs, s1, e, rfl, by simp, hh, ?_⟩))⟩
        cases e <;> simp [loop, hh]
      | (s1, .ok ()) =>
        obtain ⟨pre, rest, s', h1, h2, h3, h4⟩ := ih s1
        have hl : loop h s (.ok (b :: m) :: rs) = ((b :: m) :: (loop h s1 rs).1, (loop h s1 rs).2) := by
          simp only [loop, hh]
        refine ⟨(b :: m) :: pre, rest, s', by simp [h1], by simpa using h2, .cons hh h3, ?_⟩
        rw [hl]
        rcases h4 with ⟨a, b⟩ | ⟨a, b⟩ | ⟨e, l, a, b⟩ | ⟨m', l, s'', e, a, a', a'', b⟩
        · left; exact ⟨a, by rw [b]⟩
        · right; left; exact ⟨a, by rw [b]⟩
        · right; right; left; exact ⟨e, l, a, by rw [b]⟩
        · right; right; right; exact ⟨m', l, s'', e, a, a', a'', by rw [b]; rfl⟩

/-- Non-vacuity of C14: three messages, the handler raises the close signal on the second one. -/
example : loop (fun (n : Nat) m => (n + 1, if m = [2] then .error .channelClose else .ok ())) 0 [.ok [1], .ok [2], .ok [3]] =
    ([[1], [2]], 2, .closed) := by decide

end Twink
