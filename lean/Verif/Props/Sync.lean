import Verif.Proof.SyncMulti
import Mathlib.Data.List.Nodup

/-!
# Properties C22–C27: synchronous requests

All statements are about arbitrary runs `ops` of the machine of `Verif/Model/Sync.lean`: any number of threads calling `send_sync`
and `multi`, a receiving thread and closing threads, interleaved in any way at the granularity of accesses to shared state.
`st.rx` is the sequence of messages received so far. The call made by `.sendSync m` in state `st1` is thread
`st1.threads.length`.
-/

namespace Twink
open Spec Fmt

theorem runInv_sync {v : Option Nat} {ops1 ops2 : List SyncOp} {m0 : Bytes} {c : SCall} {st1 st2 : SyncSt}
    (h1 : st1 = syncRun (freshSync v) ops1) (h2 : st2 = syncRun st1 (.sendSync m0 :: ops2))
    (h : st2.threads[st1.threads.length]? = some (.sync c)) (hf : ∀ e, c.pc = .failed e → e = .keyError) :
    8 ≤ m0.length ∧ c.xid = u32 m0 4 ∧ c.tr = st1.heap.length ∧ c.msg = m0 ∧
      ∃ tr : Tracker, st2.heap[c.tr]? = some tr ∧ tr.xid = c.xid ∧ tr.since = st1.rx.length := by
  have hr1 : RunInv st1 := h1 ▸ runInv_fresh v ops1
  simp only [syncRun] at h2
  have hr' := runInv_step hr1 (.sendSync m0)
  by_cases h8 : 8 ≤ m0.length
  · have hth : (syncOp st1 (.sendSync m0)).threads[st1.threads.length]? =
        some (.sync ⟨u32 m0 4, st1.heap.length, .sending, false, m0⟩) := by
      simp [syncOp, parseHeader_fields m0 h8]
    have hheap : (syncOp st1 (.sendSync m0)).heap[st1.heap.length]? = some ⟨u32 m0 4, false, none, st1.rx.length, false⟩ := by
      simp [syncOp, parseHeader_fields m0 h8, register]
    obtain ⟨c', g1, g2, g3, g4⟩ := sync_run hth ops2
    rw [← h2, h] at g1
    injection g1 with g1; injection g1 with g1; subst g1
    obtain ⟨tr, e1, e2, e3, _⟩ := (runInv_run hr'.1 ops2).2.old _ _ hheap
    rw [← h2] at e1
    exact ⟨h8, g2, g3, g4, tr, by rw [g3]; exact e1, by rw [e2, g2], e3⟩
  · exfalso
    have hth : (syncOp st1 (.sendSync m0)).threads[st1.threads.length]? = some (.sync ⟨0, 0, .failed .structError, false, m0⟩) := by
      simp [syncOp, parseHeader_short m0 (by omega)]
    have := failed_run hth rfl ops2
    rw [← h2, h] at this
    injection this with g1; injection g1 with g1; subst g1
    have := hf _ rfl
    simp at this

theorem seg_prefix (rx : List Bytes) (s n : Nat) : seg rx s n <+: rx.drop s := by
  simp only [seg, List.drop_take]; exact List.take_prefix _ _

/-- **C22 (safety).** Whatever `send_sync` returns is made only of messages that carry the request's id and arrived after the call
began: it is the reply assembled from a prefix `got` of the messages received since. If the wait did not time out, `got` contains
the final message of the reply. -/
theorem C22_own_reply {v : Option Nat} {ops1 ops2 : List SyncOp} {m0 : Bytes} {c : SCall} {d : Option Bytes} {st1 st2 : SyncSt}
    (h1 : st1 = syncRun (freshSync v) ops1) (h2 : st2 = syncRun st1 (.sendSync m0 :: ops2))
    (hc : NoClose (ops1 ++ .sendSync m0 :: ops2))
    (h : st2.threads[st1.threads.length]? = some (.sync c)) (hd : c.pc = .done d) :
    ∃ got, got <+: st2.rx.drop st1.rx.length ∧ d = assembled (withId (u32 m0 4) got) ∧
      (c.byEvent = true → ∃ m ∈ withId (u32 m0 4) got, IsFinal m) := by
  obtain ⟨_, e1, e2, _, tr, e3, e4, e5⟩ := runInv_sync h1 h2 h (by simp [hd])
  have hst2 : st2 = syncRun (freshSync v) (ops1 ++ .sendSync m0 :: ops2) := by rw [syncRun_append, ← h1, h2]
  have hr : RunInv st2 := hst2 ▸ runInv_fresh v _
  have ha : Alive st2 := hst2 ▸ alive_run (alive_fresh v) _ hc
  have hci : CallInv st2 c := hr.threads _ _ h
  obtain ⟨_, g2, _⟩ := hci (.inl (by simp [hd]))
  obtain ⟨tr', f1, f2, f3⟩ := g2 d hd
  rw [e3] at f1; injection f1 with f1; subst f1
  obtain ⟨n, k1, k2, k3, k4⟩ := f3 (ha.2 _ _ e3)
  rw [e5, e1] at k3 k4
  exact ⟨_, seg_prefix _ _ _, k3, k4⟩

/-- An outstanding call, the receiving thread between two messages: what its tracker holds. -/
theorem tracker_exact {v : Option Nat} {ops1 ops2 : List SyncOp} {m0 : Bytes} {c : SCall} {st1 st2 : SyncSt}
    (h1 : st1 = syncRun (freshSync v) ops1) (h2 : st2 = syncRun st1 (.sendSync m0 :: ops2))
    (hc : NoClose (ops1 ++ .sendSync m0 :: ops2)) (hdr : DistinctRun (freshSync v) (ops1 ++ .sendSync m0 :: ops2))
    (h : st2.threads[st1.threads.length]? = some (.sync c)) (hw : c.pc = .waiting) (hidle : st2.rpc = .idle) :
    ∃ tr : Tracker, st2.heap[c.tr]? = some tr ∧ st2.syncs c.xid = some c.tr ∧
      tr.data = assembled (withId (u32 m0 4) (st2.rx.drop st1.rx.length)) ∧
      (tr.ev = true ↔ ∃ m ∈ withId (u32 m0 4) (st2.rx.drop st1.rx.length), IsFinal m) := by
  obtain ⟨_, e1, e2, _, tr, e3, e4, e5⟩ := runInv_sync h1 h2 h (by simp [hw])
  have hst2 : st2 = syncRun (freshSync v) (ops1 ++ .sendSync m0 :: ops2) := by rw [syncRun_append, ← h1, h2]
  have hr : RunInv st2 := hst2 ▸ runInv_fresh v _
  have ha : Alive st2 := hst2 ▸ alive_run (alive_fresh v) _ hc
  have hb : BoundInv st2 := hst2 ▸ bound_run (bound_fresh v) _ hdr
  have hbound := hb _ _ h (c.xid, c.tr) (by simp [outstanding, outCall, hw])
  obtain ⟨n, a1, a2, a3, a4, a5, a6, a7, a8⟩ := hr.inv.tracker _ tr e3 (ha.2 _ _ e3)
  have hn : n = st2.rx.length := a8 (by rw [e4]; exact hbound) (by simp [hidle])
  subst hn
  rw [e5, e4, e1] at a3 a4 a5
  simp only [seg, List.take_length] at a3 a4 a5
  refine ⟨tr, e3, hbound, a3, a4, fun hm => ?_⟩
  rcases a5 hm with h | ⟨m, h, _⟩
  · exact h
  · rw [hidle] at h; simp at h

/-- Three more steps of a waiting call whose event is set. -/
theorem finish3 {st : SyncSt} {i : Nat} {c : SCall} {tr : Tracker} {t : Nat} (h : st.threads[i]? = some (.sync c)) (hw : c.pc = .waiting)
    (ht : st.heap[c.tr]? = some tr) (hev : tr.ev = true) (hs : st.syncs c.xid = some t) (ch1 ch2 ch3 : Choice) :
    (syncRun st [.thread i ch1, .thread i ch2, .thread i ch3]).threads[i]? =
      some (.sync { c with pc := .done tr.data, byEvent := true }) := by
  have hlt := lt_of_getElem? h
  have e1 : syncOp st (.thread i ch1) =
      { st with threads := st.threads.set i (.sync { c with pc := .popping, byEvent := true }) } := by
    simp only [syncOp, h, syncStep, hw, ht, hev, if_true]
  have e2 : ∀ s : SyncSt, s = syncOp st (.thread i ch1) → syncOp s (.thread i ch2) =
      { unregister st c.xid with threads := st.threads.set i (.sync { c with pc := .reading, byEvent := true }) } := by
    rintro s rfl
    rw [e1]
    simp [syncOp, hlt, syncStep, hs, unregister]
  simp only [syncRun]
  rw [e2 _ rfl]
  simp [syncOp, hlt, syncStep, unregister, trackerData, ht]

/-- **C22 (the reply is returned).** Outstanding ids are different, nobody closes. If a final message with the request's id has been
received while the call waits, its next three steps return everything received for it. -/
theorem C22_reply_returned {v : Option Nat} {ops1 ops2 : List SyncOp} {m0 : Bytes} {c : SCall} {st1 st2 : SyncSt}
    (h1 : st1 = syncRun (freshSync v) ops1) (h2 : st2 = syncRun st1 (.sendSync m0 :: ops2))
    (hc : NoClose (ops1 ++ .sendSync m0 :: ops2)) (hdr : DistinctRun (freshSync v) (ops1 ++ .sendSync m0 :: ops2))
    (h : st2.threads[st1.threads.length]? = some (.sync c)) (hw : c.pc = .waiting) (hidle : st2.rpc = .idle)
    (hm : ∃ m ∈ withId (u32 m0 4) (st2.rx.drop st1.rx.length), IsFinal m) (ch1 ch2 ch3 : Choice) :
    ∃ c', (syncRun st2 [.thread st1.threads.length ch1, .thread st1.threads.length ch2, .thread st1.threads.length ch3]).threads[st1.threads.length]?
        = some (.sync c') ∧ c'.pc = .done (assembled (withId (u32 m0 4) (st2.rx.drop st1.rx.length))) := by
  obtain ⟨tr, e1, e2, e3, e4⟩ := tracker_exact h1 h2 hc hdr h hw hidle
  exact ⟨_, finish3 h hw e1 (e4.2 hm) e2 ch1 ch2 ch3, by simp [e3]⟩

/-! ### C23 -/

theorem assembled_multipart {l : List Bytes} (hne : l ≠ []) (h : ∀ m ∈ l, IsMultipartRep m) : assembled l = some l.flatten := by
  induction l using List.reverseRecOn with
  | nil => exact absurd rfl hne
  | append_singleton l m ih =>
    rw [assembled_snoc, if_pos (h m (by simp))]
    cases l with
    | nil => simp [assembled]
    | cons a l => rw [ih (by simp) (fun x hx => h x (by simp at hx ⊢; tauto))]; simp

/-- **C23 (release).** The messages with the request's id received since the call are the multipart fragments `frags`, none of them
final, however many other messages are interleaved: the waiting call does not move unless it times out. When the last fragment has
been received as well, the call returns the concatenation of all fragments in order of arrival. -/
theorem C23_not_released_early {v : Option Nat} {ops1 ops2 : List SyncOp} {m0 : Bytes} {c : SCall} {st1 st2 : SyncSt}
    (h1 : st1 = syncRun (freshSync v) ops1) (h2 : st2 = syncRun st1 (.sendSync m0 :: ops2))
    (hc : NoClose (ops1 ++ .sendSync m0 :: ops2)) (hdr : DistinctRun (freshSync v) (ops1 ++ .sendSync m0 :: ops2))
    (h : st2.threads[st1.threads.length]? = some (.sync c)) (hw : c.pc = .waiting) (hidle : st2.rpc = .idle)
    (frags : List Bytes) (hfr : withId (u32 m0 4) (st2.rx.drop st1.rx.length) = frags) (hnf : ∀ m ∈ frags, ¬ IsFinal m)
    (ch : Choice) (hto : ch.timeout = false) :
    (syncOp st2 (.thread st1.threads.length ch)).threads[st1.threads.length]? = some (.sync c) := by
  obtain ⟨tr, e1, e2, e3, e4⟩ := tracker_exact h1 h2 hc hdr h hw hidle
  have hev : tr.ev = false := by
    cases hh : tr.ev with
    | false => rfl
    | true => obtain ⟨m, g1, g2⟩ := e4.1 hh; rw [hfr] at g1; exact absurd g2 (hnf m g1)
  rw [thread_own_sync ch h]
  simp [syncStep, hw, e1, hev, hto]

theorem C23_concatenation {v : Option Nat} {ops1 ops2 : List SyncOp} {m0 : Bytes} {c : SCall} {st1 st2 : SyncSt}
    (h1 : st1 = syncRun (freshSync v) ops1) (h2 : st2 = syncRun st1 (.sendSync m0 :: ops2))
    (hc : NoClose (ops1 ++ .sendSync m0 :: ops2)) (hdr : DistinctRun (freshSync v) (ops1 ++ .sendSync m0 :: ops2))
    (h : st2.threads[st1.threads.length]? = some (.sync c)) (hw : c.pc = .waiting) (hidle : st2.rpc = .idle)
    (frags : List Bytes) (last : Bytes) (hfr : withId (u32 m0 4) (st2.rx.drop st1.rx.length) = frags ++ [last])
    (hmp : ∀ m ∈ frags ++ [last], IsMultipartRep m) (hl : IsFinal last) (ch1 ch2 ch3 : Choice) :
    ∃ c', (syncRun st2 [.thread st1.threads.length ch1, .thread st1.threads.length ch2, .thread st1.threads.length ch3]).threads[st1.threads.length]?
        = some (.sync c') ∧ c'.pc = .done (some (frags.flatten ++ last)) := by
  obtain ⟨c', e1, e2⟩ := C22_reply_returned h1 h2 hc hdr h hw hidle ⟨last, by rw [hfr]; simp, hl⟩ ch1 ch2 ch3
  refine ⟨c', e1, ?_⟩
  rw [e2, hfr, assembled_multipart (by simp) hmp]
  simp

/-! ### A concrete run, used below -/

/-- A decidable way to check `DistinctRun` in examples. -/
def distinctRunB (st : SyncSt) : List SyncOp → Bool
  | [] => ((st.threads.map fun th => (outstanding th).map (·.1)).flatten).Nodup
  | op :: ops => decide ((st.threads.map fun th => (outstanding th).map (·.1)).flatten).Nodup && distinctRunB (syncOp st op) ops

theorem distinctIds_of_nodup {st : SyncSt} (h : ((st.threads.map fun th => (outstanding th).map (·.1)).flatten).Nodup) : DistinctIds st := by
  rw [List.nodup_flatten] at h
  obtain ⟨h1, h2⟩ := h
  refine ⟨fun i th hi => h1 _ (List.mem_map_of_mem (List.mem_of_getElem? hi)), ?_⟩
  have key : ∀ (i j : Nat) (th th' : SThread), st.threads[i]? = some th → st.threads[j]? = some th' → i < j →
      ∀ p ∈ outstanding th, ∀ q ∈ outstanding th', p.1 ≠ q.1 := by
    intro i j th th' hi hj hlt p hp q hq e
    have hi' := lt_of_getElem? hi
    have hj' := lt_of_getElem? hj
    have := List.pairwise_iff_getElem.1 h2 i j (by simpa using hi') (by simpa using hj') hlt
    simp only [List.getElem_map] at this
    rw [List.getElem?_eq_getElem hi'] at hi; injection hi with hi
    rw [List.getElem?_eq_getElem hj'] at hj; injection hj with hj
    rw [hi, hj] at this
    exact this (List.mem_map_of_mem hp) (e ▸ List.mem_map_of_mem (f := (·.1)) hq)
  intro i j th th' hi hj hne p hp q hq
  rcases Nat.lt_or_gt_of_ne hne with hl | hl
  · exact key i j th th' hi hj hl p hp q hq
  · exact (key j i th' th hj hi hl q hq p hp).symm

theorem distinctRun_of_check {st : SyncSt} {ops : List SyncOp} (h : distinctRunB st ops = true) : DistinctRun st ops := by
  induction ops generalizing st with
  | nil => exact distinctIds_of_nodup (by simpa [distinctRunB] using h)
  | cons op ops ih =>
    simp only [distinctRunB, Bool.and_eq_true, decide_eq_true_eq] at h
    exact ⟨distinctIds_of_nodup h.1, ih h.2⟩

/-- Environment choices: the write succeeds; with or without timeout. -/
def go : Choice := ⟨true, false, 0⟩
def timedOut : Choice := ⟨true, true, 0⟩

/-- A flow statistics request (OpenFlow 1.3, id 7), two fragments of its reply, an unrelated message. -/
def exReq : Bytes := [4, 18, 0, 8, 0, 0, 0, 7]
def exFrag1 : Bytes := [4, 19, 0, 13, 0, 0, 0, 7, 0, 1, 0, 1, 65]
def exFrag2 : Bytes := [4, 19, 0, 13, 0, 0, 0, 7, 0, 1, 0, 0, 66]
def exOther : Bytes := [4, 10, 0, 8, 0, 0, 0, 9]
def recvAll (m : Bytes) : List SyncOp := [.recv m, .recvStep, .recvStep, .recvStep]

/-- Non-vacuity of C22, C23: the call returns the two fragments, the message in between is left out. -/
example : ((syncRun (freshSync (some 4)) ([.sendSync exReq, .thread 0 go] ++ recvAll exFrag1 ++ recvAll exOther ++ recvAll exFrag2 ++
    [.thread 0 go, .thread 0 go, .thread 0 go])).threads[0]?) =
    some (.sync ⟨7, 0, .done (some (exFrag1 ++ exFrag2)), true, exReq⟩) := by decide +kernel

/-- The hypotheses of `C23_concatenation` are met by such a run. -/
example : ∃ c, (syncRun (freshSync (some 4)) (.sendSync exReq :: ([.thread 0 go] ++ recvAll exFrag1 ++ recvAll exOther ++ recvAll exFrag2))).threads[0]?
      = some (.sync c) ∧ c.pc = .waiting ∧
    (syncRun (freshSync (some 4)) (.sendSync exReq :: ([.thread 0 go] ++ recvAll exFrag1 ++ recvAll exOther ++ recvAll exFrag2))).rpc = .idle ∧
    withId (u32 exReq 4) (syncRun (freshSync (some 4)) (.sendSync exReq :: ([.thread 0 go] ++ recvAll exFrag1 ++ recvAll exOther ++ recvAll exFrag2))).rx
      = [exFrag1] ++ [exFrag2] ∧
    (∀ m ∈ [exFrag1] ++ [exFrag2], IsMultipartRep m) ∧ IsFinal exFrag2 ∧
    DistinctRun (freshSync (some 4)) (.sendSync exReq :: ([.thread 0 go] ++ recvAll exFrag1 ++ recvAll exOther ++ recvAll exFrag2)) ∧
    NoClose (.sendSync exReq :: ([.thread 0 go] ++ recvAll exFrag1 ++ recvAll exOther ++ recvAll exFrag2)) :=
  ⟨⟨7, 0, .waiting, false, exReq⟩, by decide +kernel, rfl, by decide +kernel, by decide +kernel, by decide +kernel, by decide +kernel,
    distinctRun_of_check (by decide +kernel), by unfold NoClose recvAll; simp⟩

/-! ### C24 -/

/-- **C24 is false.** A timeout between two fragments: `send_sync` returns the first fragment as if it were the reply. -/
theorem C24_refuted : ∃ (ops : List SyncOp) (c : SCall) (d : Bytes), NoClose ops ∧
    (syncRun (freshSync (some 4)) ops).threads[0]? = some (.sync c) ∧ c.pc = .done (some d) ∧ d ≠ [] ∧
    ∀ m ∈ (syncRun (freshSync (some 4)) ops).rx, ¬ IsFinal m :=
  ⟨[.sendSync exReq, .thread 0 go] ++ recvAll exFrag1 ++ [.thread 0 timedOut, .thread 0 go, .thread 0 go],
    ⟨7, 0, .done (some exFrag1), false, exReq⟩, exFrag1, by unfold NoClose recvAll; simp, by decide +kernel, rfl, by decide +kernel, by decide +kernel⟩

/-- **C24, partial.** Full statement: every non-empty result is complete. Proved: the result is complete if the wait did not time out.
Missing: the timeout in the middle of a multipart reply (`C24_refuted`). -/
theorem C24_partial {v : Option Nat} {ops1 ops2 : List SyncOp} {m0 : Bytes} {c : SCall} {d : Option Bytes} {st1 st2 : SyncSt}
    (h1 : st1 = syncRun (freshSync v) ops1) (h2 : st2 = syncRun st1 (.sendSync m0 :: ops2))
    (hc : NoClose (ops1 ++ .sendSync m0 :: ops2))
    (h : st2.threads[st1.threads.length]? = some (.sync c)) (hd : c.pc = .done d) (hb : c.byEvent = true) :
    ∃ got, got <+: st2.rx.drop st1.rx.length ∧ d = assembled (withId (u32 m0 4) got) ∧ ∃ m ∈ withId (u32 m0 4) got, IsFinal m := by
  obtain ⟨got, e1, e2, e3⟩ := C22_own_reply h1 h2 hc h hd
  exact ⟨got, e1, e2, e3 hb⟩

theorem assembled_single {l : List Bytes} (h : ∀ m ∈ l, ¬ IsMultipartRep m) : ∀ d, assembled l = some d → d ∈ l := by
  induction l using List.reverseRecOn with
  | nil => intro d h; simp [assembled] at h
  | append_singleton l m ih =>
    intro d hd
    rw [assembled_snoc, if_neg (h m (by simp))] at hd
    injection hd with hd; subst hd; simp

/-- **C24, partial (b).** Also after a timeout: a request that is answered with ordinary (not multipart) messages gets None or one
whole message. -/
theorem C24_single_partial {v : Option Nat} {ops1 ops2 : List SyncOp} {m0 : Bytes} {c : SCall} {d : Bytes} {st1 st2 : SyncSt}
    (h1 : st1 = syncRun (freshSync v) ops1) (h2 : st2 = syncRun st1 (.sendSync m0 :: ops2))
    (hc : NoClose (ops1 ++ .sendSync m0 :: ops2))
    (h : st2.threads[st1.threads.length]? = some (.sync c)) (hd : c.pc = .done (some d))
    (hs : ∀ m ∈ st2.rx.drop st1.rx.length, u32 m 4 = u32 m0 4 → ¬ IsMultipartRep m) :
    d ∈ st2.rx.drop st1.rx.length ∧ u32 d 4 = u32 m0 4 := by
  obtain ⟨got, e1, e2, _⟩ := C22_own_reply h1 h2 hc h hd
  have := assembled_single (l := withId (u32 m0 4) got) (by
    intro m hm
    simp only [withId, List.mem_filter, decide_eq_true_eq] at hm
    exact hs m (e1.subset hm.1) hm.2) d e2.symm
  simp only [withId, List.mem_filter, decide_eq_true_eq] at this
  exact ⟨e1.subset this.1, this.2⟩

/-- Non-vacuity of C24: an echo request answered after other traffic. -/
example : (syncRun (freshSync (some 4)) ([.sendSync [4, 2, 0, 8, 0, 0, 0, 7], .thread 0 go] ++ recvAll exOther ++ recvAll [4, 3, 0, 8, 0, 0, 0, 7] ++
    [.thread 0 go, .thread 0 go, .thread 0 go])).threads[0]? =
    some (.sync ⟨7, 0, .done (some [4, 3, 0, 8, 0, 0, 0, 7]), true, [4, 2, 0, 8, 0, 0, 0, 7]⟩) := by decide +kernel


/-! ### C25 -/

theorem closers_step {st : SyncSt} (op : SyncOp) {i : Nat} (hi : i < st.closers.length) :
    (syncOp st op).closers[i]? = st.closers[i]? ∨ op = .closeStep i := by
  have mv : ∀ {st1 : SyncSt} {o o'}, Move st st1 o o' → st1.closers = st.closers := by
    intro st1 o o' h; cases h <;> rfl
  cases op with
  | sendSync m => left; simp only [syncOp]; cases parseHeader m <;> rfl
  | multi ms => exact .inl rfl
  | thread j ch =>
    left
    simp only [syncOp]
    cases hth : st.threads[j]? with
    | none => rfl
    | some th =>
      cases th with
      | sync c => have := mv (syncStep_move ch st c); simp only [this]
      | multi c => have := mv (multiStep_move ch st c); simp only [this]
  | recv m =>
    left; simp only [syncOp, recvBegin]
    cases st.rpc with
    | idle =>
      simp only
      split
      · rfl
      · cases parseHeader m with
        | error e => rfl
        | ok r => simp only; split <;> rfl
    | _ => rfl
  | recvStep =>
    left; simp only [syncOp, recvStep]
    cases st.rpc with
    | idle => rfl
    | checked m =>
      simp only
      cases parseHeader m with
      | error e => rfl
      | ok r => simp only; split <;> rfl
    | found m t => simp only; cases parseHeader m <;> rfl
    | stored m t =>
      simp only
      cases parseHeader m with
      | error e => rfl
      | ok r =>
        simp only
        split
        · split
          · split <;> rfl
          · rfl
          · rfl
        · rfl
  | close => left; simp only [syncOp]; exact List.getElem?_append_left hi
  | closeStep j =>
    by_cases hj : j = i
    · exact .inr (by rw [hj])
    · left
      simp only [syncOp, closeStep]
      split <;> simp [hj]

/-- Trackers already treated by closing thread `i`. -/
def CloserInv (st : SyncSt) (i : Nat) (L : List Nat) : Prop :=
  ∃ rest b, st.closers[i]? = some (rest, b) ∧ ∀ t : Nat, t ∈ L → t ∈ rest ∨ ∃ tr : Tracker, st.heap[t]? = some tr ∧ tr.ev = true

theorem closerInv_step {st : SyncSt} (hr : RunInv st) (op : SyncOp) {i : Nat} {L : List Nat} (h : CloserInv st i L) :
    CloserInv (syncOp st op) i L := by
  obtain ⟨rest, b, h1, h2⟩ := h
  have hext := (runInv_step hr op).2
  have keep : ∀ t : Nat, (∃ tr : Tracker, st.heap[t]? = some tr ∧ tr.ev = true) →
      ∃ tr : Tracker, (syncOp st op).heap[t]? = some tr ∧ tr.ev = true := by
    rintro t ⟨tr, g1, g2⟩
    obtain ⟨tr', e1, _, _, e4, _⟩ := hext.old t tr g1
    exact ⟨tr', e1, e4 g2⟩
  rcases closers_step op (lt_of_getElem? h1) with hc | rfl
  · exact ⟨rest, b, by rw [hc]; exact h1, fun t ht => (h2 t ht).imp id (keep t)⟩
  · have hlt := lt_of_getElem? h1
    match hrest : rest, b with
    | [], b =>
      refine ⟨[], b, ?_, fun t ht => (h2 t ht).imp id (keep t)⟩
      simp only [syncOp, closeStep, h1]
    | t0 :: ts, false =>
      refine ⟨t0 :: ts, true, ?_, fun t ht => (h2 t ht).imp id (keep t)⟩
      simp only [syncOp, closeStep, h1]; simp [hlt]
    | t0 :: ts, true =>
      refine ⟨ts, false, ?_, fun t ht => ?_⟩
      · simp only [syncOp, closeStep, h1]; simp [hlt]
      · rcases h2 t ht with g | g
        · rcases List.mem_cons.1 g with rfl | g
          · right
            obtain ⟨tr, g1, _⟩ := hr.inv.closer i t ts h1
            refine ⟨{ tr with ev := true }, ?_, rfl⟩
            simp only [syncOp, closeStep, h1]; simp [updTracker, g1]
          · exact .inl g
        · exact .inr (keep t g)

theorem closerInv_run {st : SyncSt} (hr : RunInv st) (ops : List SyncOp) {i : Nat} {L : List Nat} (h : CloserInv st i L) :
    CloserInv (syncRun st ops) i L := by
  induction ops generalizing st with
  | nil => exact h
  | cons op ops ih => exact ih (runInv_step hr op).1 (closerInv_step hr op h)

theorem mem_registered {st : SyncSt} (h : SyncInv st) {x t : Nat} (hx : st.syncs x = some t) : t ∈ registered st := by
  obtain ⟨tr, h1, h2⟩ := h.bound x t hx
  simp only [registered, List.mem_filter, List.mem_range]
  refine ⟨lt_of_getElem? h1, ?_⟩
  simp [h1, h2, hx]

/-- **C25 (release), proved in full.** A closing thread that has finished its loop has released every request that was registered when
`close` was called: its event is set, so a call waiting for it leaves the wait with its next step, whatever the clock says. -/
theorem C25_released {v : Option Nat} {ops1 ops2 : List SyncOp} {st1 st2 : SyncSt}
    (h1 : st1 = syncRun (freshSync v) ops1) (h2 : st2 = syncRun st1 (.close :: ops2))
    (hdone : st2.closers[st1.closers.length]? = some ([], false))
    {i : Nat} {c : SCall} (h : st2.threads[i]? = some (.sync c)) (hw : c.pc = .waiting)
    {x : Nat} (hreg : st1.syncs x = some c.tr) (ch : Choice) :
    (syncOp st2 (.thread i ch)).threads[i]? = some (.sync { c with pc := .popping, byEvent := true }) := by
  have hr1 : RunInv st1 := h1 ▸ runInv_fresh v ops1
  have hinit : CloserInv (syncOp st1 .close) st1.closers.length (registered st1) :=
    ⟨registered st1, false, by simp [syncOp], fun t ht => .inl ht⟩
  have hfin := closerInv_run (runInv_step hr1 .close).1 ops2 hinit
  obtain ⟨rest, b, g1, g2⟩ := hfin
  simp only [syncRun] at h2
  rw [← h2, hdone] at g1
  injection g1 with g1; injection g1 with g1 _; subst g1
  rcases g2 _ (mem_registered hr1.inv hreg) with g | ⟨tr, e1, e2⟩
  · simp at g
  · rw [← h2] at e1
    rw [thread_own_sync ch h]
    simp [syncStep, hw, e1, e2]

/-- Not a step of the receiving thread. -/
def Quiet (ops : List SyncOp) : Prop := ∀ op ∈ ops, (∀ m, op ≠ .recv m) ∧ op ≠ .recvStep

def CloserData (st : SyncSt) (i : Nat) (L : List Nat) : Prop :=
  ∃ rest b, st.closers[i]? = some (rest, b) ∧
    ∀ t : Nat, t ∈ L → (t ∈ rest ∧ (b = true → rest.head? ≠ some t)) ∨ ∃ tr : Tracker, st.heap[t]? = some tr ∧ tr.data = some []

theorem data_keep {st : SyncSt} (op : SyncOp) (hq : (∀ m, op ≠ .recv m) ∧ op ≠ .recvStep) {t : Nat}
    (h : ∃ tr : Tracker, st.heap[t]? = some tr ∧ tr.data = some []) :
    ∃ tr : Tracker, (syncOp st op).heap[t]? = some tr ∧ tr.data = some [] := by
  obtain ⟨tr, h1, h2⟩ := h
  have mv : ∀ {st1 : SyncSt} {o o'}, Move st st1 o o' → ∃ tr : Tracker, st1.heap[t]? = some tr ∧ tr.data = some [] := by
    intro st1 o o' hm
    cases hm with
    | same _ => exact ⟨tr, h1, h2⟩
    | sent _ _ => exact ⟨tr, h1, h2⟩
    | reg x => exact ⟨tr, by simp only [register]; rw [List.getElem?_append_left (lt_of_getElem? h1)]; exact h1, h2⟩
    | unreg x t a b => exact ⟨tr, h1, h2⟩
  cases op with
  | sendSync m =>
    simp only [syncOp]
    cases parseHeader m with
    | error e => exact ⟨tr, h1, h2⟩
    | ok r => have := mv (.reg (o := []) r.2.2.2); exact this
  | multi ms => exact ⟨tr, h1, h2⟩
  | thread j ch =>
    simp only [syncOp]
    cases hth : st.threads[j]? with
    | none => exact ⟨tr, h1, h2⟩
    | some th =>
      cases th with
      | sync c => have := mv (syncStep_move ch st c); exact this
      | multi c => have := mv (multiStep_move ch st c); exact this
  | recv m => exact absurd rfl (hq.1 m)
  | recvStep => exact absurd rfl hq.2
  | close => exact ⟨tr, h1, h2⟩
  | closeStep j =>
    simp only [syncOp, closeStep]
    split
    · simp only [updTracker, List.getElem?_modify, h1]
      split <;> simp [h2]
    · simp only [updTracker, List.getElem?_modify, h1]
      split <;> simp [h2]
    · exact ⟨tr, h1, h2⟩

theorem registered_nodup (st : SyncSt) : (registered st).Nodup := List.Nodup.filter _ List.nodup_range

theorem closerData_step {st : SyncSt} (op : SyncOp) (hq : (∀ m, op ≠ .recv m) ∧ op ≠ .recvStep) {i : Nat} {L : List Nat}
    (h : CloserData st i L) (hrange : ∀ t ∈ L, t < st.heap.length) : CloserData (syncOp st op) i L := by
  obtain ⟨rest, b, h1, h2⟩ := h
  rcases closers_step op (lt_of_getElem? h1) with hc | rfl
  · exact ⟨rest, b, by rw [hc]; exact h1, fun t ht => (h2 t ht).imp id (data_keep op hq)⟩
  · have hlt := lt_of_getElem? h1
    match hrest : rest, b with
    | [], b =>
      refine ⟨[], b, ?_, fun t ht => (h2 t ht).imp id (data_keep _ hq)⟩
      simp only [syncOp, closeStep, h1]
    | t0 :: ts, false =>
      refine ⟨t0 :: ts, true, ?_, fun t ht => ?_⟩
      · simp only [syncOp, closeStep, h1]; simp [hlt]
      · rcases h2 t ht with g | g
        · by_cases e : t0 = t
          · right
            subst e
            obtain ⟨tr, htr⟩ : ∃ tr, st.heap[t0]? = some tr := ⟨_, List.getElem?_eq_getElem (hrange t0 ht)⟩
            exact ⟨{ tr with data := some [], killed := true }, by simp only [syncOp, closeStep, h1]; simp [updTracker, htr], rfl⟩
          · exact .inl ⟨g.1, fun _ => by simpa using e⟩
        · exact .inr (data_keep _ hq g)
    | t0 :: ts, true =>
      refine ⟨ts, false, ?_, fun t ht => ?_⟩
      · simp only [syncOp, closeStep, h1]; simp [hlt]
      · rcases h2 t ht with g | g
        · have : t ≠ t0 := fun e => g.2 rfl (by simp [e])
          exact .inl ⟨(List.mem_cons.1 g.1).resolve_left this, by simp⟩
        · exact .inr (data_keep _ hq g)

theorem closerData_run {st : SyncSt} (hr : RunInv st) (ops : List SyncOp) (hq : Quiet ops) {i : Nat} {L : List Nat}
    (h : CloserData st i L) (hrange : ∀ t ∈ L, t < st.heap.length) : CloserData (syncRun st ops) i L := by
  induction ops generalizing st with
  | nil => exact h
  | cons op ops ih =>
    have hs := runInv_step hr op
    exact ih hs.1 (fun o ho => hq o (by simp [ho])) (closerData_step op (hq op (by simp)) h hrange)
      (fun t ht => Nat.lt_of_lt_of_le (hrange t ht) hs.2.length)

/-- **C25, partial (the returned value).** Full statement: every request outstanding at `close` returns the empty value, and no later
message changes that. Proved: if the receiving thread does not move after `close` was called, a call that is still waiting when the
closing thread has finished returns the empty value. Missing: a message processed after `close` (`C25_refuted`). -/
theorem C25_empty_value_partial {v : Option Nat} {ops1 ops2 : List SyncOp} {st1 st2 : SyncSt}
    (h1 : st1 = syncRun (freshSync v) ops1) (h2 : st2 = syncRun st1 (.close :: ops2)) (hq : Quiet ops2)
    (hdr : DistinctRun (freshSync v) (ops1 ++ .close :: ops2))
    (hdone : st2.closers[st1.closers.length]? = some ([], false))
    {i : Nat} {c : SCall} (h : st2.threads[i]? = some (.sync c)) (hw : c.pc = .waiting)
    {x : Nat} (hreg : st1.syncs x = some c.tr) (ch1 ch2 ch3 : Choice) :
    ∃ c', (syncRun st2 [.thread i ch1, .thread i ch2, .thread i ch3]).threads[i]? = some (.sync c') ∧ c'.pc = .done (some []) := by
  have hr1 : RunInv st1 := h1 ▸ runInv_fresh v ops1
  have hst2 : st2 = syncRun (freshSync v) (ops1 ++ .close :: ops2) := by rw [syncRun_append, ← h1, h2]
  have hb : BoundInv st2 := hst2 ▸ bound_run (bound_fresh v) _ hdr
  have hbound := hb _ _ h (c.xid, c.tr) (by simp [outstanding, outCall, hw])
  have hmem := mem_registered hr1.inv hreg
  simp only [syncRun] at h2
  have hfin := closerInv_run (runInv_step hr1 .close).1 ops2
    (⟨registered st1, false, by simp [syncOp], fun t ht => .inl ht⟩ : CloserInv (syncOp st1 .close) st1.closers.length (registered st1))
  have hdat := closerData_run (runInv_step hr1 .close).1 ops2 hq
    (⟨registered st1, false, by simp [syncOp], fun t ht => .inl ⟨ht, by simp⟩⟩ : CloserData (syncOp st1 .close) st1.closers.length (registered st1))
    (fun t ht => by simp only [registered, List.mem_filter, List.mem_range] at ht; exact ht.1)
  obtain ⟨rest, b, g1, g2⟩ := hfin
  obtain ⟨rest', b', f1, f2⟩ := hdat
  rw [← h2, hdone] at g1 f1
  injection g1 with g1; injection g1 with g1 _; subst g1
  injection f1 with f1; injection f1 with f1 _; subst f1
  rcases g2 _ hmem with g | ⟨tr, e1, e2⟩
  · simp at g
  rcases f2 _ hmem with g | ⟨tr', k1, k2⟩
  · simp at g
  rw [← h2] at e1 k1
  rw [e1] at k1; injection k1 with k1; subst k1
  exact ⟨_, finish3 h hw e1 e2 hbound ch1 ch2 ch3, by simp [k2]⟩

/-- **C25 is false** for messages still being processed when the channel is closed: `close` has finished, then a message that was
already buffered is received, and the call returns it. -/
theorem C25_refuted : ∃ (ops1 ops2 : List SyncOp) (c : SCall) (d : Bytes),
    (syncRun (freshSync (some 4)) ops1).closers = [([], false)] ∧
    (∃ c', (syncRun (freshSync (some 4)) ops1).threads[0]? = some (.sync c') ∧ c'.pc = .waiting) ∧
    (syncRun (freshSync (some 4)) (ops1 ++ ops2)).threads[0]? = some (.sync c) ∧ c.pc = .done (some d) ∧ d ≠ [] :=
  ⟨[.sendSync exReq, .thread 0 go, .close, .closeStep 0, .closeStep 0], recvAll exOther ++ recvAll [4, 3, 0, 8, 0, 0, 0, 7] ++
    [.thread 0 go, .thread 0 go, .thread 0 go], ⟨7, 0, .done (some [4, 3, 0, 8, 0, 0, 0, 7]), true, exReq⟩, [4, 3, 0, 8, 0, 0, 0, 7],
    by decide +kernel, ⟨⟨7, 0, .waiting, false, exReq⟩, by decide +kernel, rfl⟩, by decide +kernel, rfl, by decide⟩

/-- Non-vacuity of C25: two requests outstanding, one with a fragment already stored; closing returns the empty value to both. -/
example : (syncRun (freshSync (some 4)) ([.sendSync exReq, .sendSync [4, 2, 0, 8, 0, 0, 0, 8], .thread 0 go, .thread 1 go] ++ recvAll exFrag1 ++
    [.close, .closeStep 0, .closeStep 0, .closeStep 0, .closeStep 0, .thread 0 go, .thread 0 go, .thread 0 go, .thread 1 go, .thread 1 go, .thread 1 go])).threads
    = [.sync ⟨7, 0, .done (some []), true, exReq⟩, .sync ⟨8, 1, .done (some []), true, [4, 2, 0, 8, 0, 0, 0, 8]⟩] := by decide +kernel

/-! ### C26 -/

/-- The call ended by raising. -/
def Raised : SThread → Prop
  | .sync c => ∃ e, c.pc = .failed e
  | .multi c => ∃ e, c.pc = .failed e

/-- The call has returned. -/
def Returned : SThread → Prop
  | .sync c => ∃ d, c.pc = .done d
  | .multi c => c.pc = .done

theorem syncStep_keeps (ch : Choice) (st : SyncSt) (c : SCall) : ∀ p ∈ outCall c,
    p ∈ outCall (syncStep ch st c).2 ∨ (syncStep ch st c).1.syncs p.1 = none ∨ ∃ e, (syncStep ch st c).2.pc = .failed e := by
  obtain ⟨x, t, pc, be, msg⟩ := c
  intro p hp
  cases pc with
  | sending =>
    simp only [syncStep]
    split
    · exact .inl hp
    · exact .inr (.inr ⟨_, rfl⟩)
  | waiting =>
    have e : ∀ b : Bool, p ∈ (outCall (if b = true then (st, (⟨x, t, SPc.popping, true, msg⟩ : SCall))
        else if ch.timeout = true then (st, (⟨x, t, SPc.popping, be, msg⟩ : SCall)) else (st, ⟨x, t, .waiting, be, msg⟩)).2) := by
      intro b; split
      · exact hp
      · split <;> exact hp
    exact .inl (e _)
  | popping =>
    simp only [syncStep]
    cases st.syncs x with
    | some t' =>
      simp only [outCall, List.mem_singleton] at hp
      subst hp
      exact .inr (.inl (by simp [unregister]))
    | none => exact .inr (.inr ⟨_, rfl⟩)
  | reading => simp [outCall] at hp
  | done d => simp [outCall] at hp
  | failed e => simp [outCall] at hp

theorem multiStep_keeps (ch : Choice) (st : SyncSt) (c : MCall) : ∀ p ∈ outstanding (.multi c),
    p ∈ outstanding (.multi (multiStep ch st c).2) ∨ (multiStep ch st c).1.syncs p.1 = none ∨
      (∃ e, (multiStep ch st c).2.pc = .failed e) ∨ ∃ s e, (multiStep ch st c).2.pc = .barrier s ∧ s.pc = .failed e := by
  obtain ⟨all, todo, prepared, taken, results, bxid, btr, cur, pc⟩ := c
  intro p hp
  cases pc with
  | next =>
    cases todo with
    | cons m rest =>
      simp only [multiStep]
      cases parseHeader m with
      | error e => exact .inr (.inr (.inl ⟨_, rfl⟩))
      | ok r => exact .inl (List.mem_append_left _ hp)
    | nil =>
      simp only [multiStep]
      cases barrierMsg st.version ch.bxid with
      | error e => exact .inr (.inr (.inl ⟨_, rfl⟩))
      | ok r => exact .inl (List.mem_append_left _ hp)
  | sending =>
    simp only [multiStep]
    split
    · exact .inl hp
    · exact .inr (.inr (.inl ⟨_, rfl⟩))
  | barrier s =>
    have hk := syncStep_keeps ch st s
    have gen : p ∈ prepared ++ outCall (syncStep ch st s).2 ∨ (syncStep ch st s).1.syncs p.1 = none ∨
        (∃ e, MPc.barrier (syncStep ch st s).2 = .failed e) ∨ ∃ s' e, MPc.barrier (syncStep ch st s).2 = .barrier s' ∧ s'.pc = .failed e := by
      simp only [outstanding, List.mem_append] at hp
      rcases hp with hp | hp
      · exact .inl (List.mem_append_left _ hp)
      · rcases hk p hp with h | h | ⟨e, h⟩
        · exact .inl (List.mem_append_right _ h)
        · exact .inr (.inl h)
        · exact .inr (.inr (.inr ⟨_, e, rfl, h⟩))
    simp only [multiStep]
    cases hs : s.pc with
    | done d =>
      simp only
      cases barrierResult st.version d with
      | ok u =>
        left
        simp only [outstanding, outCall, hs, List.append_nil] at hp ⊢
        exact hp
      | error e => exact .inr (.inr (.inl ⟨_, rfl⟩))
    | failed e => exact .inr (.inr (.inl ⟨_, rfl⟩))
    | sending => exact gen
    | waiting => exact gen
    | popping => exact gen
    | reading => exact gen
  | collect =>
    simp only [multiStep]
    cases prepared with
    | nil => simp [outstanding] at hp
    | cons q rest =>
      simp only
      cases hq : st.syncs q.1 with
      | some t => exact .inl hp
      | none =>
        simp only [outstanding, List.mem_cons] at hp
        rcases hp with rfl | hp
        · exact .inr (.inl hq)
        · exact .inl hp
  | reading =>
    simp only [multiStep]
    cases prepared with
    | nil => exact .inl hp
    | cons q rest =>
      simp only
      cases st.syncs q.1 with
      | some t => exact .inl hp
      | none => exact .inr (.inr (.inl ⟨_, rfl⟩))
  | popping =>
    simp only [multiStep]
    cases prepared with
    | nil => exact .inl hp
    | cons q rest =>
      simp only
      cases st.syncs q.1 with
      | some t =>
        simp only [outstanding, List.mem_cons] at hp
        rcases hp with rfl | hp
        · exact .inr (.inl (by simp [unregister]))
        · exact .inl hp
      | none => exact .inr (.inr (.inl ⟨_, rfl⟩))
  | done => exact .inl hp
  | failed e => exact .inl hp

/-- The thread has raised, or is a `multi` whose barrier call has raised (it raises with its next step). -/
def Doomed : SThread → Prop
  | .sync c => ∃ e, c.pc = .failed e
  | .multi c => (∃ e, c.pc = .failed e) ∨ ∃ s e, c.pc = .barrier s ∧ s.pc = .failed e

theorem doomed_step {st : SyncSt} (op : SyncOp) (h : ∃ (i : Nat) (th : SThread), st.threads[i]? = some th ∧ Doomed th) :
    ∃ (i : Nat) (th : SThread), (syncOp st op).threads[i]? = some th ∧ Doomed th := by
  obtain ⟨i, th, h1, h2⟩ := h
  rcases thread_other op h1 with h' | ⟨ch, rfl⟩
  · exact ⟨i, th, h', h2⟩
  · cases th with
    | sync c =>
      obtain ⟨e, he⟩ := h2
      exact ⟨i, _, thread_own_sync ch h1, e, by simp [syncStep, he]⟩
    | multi c =>
      refine ⟨i, _, thread_own_multi ch h1, .inl ?_⟩
      rcases h2 with ⟨e, he⟩ | ⟨s, e, he, hs⟩
      · exact ⟨e, by simp [multiStep, he]⟩
      · exact ⟨e, by simp [multiStep, he, hs]⟩

theorem doomed_run {st : SyncSt} (ops : List SyncOp) (h : ∃ (i : Nat) (th : SThread), st.threads[i]? = some th ∧ Doomed th) :
    ∃ (i : Nat) (th : SThread), (syncRun st ops).threads[i]? = some th ∧ Doomed th := by
  induction ops generalizing st with
  | nil => exact h
  | cons op ops ih => exact ih (doomed_step op h)

/-- Every registered record belongs to an outstanding request of some thread. -/
def Owned (st : SyncSt) : Prop :=
  ∀ x t, st.syncs x = some t → ∃ (i : Nat) (th : SThread), st.threads[i]? = some th ∧ (x, t) ∈ outstanding th

theorem Move.back {st st1 : SyncSt} {o o'} (h : Move st st1 o o') {x t : Nat} (hx : st1.syncs x = some t) :
    st.syncs x = some t ∨ (x, t) ∈ o' := by
  cases h with
  | same _ => exact .inl hx
  | sent _ _ => exact .inl hx
  | reg y =>
    simp only [register] at hx
    split at hx
    · injection hx with hx; subst hx; right; simp [*]
    · exact .inl hx
  | unreg y t' a b =>
    simp only [unregister] at hx
    split at hx
    · simp at hx
    · exact .inl hx

theorem owned_step {st : SyncSt} (op : SyncOp) (h : Owned st)
    (hn : ¬ ∃ (i : Nat) (th : SThread), (syncOp st op).threads[i]? = some th ∧ Doomed th) : Owned (syncOp st op) := by
  have passive : ∀ st', Passive st st' → Owned st' := by
    intro st' hp x t hx
    rw [hp.syncs] at hx
    obtain ⟨i, th, h1, h2⟩ := h x t hx
    exact ⟨i, th, by rw [hp.threads]; exact h1, h2⟩
  have move : ∀ (st1 : SyncSt) (j : Nat) (th0 th0' : SThread), st.threads[j]? = some th0 → Move st st1 (outstanding th0) (outstanding th0') →
      (∀ p ∈ outstanding th0, p ∈ outstanding th0' ∨ st1.syncs p.1 = none) → Owned { st1 with threads := st.threads.set j th0' } := by
    intro st1 j th0 th0' hj hm hk x t hx
    have hlt := lt_of_getElem? hj
    rcases hm.back hx with g | g
    · obtain ⟨i, th, h1, h2⟩ := h x t g
      by_cases e : j = i
      · subst e
        rw [hj] at h1; injection h1 with h1; subst h1
        rcases hk _ h2 with h3 | h3
        · exact ⟨j, th0', by simp [hlt], h3⟩
        · exact absurd hx (by simp [h3])
      · exact ⟨i, th, by simp [e, h1], h2⟩
    · exact ⟨j, th0', by simp [hlt], g⟩
  cases op with
  | sendSync m =>
    simp only [syncOp]
    cases parseHeader m with
    | error e =>
      intro x t hx
      obtain ⟨i, th, h1, h2⟩ := h x t hx
      exact ⟨i, th, by simp only; rw [List.getElem?_append_left (lt_of_getElem? h1)]; exact h1, h2⟩
    | ok r =>
      intro x t hx
      rcases (Move.reg (st := st) (o := []) r.2.2.2).back hx with g | g
      · obtain ⟨i, th, h1, h2⟩ := h x t g
        exact ⟨i, th, by simp only; rw [List.getElem?_append_left (lt_of_getElem? h1)]; exact h1, h2⟩
      · exact ⟨st.threads.length, .sync ⟨r.2.2.2, st.heap.length, .sending, false, m⟩, by simp, g⟩
  | multi ms =>
    intro x t hx
    obtain ⟨i, th, h1, h2⟩ := h x t hx
    exact ⟨i, th, by simp only [syncOp]; rw [List.getElem?_append_left (lt_of_getElem? h1)]; exact h1, h2⟩
  | thread j ch =>
    cases hth : st.threads[j]? with
    | none => simp only [syncOp, hth]; exact h
    | some th =>
      cases th with
      | sync c =>
        have hnew := thread_own_sync ch hth
        simp only [syncOp, hth]
        refine move _ j _ _ hth (syncStep_move ch st c) ?_
        intro p hp
        rcases syncStep_keeps ch st c p hp with h1 | h1 | h1
        · exact .inl h1
        · exact .inr h1
        · exact absurd ⟨j, _, hnew, h1⟩ hn
      | multi c =>
        have hnew := thread_own_multi ch hth
        simp only [syncOp, hth]
        refine move _ j _ _ hth (multiStep_move ch st c) ?_
        intro p hp
        rcases multiStep_keeps ch st c p hp with h1 | h1 | h1
        · exact .inl h1
        · exact .inr h1
        · exact absurd ⟨j, _, hnew, h1⟩ hn
  | recv m => exact passive _ (passive_recvBegin st m)
  | recvStep => exact passive _ (passive_recvStep st)
  | close => exact passive _ ⟨rfl, rfl, rfl, rfl⟩
  | closeStep i => exact passive _ (passive_closeStep st i)

theorem owned_run {st : SyncSt} (ops : List SyncOp) (h : Owned st)
    (hn : ¬ ∃ (i : Nat) (th : SThread), (syncRun st ops).threads[i]? = some th ∧ Doomed th) : Owned (syncRun st ops) := by
  induction ops generalizing st with
  | nil => exact h
  | cons op ops ih => exact ih (owned_step op h (fun hh => hn (doomed_run ops hh))) hn

/-- **C26, partial.** Full statement: when a call has ended in any way, no record of its request remains. Proved, for every run: if every
call has returned (with a reply, after a timeout, or after `close`; ids may even collide), nothing is registered any more. Missing:
calls that end by raising — see the refutations below. -/
theorem C26_no_leak_partial {v : Option Nat} {ops : List SyncOp} {st : SyncSt} (h : st = syncRun (freshSync v) ops)
    (hall : ∀ th ∈ st.threads, Returned th) : ∀ x, st.syncs x = none := by
  have ho : Owned st := by
    rw [h]
    apply owned_run ops (by intro x t hx; simp [freshSync] at hx)
    rintro ⟨i, th, h1, h2⟩
    rw [← h] at h1
    have hret := hall th (List.mem_of_getElem? h1)
    cases th with
    | sync c =>
      obtain ⟨e, he⟩ := h2
      obtain ⟨d, hd⟩ := hret
      rw [he] at hd; simp at hd
    | multi c =>
      simp only [Returned] at hret
      rcases h2 with ⟨e, he⟩ | ⟨s, e, he, _⟩ <;> (rw [hret] at he; simp at he)
  intro x
  cases hx : st.syncs x with
  | none => rfl
  | some t =>
    obtain ⟨i, th, h1, h2⟩ := ho x t hx
    have hret := hall th (List.mem_of_getElem? h1)
    cases th with
    | sync c => obtain ⟨d, hd⟩ := hret; simp [outstanding, outCall, hd] at h2
    | multi c => simp only [Returned] at hret; simp [outstanding, hret] at h2

/-- **C26, partial (b).** A `send_sync` call that has returned — or raised because its id was already removed — has left no record,
whatever the other threads do. -/
theorem C26_own_record_partial {v : Option Nat} {ops1 ops2 : List SyncOp} {m0 : Bytes} {c : SCall} {st1 st2 : SyncSt}
    (h1 : st1 = syncRun (freshSync v) ops1) (h2 : st2 = syncRun st1 (.sendSync m0 :: ops2))
    (h : st2.threads[st1.threads.length]? = some (.sync c)) (hd : (∃ d, c.pc = .done d) ∨ c.pc = .failed .keyError) :
    ∀ x, st2.syncs x ≠ some st1.heap.length := by
  have hf : ∀ e, c.pc = .failed e → e = .keyError := by
    intro e he
    rcases hd with ⟨d, hd⟩ | hd <;> (rw [hd] at he; simp at he); exact he.symm
  obtain ⟨_, _, e2, _⟩ := runInv_sync h1 h2 h hf
  have hst2 : st2 = syncRun (freshSync v) (ops1 ++ .sendSync m0 :: ops2) := by rw [syncRun_append, ← h1, h2]
  have hr : RunInv st2 := hst2 ▸ runInv_fresh v _
  have hci : CallInv st2 c := hr.threads _ _ h
  have := (hci (by
    rcases hd with ⟨d, hd⟩ | hd
    · exact .inl (by simp [hd])
    · exact .inr hd)).2.2 (.inr hd)
  rw [← e2]; exact this

/-- **C26 is false (a)**: if sending the request raises, its record stays registered. -/
theorem C26_refuted_send : ∃ (ops : List SyncOp) (c : SCall),
    (syncRun (freshSync (some 4)) ops).threads = [.sync c] ∧ c.pc = .failed .other ∧ (syncRun (freshSync (some 4)) ops).syncs 7 = some 0 :=
  ⟨[.sendSync exReq, .thread 0 ⟨false, false, 0⟩], ⟨7, 0, .failed .other, false, exReq⟩, by decide +kernel, rfl, by decide +kernel⟩

/-- **C26 is false (b)**: if the barrier of `multi` gets no reply in time, the records of its messages stay registered. -/
theorem C26_refuted_barrier : ∃ (ops : List SyncOp) (c : MCall),
    (syncRun (freshSync (some 4)) ops).threads = [.multi c] ∧ c.pc = .failed .channelClose ∧
    (syncRun (freshSync (some 4)) ops).syncs 7 = some 0 :=
  ⟨[.multi [exReq], .thread 0 go, .thread 0 go, .thread 0 ⟨true, false, 99⟩, .thread 0 go, .thread 0 timedOut, .thread 0 go, .thread 0 go, .thread 0 go],
    ⟨[exReq], [], [(7, 0)], [], [], 99, 1, exReq, .failed .channelClose⟩, by decide +kernel, rfl, by decide +kernel⟩

/-- **C26 is false (c)**: two calls use the same id; the second one raises KeyError although its reply has arrived. -/
theorem C26_refuted_duplicate : ∃ (ops : List SyncOp) (c : SCall),
    (syncRun (freshSync (some 4)) ops).threads[1]? = some (.sync c) ∧ c.pc = .failed .keyError :=
  ⟨[.sendSync exReq, .sendSync exReq, .thread 0 go, .thread 1 go] ++ recvAll [4, 3, 0, 8, 0, 0, 0, 7] ++
    [.thread 0 timedOut, .thread 0 go, .thread 1 go, .thread 1 go], ⟨7, 1, .failed .keyError, true, exReq⟩, by decide +kernel, rfl⟩

/-- Non-vacuity of C26: a run with a reply, a timeout and a `multi`, after which all have returned. -/
example : ∀ th ∈ (syncRun (freshSync (some 4)) ([.sendSync exReq, .thread 0 go, .thread 0 timedOut, .thread 0 go, .thread 0 go,
    .multi [exReq], .thread 1 go, .thread 1 go, .thread 1 ⟨true, false, 99⟩, .thread 1 go] ++ recvAll [4, 21, 0, 8, 0, 0, 0, 99] ++
    [.thread 1 go, .thread 1 go, .thread 1 go, .thread 1 go, .thread 1 go, .thread 1 go, .thread 1 go, .thread 1 go])).threads, Returned th := by
  have : (syncRun (freshSync (some 4)) ([.sendSync exReq, .thread 0 go, .thread 0 timedOut, .thread 0 go, .thread 0 go,
    .multi [exReq], .thread 1 go, .thread 1 go, .thread 1 ⟨true, false, 99⟩, .thread 1 go] ++ recvAll [4, 21, 0, 8, 0, 0, 0, 99] ++
    [.thread 1 go, .thread 1 go, .thread 1 go, .thread 1 go, .thread 1 go, .thread 1 go, .thread 1 go, .thread 1 go])).threads =
    [.sync ⟨7, 0, .done none, false, exReq⟩, .multi ⟨[exReq], [], [], [(7, 1)], [none], 99, 2, exReq, .done⟩] := by decide +kernel
  rw [this]; simp [Returned]

/-! ### C27 -/

theorem multiStep_all (ch : Choice) (st : SyncSt) (c : MCall) : (multiStep ch st c).2.all = c.all := by
  unfold multiStep
  cases c.pc with
  | next =>
    simp only
    cases c.todo with
    | cons m rest => simp only; cases parseHeader m <;> rfl
    | nil => simp only; cases barrierMsg st.version ch.bxid <;> rfl
  | sending => simp only; split <;> rfl
  | barrier s =>
    simp only
    cases hs : s.pc with
    | done d => simp only; cases barrierResult st.version d <;> rfl
    | _ => rfl
  | collect =>
    simp only
    cases c.prepared with
    | nil => rfl
    | cons p rest => simp only; cases st.syncs p.1 <;> rfl
  | reading =>
    simp only
    cases c.prepared with
    | nil => rfl
    | cons p rest => simp only; cases st.syncs p.1 <;> rfl
  | popping =>
    simp only
    cases c.prepared with
    | nil => rfl
    | cons p rest => simp only; cases st.syncs p.1 <;> rfl
  | _ => rfl

theorem multiB_run {st : SyncSt} {base i : Nat} {c : MCall} (hr : RunInv st) (ha : Alive st) (hb : BoundInv st)
    (hbase : base ≤ st.rx.length) (h : st.threads[i]? = some (.multi c)) (hm : MultiB st base c) (ops : List SyncOp)
    (hn : NoClose ops) (hd : DistinctRun st ops) :
    ∃ c', (syncRun st ops).threads[i]? = some (.multi c') ∧ c'.all = c.all ∧ MultiB (syncRun st ops) base c' := by
  induction ops generalizing st c with
  | nil => exact ⟨c, h, rfl, hm⟩
  | cons op ops ih =>
    have hs := runInv_step hr op
    have hal := alive_step ha op (hn op (by simp))
    have hbo := bound_step op hb hd.1 (distinctRun_head hd.2)
    have hl : Later st (syncOp st op) := ⟨hs.2, sent_step st op, version_step st op⟩
    have hbase' : base ≤ (syncOp st op).rx.length := Nat.le_trans hbase hl.rx_le
    have hn' : NoClose ops := fun o ho => hn o (by simp [ho])
    rcases thread_other op h with h' | ⟨ch, rfl⟩
    · exact ih hs.1 hal hbo hbase' h' (hm.mono hl) hn' hd.2
    · have hown := thread_own_multi ch h
      have hstep := multiB_step hr ha ch c (hr.threads _ _ h) hbase (hb _ _ h) ((distinctRun_head hd.2).1 _ _ hown) hm
      have hstep' : MultiB (syncOp st (.thread i ch)) base (multiStep ch st c).2 := by
        simp only [syncOp, h]; exact hstep
      obtain ⟨c', e1, e2, e3⟩ := ih hs.1 hal hbo hbase' hown hstep' hn' hd.2
      exact ⟨c', e1, e2.trans (multiStep_all ch st c), e3⟩

/-- **C27.** Outstanding ids are different and nobody closes. When `multi(ms)` returns, it returns one result per message, and the `i`-th
result is the reply assembled from the messages with the `i`-th id that arrived in a window `[s, n)` of the received sequence (None if
there was none). The window begins no later than the sending of the `i`-th message (`k` is the number of messages received by then)
and does not end before the barrier reply. -/
theorem C27_results {v : Option Nat} {ops1 ops2 : List SyncOp} {ms : List Bytes} {c : MCall} {st1 st2 : SyncSt}
    (h1 : st1 = syncRun (freshSync v) ops1) (h2 : st2 = syncRun st1 (.multi ms :: ops2))
    (hc : NoClose (ops1 ++ .multi ms :: ops2)) (hdr : DistinctRun (freshSync v) (ops1 ++ .multi ms :: ops2))
    (h : st2.threads[st1.threads.length]? = some (.multi c)) (hdone : c.pc = .done) :
    c.results.length = ms.length ∧ ∀ (i : Nat) m r, ms[i]? = some m → c.results[i]? = some r →
      ∃ s k n, st1.rx.length ≤ s ∧ s ≤ k ∧ (m, k) ∈ st2.sent ∧ n ≤ st2.rx.length ∧
        (∃ b ∈ (st2.rx.take n).drop st1.rx.length, u32 b 4 = c.bxid ∧ u8 b 1 = if v = some 1 then 19 else 21) ∧
        r = assembled (withId (u32 m 4) ((st2.rx.take n).drop s)) := by
  have hr1 : RunInv st1 := h1 ▸ runInv_fresh v ops1
  have ha1 : Alive st1 := h1 ▸ alive_run (alive_fresh v) _ (noClose_append hc).1
  obtain ⟨hd1, hd2⟩ := distinctRun_append hdr
  rw [← h1] at hd2
  have hb1 : BoundInv st1 := h1 ▸ bound_run (bound_fresh v) _ hd1
  have hth : (syncOp st1 (.multi ms)).threads[st1.threads.length]? = some (.multi ⟨ms, ms, [], [], [], 0, 0, [], .next⟩) := by
    simp [syncOp]
  have hinit : MultiB (syncOp st1 (.multi ms)) st1.rx.length ⟨ms, ms, [], [], [], 0, 0, [], .next⟩ :=
    ⟨[], [], by simp, .nil, rfl, rfl⟩
  have hs := runInv_step hr1 (.multi ms)
  obtain ⟨c', e1, e2, e3⟩ := multiB_run hs.1 (alive_step ha1 _ (by simp)) (bound_step _ hb1 hd2.1 (distinctRun_head hd2.2))
    (by simp [syncOp]) hth hinit ops2 (fun o ho => hc o (by simp [ho])) hd2.2
  simp only [syncRun] at h2
  rw [← h2] at e1 e3
  rw [h] at e1; injection e1 with e1; injection e1 with e1; subst e1
  have hr2 : RunInv st2 := h2 ▸ (runInv_run hs.1 ops2).1
  have hmi : MultiInv st2 c := hr2.threads _ _ h
  obtain ⟨dt, dp, g1, g2, g3⟩ := e3
  simp only [Stage, hdone] at g3
  obtain ⟨g3, _, _, g4⟩ := g3
  rw [hmi.fin hdone] at g2
  cases g2
  rw [g3] at g1
  simp only [List.append_nil] at g1
  have hms : dt = ms := by rw [← g1, e2]
  subst hms
  have hv : st2.version = v := by rw [h2, version_run, version_step, h1, version_run]; rfl
  refine ⟨g4.length_eq.symm, ?_⟩
  intro i m r hi hri
  have := (List.forall₂_iff_get.1 g4).2 i (lt_of_getElem? hi) (lt_of_getElem? hri)
  rw [List.get_eq_getElem, List.get_eq_getElem] at this
  rw [List.getElem?_eq_getElem (lt_of_getElem? hi)] at hi
  rw [List.getElem?_eq_getElem (lt_of_getElem? hri)] at hri
  injection hi with hi; injection hri with hri
  rw [hi, hri] at this
  obtain ⟨s, k, n, k1, k2, k3, k4, k5, ⟨b, b1, b2, b3⟩, k7⟩ := this
  exact ⟨s, k, n, k1, k2, k3, k5, ⟨b, b1, b2, by rw [hv] at b3; exact b3⟩, k7⟩

/-- `single(m)` is `multi((m,)).pop()` (base.py:905-906): the last element of the result list. -/
def singleResult (c : MCall) : Option (Option Bytes) := c.results.getLast?

/-- **C27 (`single`).** `single(m)` returns the entry for `m`. -/
theorem C27_single {v : Option Nat} {ops1 ops2 : List SyncOp} {m : Bytes} {c : MCall} {st1 st2 : SyncSt}
    (h1 : st1 = syncRun (freshSync v) ops1) (h2 : st2 = syncRun st1 (.multi [m] :: ops2))
    (hc : NoClose (ops1 ++ .multi [m] :: ops2)) (hdr : DistinctRun (freshSync v) (ops1 ++ .multi [m] :: ops2))
    (h : st2.threads[st1.threads.length]? = some (.multi c)) (hdone : c.pc = .done) :
    ∃ r s k n, singleResult c = some r ∧ st1.rx.length ≤ s ∧ s ≤ k ∧ (m, k) ∈ st2.sent ∧ n ≤ st2.rx.length ∧
      (∃ b ∈ (st2.rx.take n).drop st1.rx.length, u32 b 4 = c.bxid ∧ u8 b 1 = if v = some 1 then 19 else 21) ∧
      r = assembled (withId (u32 m 4) ((st2.rx.take n).drop s)) := by
  obtain ⟨e1, e2⟩ := C27_results h1 h2 hc hdr h hdone
  obtain ⟨r, hr⟩ : ∃ r, c.results = [r] := List.length_eq_one_iff.1 e1
  obtain ⟨s, k, n, hh⟩ := e2 0 m r rfl (by simp [hr])
  exact ⟨r, s, k, n, by simp [singleResult, hr], hh⟩

/-- Two messages, the second is answered (an error message) before the barrier reply: results `[None, reply]`. -/
def exMulti : List SyncOp := [.multi [exReq, [4, 14, 0, 8, 0, 0, 0, 8]], .thread 0 go, .thread 0 go, .thread 0 go, .thread 0 go,
    .thread 0 ⟨true, false, 99⟩, .thread 0 go] ++ recvAll [4, 1, 0, 8, 0, 0, 0, 8] ++ recvAll [4, 21, 0, 8, 0, 0, 0, 99] ++
    (List.replicate 12 (.thread 0 go))

/-- Non-vacuity of C27. -/
example : NoClose exMulti ∧ DistinctRun (freshSync (some 4)) exMulti ∧ (syncRun (freshSync (some 4)) exMulti).threads[0]? =
    some (.multi ⟨[exReq, [4, 14, 0, 8, 0, 0, 0, 8]], [], [], [(7, 0), (8, 1)], [none, some [4, 1, 0, 8, 0, 0, 0, 8]], 99, 2,
      [4, 14, 0, 8, 0, 0, 0, 8], .done⟩) :=
  ⟨by unfold NoClose exMulti recvAll; simp [List.replicate], distinctRun_of_check (by decide +kernel), by decide +kernel⟩

/-- How many results, registered ids and untouched messages there are at each point of `multi`. -/
def LenInv (c : MCall) : Prop :=
  match c.pc with
  | .next => c.results = [] ∧ c.prepared.length + c.todo.length = c.all.length
  | .sending => c.results = [] ∧ c.prepared.length + c.todo.length = c.all.length
  | .barrier _ => c.results = [] ∧ c.prepared.length = c.all.length
  | .collect => c.results.length + c.prepared.length = c.all.length
  | .reading => c.results.length + c.prepared.length = c.all.length
  | .popping => c.results.length + c.prepared.length = c.all.length + 1
  | .done => c.results.length = c.all.length
  | .failed _ => True

theorem lenInv_step (ch : Choice) (st : SyncSt) (c : MCall) (h : LenInv c) : LenInv (multiStep ch st c).2 := by
  unfold multiStep
  cases hp : c.pc with
  | next =>
    simp only [LenInv, hp] at h
    simp only
    cases ht : c.todo with
    | cons m rest =>
      simp only
      cases parseHeader m with
      | error e => simp [LenInv]
      | ok x => simp only [LenInv, List.length_append, List.length_singleton]; rw [ht, List.length_cons] at h; exact ⟨h.1, by omega⟩
    | nil =>
      simp only
      cases barrierMsg st.version ch.bxid with
      | error e => simp [LenInv]
      | ok b => simp only [LenInv]; simpa [ht] using h
  | sending =>
    simp only [LenInv, hp] at h
    simp only
    split
    · simpa [LenInv] using h
    · simp [LenInv]
  | barrier s =>
    simp only [LenInv, hp] at h
    simp only
    cases hs : s.pc with
    | done d =>
      simp only
      cases barrierResult st.version d with
      | ok u => simp [LenInv, h.1, h.2]
      | error e => simp [LenInv]
    | failed e => simp [LenInv]
    | _ => simpa [LenInv] using h
  | collect =>
    simp only [LenInv, hp] at h
    simp only
    cases ht : c.prepared with
    | nil => simpa [LenInv, ht] using h
    | cons p rest =>
      simp only
      cases st.syncs p.1 with
      | some t => simpa [LenInv, ht] using h
      | none => simp [ht] at h; simp [LenInv]; omega
  | reading =>
    simp only [LenInv, hp] at h
    simp only
    cases ht : c.prepared with
    | nil => simpa [LenInv, hp] using h
    | cons p rest =>
      simp only
      cases st.syncs p.1 with
      | some t => simp [ht] at h; simp [LenInv, ht]; omega
      | none => simp [LenInv]
  | popping =>
    simp only [LenInv, hp] at h
    simp only
    cases ht : c.prepared with
    | nil => simpa [LenInv, hp] using h
    | cons p rest =>
      simp only
      cases st.syncs p.1 with
      | some t => simp [ht] at h; simp [LenInv]; omega
      | none => simp [LenInv]
  | done => simpa [LenInv, hp] using h
  | failed e => simp [LenInv, hp]

theorem lenInv_run {st : SyncSt} {i : Nat} {c : MCall} (h : st.threads[i]? = some (.multi c)) (hl : LenInv c)
    (ops : List SyncOp) : ∃ c', (syncRun st ops).threads[i]? = some (.multi c') ∧ c'.all = c.all ∧ LenInv c' := by
  induction ops generalizing st c with
  | nil => exact ⟨c, h, rfl, hl⟩
  | cons op ops ih =>
    rcases thread_other op h with h' | ⟨ch, rfl⟩
    · exact ih h' hl
    · obtain ⟨c', e1, e2, e3⟩ := ih (thread_own_multi ch h) (lenInv_step ch st c hl)
      exact ⟨c', e1, e2.trans (multiStep_all ch st c), e3⟩

/-- **C27 (one result per message).** In every run, whatever the ids of the messages, whatever else is outstanding and whoever
closes the channel: if `multi(ms)` returns a list, the list has one entry per message. -/
theorem C27_one_result_per_message {v : Option Nat} {ops1 ops2 : List SyncOp} {ms : List Bytes} {c : MCall} {st1 st2 : SyncSt}
    (h1 : st1 = syncRun (freshSync v) ops1) (h2 : st2 = syncRun st1 (.multi ms :: ops2))
    (h : st2.threads[st1.threads.length]? = some (.multi c)) (hdone : c.pc = .done) : c.results.length = ms.length := by
  have hth : (syncOp st1 (.multi ms)).threads[st1.threads.length]? = some (.multi ⟨ms, ms, [], [], [], 0, 0, [], .next⟩) := by
    simp [syncOp]
  obtain ⟨c', e1, e2, e3⟩ := lenInv_run hth (by simp [LenInv]) ops2
  simp only [syncRun] at h2
  rw [← h2] at e1
  rw [h] at e1; injection e1 with e1; injection e1 with e1; subst e1
  simp only [LenInv, hdone] at e3
  rw [e3, e2]

/-- Two messages with the same id: one reply is taken, the second entry is `None` (its id is no longer registered). -/
def exSameId : List SyncOp := [.multi [exReq, exReq], .thread 0 go, .thread 0 go, .thread 0 go, .thread 0 go,
    .thread 0 ⟨true, false, 99⟩, .thread 0 go] ++ recvAll [4, 1, 0, 8, 0, 0, 0, 7] ++ recvAll [4, 21, 0, 8, 0, 0, 0, 99] ++
    (List.replicate 12 (.thread 0 go))

/-- Non-vacuity of `C27_one_result_per_message`. -/
example : (syncRun (freshSync (some 4)) exSameId).threads[0]? =
    some (.multi ⟨[exReq, exReq], [], [], [(7, 0), (7, 1)], [some [4, 1, 0, 8, 0, 0, 0, 7], none], 99, 2, exReq, .done⟩) := by
  decide +kernel

end Twink
