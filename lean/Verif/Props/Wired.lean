import Verif.Proof.WiredRest

/-!
# Properties of a controller and a switch on one connection: C118, C119

The call made by `.ctl (.sendSync m0)` in state `n1` is thread `n1.ctl.threads.length` of the controller.
-/

namespace Twink.Wired
open Session Spec Fmt

/-! ## C118: `send_sync` to a switch of this project -/

/-- **C118, safety.** Whatever the threads of the controller and the switch do, and however their steps are interleaved: if no other message of the controller has the id
of the request, and no other thread of the switch uses it, then `send_sync` returns None after a timeout, or exactly the message that the switch sent when it handled this very
request; it is a whole reply of the type that the standard requires, with the id of the request.
Missing: ids used twice (`C118_reused_refuted`), messages that the switch sends on its own (`C118_status_refuted`). -/
theorem C118_own_answer_partial {h : Handle σ} (hp : Polite h) (u : σ) {ops1 ops2 : List (NOp σ)} {m0 : Bytes} {n1 n2 : Net σ} {c : SCall} {d : Option Bytes}
    (h1 : n1 = run h (start u) ops1) (h2 : n2 = run h n1 (.ctl (.sendSync m0) :: ops2)) (ho : Open (ops1 ++ .ctl (.sendSync m0) :: ops2))
    (hpl : ∀ m ∈ asked n2, Plain m) (hol : OwnLong (ops1 ++ .ctl (.sendSync m0) :: ops2)) (hap : Apart (u32 m0 4) (ops1 ++ .ctl (.sendSync m0) :: ops2))
    (hs : List.Sublist (withId (u32 m0 4) (asked n2)) [m0])
    (hth : n2.ctl.threads[n1.ctl.threads.length]? = some (.sync c)) (hd : c.pc = .done d) :
    (d = none ∧ c.byEvent = false) ∨ ∃ r, (m0, [r]) ∈ n2.log ∧ d = some r ∧ Answers m0 r := by
  have e2 : n2 = run h (start u) (ops1 ++ .ctl (.sendSync m0) :: ops2) := by rw [run_append, ← h1, h2]
  have hi : NetInv n2 := e2 ▸ netInv_run hp (netInv_start u) _ (e2 ▸ hpl) hol
  have hids : withId (u32 m0 4) n2.sw.sent = withId (u32 m0 4) (n2.log.flatMap (·.2)) :=
    e2 ▸ said_ids_run hp rfl (netInv_start u) _ (e2 ▸ hpl) hol hap
  have c1 : n1.ctl = syncRun (freshSync (some 4)) (ctlOps h (start u) ops1) := by rw [h1]; exact run_ctl h (start u) ops1
  have c2 : n2.ctl = syncRun n1.ctl (.sendSync m0 :: ctlOps h (step h n1 (.ctl (.sendSync m0))) ops2) := by rw [h2]; exact run_ctl h n1 _
  have hnc : NoClose (ctlOps h (start u) ops1 ++ .sendSync m0 :: ctlOps h (step h n1 (.ctl (.sendSync m0))) ops2) := by
    have := ctlOps_open h (start u) ho
    rw [ctlOps_append, ← h1] at this
    exact this
  obtain ⟨got, g1, g2, g3⟩ := C22_own_reply c1 c2 hnc hth hd
  have hsub : List.Sublist (withId (u32 m0 4) got) (withId (u32 m0 4) n2.sw.sent) := by
    rw [hi.said, List.append_assoc]
    exact (((g1.sublist.trans (List.drop_sublist _ _)).trans (List.sublist_append_left _ _)).filter _)
  rw [hids] at hsub
  rcases one_answer hi hs with h0 | ⟨r, hr, ha, hw⟩
  · rw [h0] at hsub
    have hn : withId (u32 m0 4) got = [] := by simpa using hsub
    left
    refine ⟨by rw [g2, hn]; rfl, ?_⟩
    cases hb : c.byEvent with
    | false => rfl
    | true => obtain ⟨m, hm, _⟩ := g3 hb; rw [hn] at hm; simp at hm
  · rw [hw] at hsub
    have : withId (u32 m0 4) got = [] ∨ withId (u32 m0 4) got = [r] := by
      cases hg : withId (u32 m0 4) got with
      | nil => exact .inl rfl
      | cons a l =>
        rw [hg] at hsub
        have hl := hsub.length_le
        have : l = [] := by cases l with
          | nil => rfl
          | cons b l => simp at hl
        subst this
        have := hsub.subset (List.mem_singleton.2 rfl)
        simp only [List.mem_singleton] at this
        exact .inr (by rw [this])
    rcases this with hn | hn
    · left
      refine ⟨by rw [g2, hn]; rfl, ?_⟩
      cases hb : c.byEvent with
      | false => rfl
      | true => obtain ⟨m, hm, _⟩ := g3 hb; rw [hn] at hm; simp at hm
    · right
      refine ⟨r, hr, ?_, ha⟩
      rw [g2, hn]
      simp only [assembled, List.foldl_cons, List.foldl_nil]
      split <;> simp

/-- **C118, the answer comes.** Ids of outstanding requests are distinct, and no other message has the id of the request.  If the switch returns from the handler for every message
sent so far and answers this request, then from any state in which the call waits the network alone comes to rest, after at most `load n2`
steps; and then the next three steps of the call return the reply. -/
theorem C118_answered_partial {h : Handle σ} (hp : Polite h) (u : σ) {ops1 ops2 : List (NOp σ)} {m0 : Bytes} {n1 n2 : Net σ} {c : SCall}
    (h1 : n1 = run h (start u) ops1) (h2 : n2 = run h n1 (.ctl (.sendSync m0) :: ops2)) (ho : Open (ops1 ++ .ctl (.sendSync m0) :: ops2))
    (hdi : Distinct h (start u) (ops1 ++ .ctl (.sendSync m0) :: ops2))
    (hpl : ∀ m ∈ asked n2, Plain m) (hta : ∀ m ∈ asked n2, Takes h m) (hhe : Heeds h m0)
    (hol : OwnLong (ops1 ++ .ctl (.sendSync m0) :: ops2)) (hap : Apart (u32 m0 4) (ops1 ++ .ctl (.sendSync m0) :: ops2))
    (hs : List.Sublist (withId (u32 m0 4) (asked n2)) [m0])
    (hth : n2.ctl.threads[n1.ctl.threads.length]? = some (.sync c)) (hw : c.pc = .waiting) :
    ∃ net : List (NOp σ), (∀ op ∈ net, IsNet op) ∧ net.length ≤ load n2 ∧ AtRest (run h n2 net) ∧
      ∃ r, (m0, [r]) ∈ (run h n2 net).log ∧ Answers m0 r ∧ ∀ ch1 ch2 ch3, ∃ c',
        (run h n2 (net ++ [.ctl (.thread n1.ctl.threads.length ch1), .ctl (.thread n1.ctl.threads.length ch2),
          .ctl (.thread n1.ctl.threads.length ch3)])).ctl.threads[n1.ctl.threads.length]? = some (.sync c') ∧ c'.pc = .done (some r) := by
  have e2 : n2 = run h (start u) (ops1 ++ .ctl (.sendSync m0) :: ops2) := by rw [run_append, ← h1, h2]
  have hi2 : NetInv n2 := e2 ▸ netInv_run hp (netInv_start u) _ (e2 ▸ hpl) hol
  have hal : n2.alive = true := e2 ▸ alive_all hp (netInv_start u) _ (e2 ▸ hpl) (e2 ▸ hta) hol rfl
  obtain ⟨net, hnet, hlen, hrest⟩ := drain hp (load n2) n2 (Nat.le_refl _) hi2 hpl hta hal
  obtain ⟨hthr, hask⟩ := run_net h n2 hnet
  refine ⟨net, hnet, hlen, hrest, ?_⟩
  have e3 : run h n2 net = run h (start u) ((ops1 ++ .ctl (.sendSync m0) :: ops2) ++ net) := by rw [run_append, ← e2]
  have e3' : run h n2 net = run h n1 (.ctl (.sendSync m0) :: (ops2 ++ net)) := by rw [h2, ← run_append]; rfl
  generalize hn3 : run h n2 net = n3 at *
  have hpl3 : ∀ m ∈ asked n3, Plain m := by rw [hask]; exact hpl
  have hol3 : OwnLong ((ops1 ++ .ctl (.sendSync m0) :: ops2) ++ net) := by
    intro u bs hm
    rcases List.mem_append.1 hm with hm | hm
    · exact hol u bs hm
    · exact absurd hm (netOwn hnet u bs)
  have hap3 : Apart (u32 m0 4) ((ops1 ++ .ctl (.sendSync m0) :: ops2) ++ net) := by
    intro u bs hm
    rcases List.mem_append.1 hm with hm | hm
    · exact hap u bs hm
    · exact absurd hm (netOwn hnet u bs)
  have hi3 : NetInv n3 := e3 ▸ netInv_run hp (netInv_start u) _ (e3 ▸ hpl3) hol3
  have hids : withId (u32 m0 4) n3.sw.sent = withId (u32 m0 4) (n3.log.flatMap (·.2)) :=
    e3 ▸ said_ids_run hp rfl (netInv_start u) _ (e3 ▸ hpl3) hol3 hap3
  -- before the call
  have hol1 : OwnLong ops1 := fun u bs hm => hol u bs (by simp [hm])
  have hap1 : Apart (u32 m0 4) ops1 := fun u bs hm => hap u bs (by simp [hm])
  have hpre : asked n1 <+: asked n2 := by rw [h2]; exact asked_run h n1 _
  have hpl1 : ∀ m ∈ asked n1, Plain m := fun m hm => hpl m (hpre.subset hm)
  have hi1 : NetInv n1 := h1 ▸ netInv_run hp (netInv_start u) _ (h1 ▸ hpl1) hol1
  have hids1 : withId (u32 m0 4) n1.sw.sent = withId (u32 m0 4) (n1.log.flatMap (·.2)) :=
    h1 ▸ said_ids_run hp rfl (netInv_start u) _ (h1 ▸ hpl1) hol1 hap1
  -- the controller
  have c1 : n1.ctl = syncRun (freshSync (some 4)) (ctlOps h (start u) ops1) := by rw [h1]; exact run_ctl h (start u) ops1
  have c2 : n2.ctl = syncRun n1.ctl (.sendSync m0 :: ctlOps h (step h n1 (.ctl (.sendSync m0))) ops2) := by rw [h2]; exact run_ctl h n1 _
  have c3 : n3.ctl = syncRun n1.ctl (.sendSync m0 :: ctlOps h (step h n1 (.ctl (.sendSync m0))) (ops2 ++ net)) := by rw [e3']; exact run_ctl h n1 _
  have hnc : NoClose (ctlOps h (start u) ops1 ++ .sendSync m0 :: ctlOps h (step h n1 (.ctl (.sendSync m0))) (ops2 ++ net)) := by
    have ho3 : Open (ops1 ++ .ctl (.sendSync m0) :: (ops2 ++ net)) := by
      intro op hm
      simp only [List.mem_append, List.mem_cons] at hm
      rcases hm with hm | hm | hm | hm
      · exact ho op (by simp [hm])
      · exact ho op (by simp [hm])
      · exact ho op (by simp [hm])
      · have := hnet op hm; rintro rfl; simp [IsNet] at this
    have := ctlOps_open h (start u) ho3
    rw [ctlOps_append, ← h1] at this
    exact this
  have hdr : DistinctRun (freshSync (some 4)) (ctlOps h (start u) ops1 ++ .sendSync m0 :: ctlOps h (step h n1 (.ctl (.sendSync m0))) (ops2 ++ net)) := by
    have hd3 : Distinct h (start u) ((ops1 ++ .ctl (.sendSync m0) :: ops2) ++ net) := by
      intro k
      by_cases hk : k ≤ (ops1 ++ .ctl (.sendSync m0) :: ops2).length
      · rw [List.take_append_of_le_length hk]; exact hdi k
      · have hfull := hdi (ops1 ++ .ctl (.sendSync m0) :: ops2).length
        rw [List.take_length, ← e2] at hfull
        rw [List.take_append, List.take_of_length_le (by omega), run_append, ← e2]
        have ht := (run_net h n2 (ops := net.take (k - (ops1 ++ .ctl (.sendSync m0) :: ops2).length)) (fun op ho => hnet op (List.mem_of_mem_take ho))).1
        unfold DistinctIds at hfull ⊢
        rw [ht]; exact hfull
    have := distinct_ctl hd3
    rw [List.append_assoc, ctlOps_append, ← h1] at this
    exact this
  have hth3 : n3.ctl.threads[n1.ctl.threads.length]? = some (.sync c) := by rw [hthr]; exact hth
  -- the request was sent after the call began
  have hm8 := (runInv_sync c1 c2 hth (by simp [hw])).1
  have hsent : m0 ∈ (n2.ctl.sent.drop n1.ctl.sent.length).map (·.1) := by
    have hnew : (syncOp n1.ctl (.sendSync m0)).threads[n1.ctl.threads.length]? = some (.sync ⟨u32 m0 4, n1.ctl.heap.length, .sending, false, m0⟩) := by
      simp [syncOp, parseHeader_fields m0 hm8]
    have hse : (syncOp n1.ctl (.sendSync m0)).sent = n1.ctl.sent := by simp [syncOp, parseHeader_fields m0 hm8, register]
    have := sent_since hnew rfl (ctlOps h (step h n1 (.ctl (.sendSync m0))) ops2) (c' := c) (by rw [← hth, c2]; rfl) (by simp [hw]) (by simp [hw])
    rw [hse] at this
    rw [c2]; exact this
  have hnone : withId (u32 m0 4) (asked n1) = [] := by
    obtain ⟨l, hl⟩ : ∃ l, n2.ctl.sent = n1.ctl.sent ++ l := by rw [c2]; exact sent_run _ _
    rw [hl, List.drop_left] at hsent
    have ha2 : asked n2 = asked n1 ++ l.map (·.1) := by simp [asked, hl]
    rw [ha2, withId_append] at hs
    have hm : m0 ∈ withId (u32 m0 4) (l.map (·.1)) := by simp only [withId, List.mem_filter]; exact ⟨hsent, by simp⟩
    have hlen := hs.length_le
    have hpos := List.length_pos_of_mem hm
    simp only [List.length_append, List.length_singleton] at hlen
    exact List.length_eq_zero_iff.1 (by omega)
  have hrx1 : withId (u32 m0 4) n1.ctl.rx = [] := by
    have hz : withId (u32 m0 4) n1.sw.sent = [] := by
      rw [hids1, withId_log (fun e he => (hi1.entry e he).2)]
      have : (n1.log.filter (fun e => u32 e.1 4 = u32 m0 4)).map (·.1) = [] := by
        rw [filter_map_fst]
        rw [hi1.asked, withId_append] at hnone
        exact (List.append_eq_nil_iff.1 hnone).1
      rw [List.map_eq_nil_iff] at this
      rw [this]; rfl
    rw [hi1.said, withId_append, withId_append] at hz
    exact (List.append_eq_nil_iff.1 (List.append_eq_nil_iff.1 hz).1).1
  -- the answer
  have hlog : ∃ out, (m0, out) ∈ n3.log := by
    have hm : m0 ∈ asked n3 := by
      rw [hask]
      simp only [asked, List.mem_map] at hsent ⊢
      obtain ⟨p, hp1, hp2⟩ := hsent
      exact ⟨p, List.mem_of_mem_drop hp1, hp2⟩
    rw [hi3.asked, hrest.1, List.append_nil, List.mem_map] at hm
    obtain ⟨⟨m, out⟩, hm, rfl⟩ := hm
    exact ⟨out, hm⟩
  obtain ⟨out, hout⟩ := hlog
  have hne : out ≠ [] := by
    have := log_all hp (fun m out => Heeds h m → out ≠ []) (fun x s m out hv hm hq hh => heeds_message x s m out hv hm hq hh) (netInv_start u)
      (by simp [start]) _ (e3 ▸ hpl3) hol3
    rw [← e3] at this
    exact this _ hout hhe
  have hs3 : List.Sublist (withId (u32 m0 4) (asked n3)) [m0] := by rw [hask]; exact hs
  obtain ⟨r0, hr0⟩ : ∃ r, out = [r] := by
    rcases (hi3.entry _ hout).2 with hh | ⟨r, hh, _⟩
    · exact absurd hh hne
    · exact ⟨r, hh⟩
  have hmem0 : r0 ∈ withId (u32 m0 4) (n3.log.flatMap (·.2)) := by
    rw [withId_log (fun e he => (hi3.entry e he).2), List.mem_flatMap]
    exact ⟨(m0, out), by simp [hout], by simp [hr0]⟩
  rcases one_answer hi3 hs3 with h0 | ⟨r, hr, ha, hww⟩
  · rw [h0] at hmem0; simp at hmem0
  · refine ⟨r, hr, ha, fun ch1 ch2 ch3 => ?_⟩
    have hrx : withId (u32 m0 4) (n3.ctl.rx.drop n1.ctl.rx.length) = [r] := by
      have hall : withId (u32 m0 4) n3.ctl.rx = [r] := by
        have := hids
        rw [hi3.said, hrest.2.1, hrest.2.2, hww] at this
        simpa [pend] using this
      obtain ⟨more, hmore⟩ : ∃ l, n3.ctl.rx = n1.ctl.rx ++ l := by
        rw [c3]
        exact (runInv_run (c1 ▸ runInv_fresh (some 4) _ : RunInv n1.ctl) _).2.rx
      rw [hmore, withId_append, hrx1, List.nil_append] at hall
      rw [hmore, List.drop_left]
      exact hall
    obtain ⟨c', k1, k2⟩ := C22_reply_returned c1 c3 hnc hdr hth3 hw hrest.2.2 ⟨r, by rw [hrx]; simp, by obtain ⟨t, _, _, hf⟩ := ha; exact hf⟩ ch1 ch2 ch3
    refine ⟨c', ?_, ?_⟩
    · rw [run_append, hn3, run_ctl]
      exact k1
    · rw [k2, hrx]
      simp only [assembled, List.foldl_cons, List.foldl_nil]
      split <;> simp

/-! ### The example switch -/

theorem ex_takes {rnd : Nat} {m : Bytes} (h : u8 m 1 = 2 ∨ Readable m) : Takes (exHandle rnd) m := by
  by_cases h2 : u8 m 1 = 2
  · exact .inl h2
  · refine .inr fun u => ?_
    simp only [exHandle, ex_answers rnd (h.resolve_left h2) h2]

theorem ex_heeds {rnd : Nat} {m : Bytes} (h : u8 m 1 = 2 ∨ Readable m) (ha : answer m ≠ []) : Heeds (exHandle rnd) m := by
  by_cases h2 : u8 m 1 = 2
  · exact .inl h2
  · refine .inr fun u => ?_
    simp only [exHandle, ex_answers rnd (h.resolve_left h2) h2]
    exact ha

/-- What the example says to a message: the answer of the specification, or nothing. -/
theorem ex_says (rnd x : Nat) (s : Sess Unit) (m : Bytes) (out : List Bytes) (hv : s.version = some 4) (hm : Plain m)
    (ho : (message (.seq [.int 4]) x (exHandle rnd) s m).1.sent = s.sent ++ out) :
    (out = [] ∨ out = answer m) ∧ ((u8 m 1 = 2 ∨ Readable m) → out = answer m) := by
  have key : (u8 m 1 = 2 ∨ Readable m) → out = answer m := fun hr => by
    rw [ex_message x rnd s hm.1 hm.2 hr hv] at ho
    exact (List.append_cancel_left ho).symm
  refine ⟨?_, key⟩
  by_cases hr : u8 m 1 = 2 ∨ Readable m
  · exact .inr (key hr)
  · left
    have h2 : u8 m 1 ≠ 2 := fun h => hr (.inl h)
    rw [message_other x _ s hm.1.1 hm.2, intercept_handle _ s hm.1.1 h2] at ho
    have he : (exHandle rnd s.user m).2.1 = [] := by
      unfold exHandle
      cases hp : exProc rnd m with
      | error e => rfl
      | ok bs =>
        exfalso
        unfold exProc at hp
        simp only [Of13.bind_ok] at hp
        obtain ⟨msg, hq, _⟩ := hp
        exact hr (.inr ⟨msg, hq⟩)
    simp only [he, List.append_nil] at ho
    have : s.sent ++ [] = s.sent ++ out := by simpa using ho
    exact (List.append_cancel_left this).symm

/-- **C118 for the example switch, byte by byte**: `send_sync` returns None after a timeout or the answer of the specification. -/
theorem C118_example_partial {rnd : Nat} {ops1 ops2 : List (NOp Unit)} {m0 : Bytes} {n1 n2 : Net Unit} {c : SCall} {d : Option Bytes}
    (h1 : n1 = run (exHandle rnd) (start ()) ops1) (h2 : n2 = run (exHandle rnd) n1 (.ctl (.sendSync m0) :: ops2))
    (ho : Open (ops1 ++ .ctl (.sendSync m0) :: ops2)) (hpl : ∀ m ∈ asked n2, Plain m) (hol : OwnLong (ops1 ++ .ctl (.sendSync m0) :: ops2))
    (hap : Apart (u32 m0 4) (ops1 ++ .ctl (.sendSync m0) :: ops2)) (hs : List.Sublist (withId (u32 m0 4) (asked n2)) [m0])
    (hth : n2.ctl.threads[n1.ctl.threads.length]? = some (.sync c)) (hd : c.pc = .done d) :
    (d = none ∧ c.byEvent = false) ∨ ∃ r, answer m0 = [r] ∧ d = some r := by
  rcases C118_own_answer_partial (ex_polite rnd) () h1 h2 ho hpl hol hap hs hth hd with h | ⟨r, hr, hd, _⟩
  · exact .inl h
  · right
    have e2 : n2 = run (exHandle rnd) (start ()) (ops1 ++ .ctl (.sendSync m0) :: ops2) := by rw [run_append, ← h1, h2]
    have := log_all (ex_polite rnd) (fun m out => out = [] ∨ out = answer m) (fun x s m out hv hm hq => (ex_says rnd x s m out hv hm hq).1)
      (netInv_start ()) (by simp [start]) _ (e2 ▸ hpl) hol
    rw [← e2] at this
    rcases this _ hr with h | h
    · simp at h
    · exact ⟨r, h.symm, hd⟩

/-- **C118 for the example switch, the answer comes**: if the parser takes every message sent, a waiting call gets the answer of the specification. -/
theorem C118_example_answered_partial {rnd : Nat} {ops1 ops2 : List (NOp Unit)} {m0 r : Bytes} {n1 n2 : Net Unit} {c : SCall}
    (h1 : n1 = run (exHandle rnd) (start ()) ops1) (h2 : n2 = run (exHandle rnd) n1 (.ctl (.sendSync m0) :: ops2))
    (ho : Open (ops1 ++ .ctl (.sendSync m0) :: ops2)) (hdi : Distinct (exHandle rnd) (start ()) (ops1 ++ .ctl (.sendSync m0) :: ops2))
    (hpl : ∀ m ∈ asked n2, Plain m) (hre : ∀ m ∈ asked n2, u8 m 1 = 2 ∨ Readable m) (hm : u8 m0 1 = 2 ∨ Readable m0) (hr : answer m0 = [r])
    (hol : OwnLong (ops1 ++ .ctl (.sendSync m0) :: ops2)) (hap : Apart (u32 m0 4) (ops1 ++ .ctl (.sendSync m0) :: ops2))
    (hs : List.Sublist (withId (u32 m0 4) (asked n2)) [m0])
    (hth : n2.ctl.threads[n1.ctl.threads.length]? = some (.sync c)) (hw : c.pc = .waiting) :
    ∃ net : List (NOp Unit), (∀ op ∈ net, IsNet op) ∧ net.length ≤ load n2 ∧ ∀ ch1 ch2 ch3, ∃ c',
      (run (exHandle rnd) n2 (net ++ [.ctl (.thread n1.ctl.threads.length ch1), .ctl (.thread n1.ctl.threads.length ch2),
        .ctl (.thread n1.ctl.threads.length ch3)])).ctl.threads[n1.ctl.threads.length]? = some (.sync c') ∧ c'.pc = .done (some r) := by
  obtain ⟨net, g1, g2, g3, r', g4, g5, g6⟩ := C118_answered_partial (ex_polite rnd) () h1 h2 ho hdi hpl (fun m hm => ex_takes (hre m hm))
    (ex_heeds hm (by simp [hr])) hol hap hs hth hw
  refine ⟨net, g1, g2, ?_⟩
  have e2 : n2 = run (exHandle rnd) (start ()) (ops1 ++ .ctl (.sendSync m0) :: ops2) := by rw [run_append, ← h1, h2]
  have e3 : run (exHandle rnd) n2 net = run (exHandle rnd) (start ()) ((ops1 ++ .ctl (.sendSync m0) :: ops2) ++ net) := by rw [run_append, ← e2]
  have hask := (run_net (exHandle rnd) n2 g1).2
  have := log_all (ex_polite rnd) (fun m out => (u8 m 1 = 2 ∨ Readable m) → out = answer m) (fun x s m out hv hm hq => (ex_says rnd x s m out hv hm hq).2)
    (netInv_start ()) (by simp [start]) ((ops1 ++ .ctl (.sendSync m0) :: ops2) ++ net) (by rw [← e3, hask]; exact hpl) (by
      intro u bs hx
      rcases List.mem_append.1 hx with hx | hx
      · exact hol u bs hx
      · exact absurd hx (netOwn g1 u bs))
  rw [← e3] at this
  have he := this _ g4 hm
  simp only [hr, List.cons.injEq, and_true] at he
  subst he
  exact g6

/-! ### The software switch -/

/-- **C118 for the software switch**: None after a timeout, or the message that the agent sent when it handled the request. -/
theorem C118_agent_partial {o : Agent.Order} {rnd : Nat} {st : Agent.St} {ops1 ops2 : List (NOp Agent.St)} {m0 : Bytes} {n1 n2 : Net Agent.St} {c : SCall}
    {d : Option Bytes} (h1 : n1 = run (agentHandle o rnd) (start st) ops1) (h2 : n2 = run (agentHandle o rnd) n1 (.ctl (.sendSync m0) :: ops2))
    (ho : Open (ops1 ++ .ctl (.sendSync m0) :: ops2)) (hpl : ∀ m ∈ asked n2, Plain m) (hol : OwnLong (ops1 ++ .ctl (.sendSync m0) :: ops2))
    (hap : Apart (u32 m0 4) (ops1 ++ .ctl (.sendSync m0) :: ops2)) (hs : List.Sublist (withId (u32 m0 4) (asked n2)) [m0])
    (hth : n2.ctl.threads[n1.ctl.threads.length]? = some (.sync c)) (hd : c.pc = .done d) :
    (d = none ∧ c.byEvent = false) ∨ ∃ r, (m0, [r]) ∈ n2.log ∧ d = some r ∧ Answers m0 r :=
  C118_own_answer_partial (agent_polite o rnd) st h1 h2 ho hpl hol hap hs hth hd

/-! ### What goes wrong -/

/-- Full statement: a request that the standard wants answered gets its reply.  A barrier request, a request for the role, for the masks of asynchronous messages or for
queues, or a multipart request for anything but flows: whatever happens, `send_sync` to the example switch returns None, and only after the timeout. -/
theorem C118_unanswered_refuted {rnd : Nat} {ops1 ops2 : List (NOp Unit)} {m0 : Bytes} {n1 n2 : Net Unit} {c : SCall} {d : Option Bytes}
    (hm : u8 m0 1 = 20 ∨ u8 m0 1 = 22 ∨ u8 m0 1 = 24 ∨ u8 m0 1 = 26 ∨ (u8 m0 1 = 18 ∧ u16 m0 8 ≠ 1))
    (h1 : n1 = run (exHandle rnd) (start ()) ops1) (h2 : n2 = run (exHandle rnd) n1 (.ctl (.sendSync m0) :: ops2))
    (ho : Open (ops1 ++ .ctl (.sendSync m0) :: ops2)) (hpl : ∀ m ∈ asked n2, Plain m) (hol : OwnLong (ops1 ++ .ctl (.sendSync m0) :: ops2))
    (hap : Apart (u32 m0 4) (ops1 ++ .ctl (.sendSync m0) :: ops2)) (hs : List.Sublist (withId (u32 m0 4) (asked n2)) [m0])
    (hth : n2.ctl.threads[n1.ctl.threads.length]? = some (.sync c)) (hd : c.pc = .done d) :
    requires m0 ≠ none ∧ d = none ∧ c.byEvent = false := by
  obtain ⟨g1, g2⟩ := C92_unanswered_refuted m0 hm
  rcases C118_example_partial h1 h2 ho hpl hol hap hs hth hd with h | ⟨r, hr, _⟩
  · exact ⟨g1, h⟩
  · rw [g2] at hr; simp at hr

/-- A message that the parser does not take ends the loop of the example switch. -/
theorem ex_kill {rnd x : Nat} {n : Net Unit} {m : Bytes} {up : List Bytes} (hm : Plain m) (h2 : u8 m 1 ≠ 2) (hr : ¬ Readable m) (hu : n.up = m :: up) :
    (step (exHandle rnd) n (.switch x)).alive = false := by
  simp only [step]
  split
  · rw [hu]
    simp only [message_other x _ n.sw hm.1.1 hm.2, intercept_handle _ n.sw hm.1.1 h2, exHandle]
    cases hp : exProc rnd m with
    | error e => rfl
    | ok bs =>
      exfalso
      unfold exProc at hp
      simp only [Of13.bind_ok] at hp
      obtain ⟨msg, hq, _⟩ := hp
      exact hr ⟨msg, hq⟩
  · rename_i h; simpa using h

theorem dead_run (h : Handle σ) {n : Net σ} (ha : n.alive = false) (ops : List (NOp σ)) :
    (run h n ops).alive = false ∧ (run h n ops).log = n.log ∧ (run h n ops).sw = n.sw := by
  induction ops generalizing n with
  | nil => exact ⟨ha, rfl, rfl⟩
  | cons op ops ih =>
    have key : (step h n op).alive = false ∧ (step h n op).log = n.log ∧ (step h n op).sw = n.sw := by
      cases op with
      | ctl o => cases o <;> exact ⟨ha, rfl, rfl⟩
      | switch x => simp [step, ha]
      | own u bs => simp [step, ha]
      | deliver => simp only [step]; split <;> exact ⟨ha, rfl, rfl⟩
    obtain ⟨g1, g2, g3⟩ := ih key.1
    exact ⟨g1, g2.trans key.2.1, g3.trans key.2.2⟩

/-- Full statement: a request that the switch answers gets its reply, whatever other threads have sent before.  One message that the parser does not take, from any thread
of the controller, ends the loop of the example switch; every later `send_sync` returns None after its timeout. -/
theorem C118_dead_refuted {rnd x : Nat} {ops0 ops1 ops2 : List (NOp Unit)} {m m0 : Bytes} {up : List Bytes} {n0 n1 n2 : Net Unit} {c : SCall} {d : Option Bytes}
    (h0 : n0 = run (exHandle rnd) (start ()) ops0) (hu : n0.up = m :: up) (h2m : u8 m 1 ≠ 2) (hr : ¬ Readable m)
    (h1 : n1 = run (exHandle rnd) n0 (.switch x :: ops1)) (h2 : n2 = run (exHandle rnd) n1 (.ctl (.sendSync m0) :: ops2))
    (ho : Open (ops0 ++ .switch x :: ops1 ++ .ctl (.sendSync m0) :: ops2)) (hpl : ∀ m ∈ asked n2, Plain m)
    (hol : OwnLong (ops0 ++ .switch x :: ops1 ++ .ctl (.sendSync m0) :: ops2))
    (hap : Apart (u32 m0 4) (ops0 ++ .switch x :: ops1 ++ .ctl (.sendSync m0) :: ops2))
    (hs : List.Sublist (withId (u32 m0 4) (asked n2)) [m0]) (hnew : m0 ∉ asked n1)
    (hth : n2.ctl.threads[n1.ctl.threads.length]? = some (.sync c)) (hd : c.pc = .done d) :
    d = none ∧ c.byEvent = false := by
  have e1 : n1 = run (exHandle rnd) (start ()) (ops0 ++ .switch x :: ops1) := by rw [run_append, ← h0, h1]
  rcases C118_own_answer_partial (ex_polite rnd) () e1 h2 ho hpl hol hap hs hth hd with h | ⟨r, hl, _⟩
  · exact h
  · exfalso
    have hpre : ∀ l, (∃ ops, run (exHandle rnd) l ops = n2) → ∀ m ∈ asked l, Plain m := by
      rintro l ⟨ops, rfl⟩ m hm
      exact hpl m ((asked_run _ l ops).subset hm)
    have hpl0 := hpre n0 ⟨.switch x :: ops1 ++ .ctl (.sendSync m0) :: ops2, by rw [run_append, ← h1, h2]⟩
    have hpl1 := hpre n1 ⟨.ctl (.sendSync m0) :: ops2, h2.symm⟩
    have hi0 : NetInv n0 := h0 ▸ netInv_run (ex_polite rnd) (netInv_start ()) _ (h0 ▸ hpl0) (fun u bs hx => hol u bs (by simp [hx]))
    have hi1 : NetInv n1 := e1 ▸ netInv_run (ex_polite rnd) (netInv_start ()) _ (e1 ▸ hpl1) (fun u bs hx => hol u bs (by
      rcases List.mem_append.1 hx with hx | hx
      · simp [hx]
      · simp at hx; simp [hx]))
    have hm : Plain m := hpl0 m (by rw [hi0.asked, hu]; simp)
    have hk : n1.alive = false := by
      rw [h1]; exact (dead_run _ (ex_kill hm h2m hr hu) ops1).1
    have hlog : n2.log = n1.log := by rw [h2]; exact (dead_run _ hk _).2.1
    rw [hlog] at hl
    exact hnew (by rw [hi1.asked]; exact List.mem_append_left _ (List.mem_map.2 ⟨_, hl, rfl⟩))

/-- Checking ids in examples. -/
theorem distinct_of_check {h : Handle σ} {n : Net σ} {ops : List (NOp σ)}
    (hc : ∀ k, k < ops.length + 1 → (((run h n (ops.take k)).ctl.threads.map fun th => (outstanding th).map (·.1)).flatten).Nodup) : Distinct h n ops := by
  intro k
  by_cases hk : k < ops.length + 1
  · exact distinctIds_of_nodup (hc k hk)
  · have := hc ops.length (by omega)
    rw [List.take_length] at this
    rw [List.take_of_length_le (by omega)]
    exact distinctIds_of_nodup this

/-- A request for the features and a request for the configuration, with the same id. -/
def askFeatures : Bytes := [4, 5, 0, 8, 0, 0, 0, 7]
def askConfig : Bytes := [4, 7, 0, 8, 0, 0, 0, 7]

/-- The message arrives at the controller and is looked at. -/
def arrives : List (NOp σ) := [.deliver, .ctl .recvStep, .ctl .recvStep, .ctl .recvStep]

/-- Thread `i` of the controller moves. -/
def moves (i : Nat) : NOp σ := .ctl (.thread i go)

/-- The first call times out, the second one uses the same id. -/
def exReused : List (NOp Unit) :=
  [.ctl (.sendSync askFeatures), moves 0, .ctl (.thread 0 timedOut), moves 0, moves 0, .ctl (.sendSync askConfig), moves 1, .switch 0, .switch 0] ++ arrives ++
    [moves 1, moves 1, moves 1]

theorem ex_readable : Readable askFeatures ∧ Readable askConfig ∧ Readable [4, 20, 0, 8, 0, 0, 0, 9] := by
  have h : ∀ m ∈ [askFeatures, askConfig, [4, 20, 0, 8, 0, 0, 0, 9]], (Of13.parse m 0).toOption.isSome = true := by decide +kernel
  have key : ∀ m ∈ [askFeatures, askConfig, [4, 20, 0, 8, 0, 0, 0, 9]], Readable m := by
    intro m hm
    have := h m hm
    cases hp : Of13.parse m 0 with
    | ok msg => exact ⟨msg, hp⟩
    | error e => rw [hp] at this; cases this
  exact ⟨key _ (by simp), key _ (by simp), key _ (by simp)⟩

/-- Full statement: `send_sync` returns the reply to its own request.  A call times out; a later call uses its id, at a time when no other request is outstanding; the late
reply to the first request is returned as the reply to the second. -/
theorem C118_reused_refuted : ∃ (ops : List (NOp Unit)) (c : SCall) (r : Bytes), Open ops ∧ Distinct (exHandle 0) (start ()) ops ∧
    (∀ m ∈ asked (run (exHandle 0) (start ()) ops), Plain m ∧ Readable m) ∧
    (run (exHandle 0) (start ()) ops).ctl.threads[1]? = some (.sync c) ∧ c.msg = askConfig ∧ c.byEvent = true ∧ c.pc = .done (some r) ∧
    [r] = answer askFeatures ∧ ¬ Answers askConfig r := by
  refine ⟨exReused, ⟨7, 1, .done (answer askFeatures).head?, true, askConfig⟩, (answer askFeatures).head (by decide),
    by unfold Open exReused arrives moves; simp, distinct_of_check (by decide +kernel), ?_, by decide +kernel, rfl, rfl, by decide, by decide, ?_⟩
  · have e : asked (run (exHandle 0) (start ()) exReused) = [askFeatures, askConfig] := by decide +kernel
    rw [e]
    intro m hm
    simp only [List.mem_cons, List.not_mem_nil, or_false] at hm
    rcases hm with rfl | rfl
    · exact ⟨⟨⟨by decide, by decide⟩, by decide⟩, ex_readable.1⟩
    · exact ⟨⟨⟨by decide, by decide⟩, by decide⟩, ex_readable.2.1⟩
  · rintro ⟨t, h1, h2, _⟩
    have ht : t = 8 := by
      have : requires askConfig = some 8 := by decide
      rw [this] at h1; injection h1 with h1; exact h1.symm
    have := h2.2.2.1
    rw [ht] at this
    exact absurd this (by decide)

/-- The software switch after a port was added. -/
def portAdded : Agent.St × List Agent.Eff × Py Agent.Ret :=
  Agent.addPort 0 ⟨[], [], 0⟩ [101, 48] [48, 49, 48, 50, 48, 51, 48, 52, 48, 53, 48, 54] true (some none)

def exStatus : List (NOp Agent.St) :=
  [.ctl (.sendSync [4, 5, 0, 8, 0, 0, 0, 0]), moves 0,
    .own portAdded.1 (portAdded.2.1.filterMap (fun | .send m => some m | .out .. => none))] ++ arrives ++ [moves 0, moves 0, moves 0]

/-- Full statement: also with messages that the switch sends on its own.  The software switch announces a new port in a message with id 0 (bess_of_agent.py L231-234); a
request with id 0, which `hms_xid` gives at midnight, gets this message as its reply, though the switch has not even seen the request. -/
theorem C118_status_refuted : ∃ (ops : List (NOp Agent.St)) (c : SCall) (r : Bytes), Open ops ∧ Distinct (agentHandle Agent.inserted 0) (start ⟨[], [], 0⟩) ops ∧
    (∀ u bs, NOp.own u bs ∈ ops → (u, bs.map Agent.Eff.send) = (portAdded.1, portAdded.2.1)) ∧ portAdded.2.2 = .ok (.added 1) ∧
    (run (agentHandle Agent.inserted 0) (start ⟨[], [], 0⟩) ops).ctl.threads[0]? = some (.sync c) ∧ c.byEvent = true ∧ c.pc = .done (some r) ∧
    u8 c.msg 1 = 5 ∧ u8 r 1 = 12 ∧ (run (agentHandle Agent.inserted 0) (start ⟨[], [], 0⟩) ops).log = [] := by
  refine ⟨exStatus, ⟨0, 0, .done (portAdded.2.1.filterMap (fun | .send m => some m | .out .. => none)).head?, true, [4, 5, 0, 8, 0, 0, 0, 0]⟩,
    (portAdded.2.1.filterMap (fun | .send m => some m | .out .. => none)).head (by decide +kernel),
    by unfold Open exStatus arrives moves; simp, distinct_of_check (by decide +kernel), ?_, by decide +kernel, by decide +kernel, rfl, by decide +kernel,
    by decide +kernel, by decide +kernel, by decide +kernel⟩
  intro u bs hm
  unfold exStatus arrives moves at hm
  simp only [List.mem_append, List.mem_cons, NOp.own.injEq, reduceCtorEq, List.not_mem_nil, or_false, false_or] at hm
  obtain ⟨rfl, rfl⟩ := hm
  decide +kernel

/-! ### Examples -/

/-- Two threads ask at the same time; a port is announced in between. -/
def exTwo : List (NOp Unit) := [.ctl (.sendSync [4, 20, 0, 8, 0, 0, 0, 9]), moves 0, .own () [[4, 12, 0, 8, 0, 0, 0, 0]]]

/-- The hypotheses of `C118_example_answered_partial` are met: the request waits, nothing has been handled yet. -/
example : ∃ c, (run (exHandle 0) (run (exHandle 0) (start ()) exTwo) [.ctl (.sendSync askFeatures), moves 1]).ctl.threads[1]? = some (.sync c) ∧
    c.pc = .waiting ∧ Open (exTwo ++ [.ctl (.sendSync askFeatures), moves 1]) ∧
    Distinct (exHandle 0) (start ()) (exTwo ++ [.ctl (.sendSync askFeatures), moves 1]) ∧
    (∀ m ∈ asked (run (exHandle 0) (run (exHandle 0) (start ()) exTwo) [.ctl (.sendSync askFeatures), moves 1]), Plain m ∧ Readable m) ∧
    OwnLong (exTwo ++ [.ctl (.sendSync askFeatures), moves 1]) ∧ Apart 7 (exTwo ++ [.ctl (.sendSync askFeatures), moves 1]) ∧
    withId 7 (asked (run (exHandle 0) (run (exHandle 0) (start ()) exTwo) [.ctl (.sendSync askFeatures), moves 1])) = [askFeatures] ∧
    (answer askFeatures).length = 1 := by
  refine ⟨⟨7, 1, .waiting, false, askFeatures⟩, by decide +kernel, rfl, by unfold Open exTwo moves; simp, distinct_of_check (by decide +kernel), ?_,
    by unfold OwnLong exTwo moves; simp, by unfold Apart exTwo moves; simp; decide, by decide +kernel, by decide⟩
  have e : asked (run (exHandle 0) (run (exHandle 0) (start ()) exTwo) [.ctl (.sendSync askFeatures), moves 1]) =
      [[4, 20, 0, 8, 0, 0, 0, 9], askFeatures] := by decide +kernel
  rw [e]
  intro m hm
  simp only [List.mem_cons, List.not_mem_nil, or_false] at hm
  rcases hm with rfl | rfl
  · exact ⟨⟨⟨by decide, by decide⟩, by decide⟩, ex_readable.2.2⟩
  · exact ⟨⟨⟨by decide, by decide⟩, by decide⟩, ex_readable.1⟩

/-- The whole run: the barrier request is not answered, the request for the features is. -/
example : (run (exHandle 0) (start ()) (exTwo ++ [.ctl (.sendSync askFeatures), moves 1, .switch 0, .switch 0] ++ arrives ++ arrives ++
    [moves 1, moves 1, moves 1])).ctl.threads = [.sync ⟨9, 0, .waiting, false, [4, 20, 0, 8, 0, 0, 0, 9]⟩,
      .sync ⟨7, 1, .done (answer askFeatures).head?, true, askFeatures⟩] := by decide +kernel

/-- A run for `C118_dead_refuted`: a message of another version. -/
example : ¬ Readable [1, 5, 0, 8, 0, 0, 0, 3] ∧ (run (exHandle 0) (start ()) [.ctl (.sendSync [1, 5, 0, 8, 0, 0, 0, 3]), moves 0]).up = [[1, 5, 0, 8, 0, 0, 0, 3]] ∧
    (run (exHandle 0) (start ()) ([.ctl (.sendSync [1, 5, 0, 8, 0, 0, 0, 3]), moves 0, .switch 0, .ctl (.sendSync askFeatures), moves 1, .switch 0, .deliver,
      .ctl (.thread 1 timedOut), moves 1, moves 1])).ctl.threads[1]? = some (.sync ⟨7, 1, .done none, false, askFeatures⟩) :=
  ⟨by
    rintro ⟨msg, h⟩
    rw [not_readable (by decide) (by decide)] at h
    exact absurd h (by simp), by decide +kernel, by decide +kernel⟩

end Twink.Wired
