import Verif.Proof.Framing

/-! # Properties C01–C05: framing -/

namespace Twink
open Spec

/-- **C01.** Whatever the split into reads and however many timeouts: exactly the sent messages are delivered, in order;
an incomplete rest stays buffered; iteration ends only at end of stream (otherwise the reader waits). -/
theorem C01_framing_split_independent (msgs : List Bytes) (tail : Bytes) (evs : List Ev)
    (hwf : ∀ m ∈ msgs, WellFormed m) (htail : ¬ Complete tail)
    (hev : ∀ e ∈ evs, IsChunk e ∨ IsWait e)
    (hsum : carried evs = msgs.flatten ++ tail) (n : Nat) (hn : msgs.length < n) :
    (∀ eof rest, IsEmptyRead eof → iterate n [] (evs ++ eof :: rest) = ⟨msgs, tail, rest, .stopped⟩) ∧
    iterate n [] evs = ⟨msgs, tail, [], .blocked⟩ := by
  have key : ∀ (msgs : List Bytes) (buf : Bytes) (evs : List Ev) (n : Nat), (∀ m ∈ msgs, WellFormed m) →
      (∀ e ∈ evs, Good e) → buf ++ carried evs = msgs.flatten ++ tail → msgs.length < n →
      (∀ eof rest, IsEmptyRead eof → iterate n buf (evs ++ eof :: rest) = ⟨msgs, tail, rest, .stopped⟩) ∧
      iterate n buf evs = ⟨msgs, tail, [], .blocked⟩ := by
    intro msgs
    induction msgs with
    | nil =>
      intro buf evs n _ hg hs hn
      match n, hn with
      | n + 1, _ =>
        have hs' : buf ++ carried evs = tail := by simpa using hs
        constructor
        · intro eof rest he
          rcases recv_good buf evs (eof :: rest) hg with ⟨hc, _⟩ | ⟨_, h⟩
          · rw [hs'] at hc; exact absurd hc htail
          · rw [hs', recv_empty tail eof rest htail he] at h
            simp [iterate, h]
        · rcases recv_good buf evs [] hg with ⟨hc, _⟩ | ⟨_, h⟩
          · rw [hs'] at hc; exact absurd hc htail
          · rw [hs', recv_nil tail htail, List.append_nil] at h
            simp [iterate, h]
    | cons m msgs ih =>
      intro buf evs n hwf hg hs hn
      have hm : WellFormed m := hwf m (by simp)
      match n, hn with
      | n + 1, hn =>
        have hs' : buf ++ carried evs = m ++ (msgs.flatten ++ tail) := by simpa using hs
        have ha : announced (buf ++ carried evs) = m.length := by
          rw [hs', announced_append _ _ (by have := hm.1; omega)]; exact hm.2
        have hcomp : Complete (buf ++ carried evs) := by
          refine ⟨?_, ?_⟩
          · rw [hs']; have := hm.1; simp; omega
          · rw [ha, hs']; simp
        have step : ∀ tl, ∃ buf' rest, (∀ e ∈ rest, Good e) ∧
            recv buf (evs ++ tl) = .ret m buf' (rest ++ tl) ∧ buf' ++ carried rest = msgs.flatten ++ tail := by
          intro tl
          rcases recv_good buf evs tl hg with ⟨_, used, rest, buf', h1, h2, h3⟩ | ⟨hc, _⟩
          · refine ⟨buf', rest, fun e he => hg e (by simp [h1, he]), ?_, ?_⟩
            · rw [h2, ha, hs']; simp
            · rw [h3, ha, hs']; simp
          · exact absurd hcomp hc
        have hne : ∃ x m', m = x :: m' := by
          cases m with
          | nil => have := hm.1; simp at this
          | cons x m' => exact ⟨x, m', rfl⟩
        obtain ⟨x, m', rfl⟩ := hne
        constructor
        · intro eof rest he
          obtain ⟨buf', rest', h1, h2, h3⟩ := step (eof :: rest)
          have := (ih buf' rest' n (fun a ha => hwf a (by simp [ha])) h1 h3 (by simp at hn; omega)).1 eof rest he
          simp [iterate, h2, this]
        · obtain ⟨buf', rest', h1, h2, h3⟩ := step []
          simp only [List.append_nil] at h2
          have := (ih buf' rest' n (fun a ha => hwf a (by simp [ha])) h1 h3 (by simp at hn; omega)).2
          simp [iterate, h2, this]
  exact key msgs [] evs n hwf hev (by simpa using hsum) hn

/-- Non-vacuity of C01: a hello and an echo request, cut in the middle of the first header, with timeouts. -/
example :
    let m1 : Bytes := [4, 0, 0, 8, 0, 0, 0, 1]
    let m2 : Bytes := [4, 2, 0, 10, 0, 0, 0, 2, 7, 7]
    let evs : List Ev := [.raw (.data [4, 0, 0]), .raw .timeout, .raw (.data ([8, 0, 0, 0, 1, 4, 2, 0, 10, 0])),
      .raw (.sockErr .eintr), .raw (.data [0, 0, 2, 7, 7])]
    (∀ m ∈ [m1, m2], WellFormed m) ∧ ¬ Complete [] ∧ (∀ e ∈ evs, IsChunk e ∨ IsWait e) ∧
      carried evs = [m1, m2].flatten ++ [] := by
  refine ⟨by simp [WellFormed, announced], by simp [Complete], ?_, rfl⟩
  simp [IsChunk, IsWait]

/-- **C02.** Nothing is lost, duplicated or invented: what was returned, followed by the buffer, is the initial buffer followed
by what the transport delivered — after any number of `recv()` calls, for arbitrary streams and transport behaviour. -/
theorem C02_recv_conserves_bytes (n : Nat) (buf : Bytes) (evs : List Ev) :
    ∃ used, evs = used ++ (recvs n buf evs).rest ∧
      (recvs n buf evs).out.flatten ++ (recvs n buf evs).buf = buf ++ carried used := by
  induction n generalizing buf evs with
  | zero => exact ⟨[], by simp [recvs], by simp [recvs]⟩
  | succ n ih =>
    have hs := recv_spec buf evs
    match hr : recv buf evs with
    | .blocked b =>
      rw [hr] at hs; simp only [recvs, hr]
      exact ⟨evs, by simp, by simp [hs.1]⟩
    | .raised e b r =>
      rw [hr] at hs; simp only [recvs, hr]
      obtain ⟨used, h1, h2⟩ := hs
      exact ⟨used, h1, by simp [h2]⟩
    | .ret m b r =>
      rw [hr] at hs; simp only [recvs, hr]
      obtain ⟨used, h1, h2, _⟩ := hs
      obtain ⟨used2, k1, k2⟩ := ih b r
      refine ⟨used ++ used2, ?_, ?_⟩
      · rw [List.append_assoc, ← k1, h1]
      · simp only [List.flatten_cons, List.append_assoc, k2, carried_append]
        rw [← List.append_assoc, h2, List.append_assoc]

/-- The same conservation law for iteration (`for message in channel`). -/
theorem C02_iterate_conserves_bytes (n : Nat) (buf : Bytes) (evs : List Ev) :
    ∃ used, evs = used ++ (iterate n buf evs).rest ∧
      (iterate n buf evs).out.flatten ++ (iterate n buf evs).buf = buf ++ carried used := by
  induction n generalizing buf evs with
  | zero => exact ⟨[], by simp [iterate], by simp [iterate]⟩
  | succ n ih =>
    have hs := recv_spec buf evs
    match hr : recv buf evs with
    | .blocked b =>
      rw [hr] at hs; simp only [iterate, hr]
      exact ⟨evs, by simp, by simp [hs.1]⟩
    | .raised e b r =>
      rw [hr] at hs; simp only [iterate, hr]
      obtain ⟨used, h1, h2⟩ := hs
      exact ⟨used, h1, by simp [h2]⟩
    | .ret [] b r =>
      rw [hr] at hs; simp only [iterate, hr]
      obtain ⟨used, h1, h2, _⟩ := hs
      exact ⟨used, h1, by simpa using h2⟩
    | .ret (x :: m) b r =>
      rw [hr] at hs; simp only [iterate, hr]
      obtain ⟨used, h1, h2, _⟩ := hs
      obtain ⟨used2, k1, k2⟩ := ih b r
      refine ⟨used ++ used2, ?_, ?_⟩
      · rw [List.append_assoc, ← k1, h1]
      · simp only [List.flatten_cons, List.append_assoc, k2, carried_append]
        rw [← List.append_assoc, h2, List.append_assoc]

/-- **C03.** A returned message of at least header size has exactly the length it announces, and the transport was read only
while no complete message was buffered. -/
theorem C03_delivery_is_exact (buf : Bytes) (evs : List Ev) (m buf' : Bytes) (rest : List Ev)
    (h : recv buf evs = .ret m buf' rest) (hm : 8 ≤ m.length) :
    WellFormed m ∧ ∃ used, evs = used ++ rest ∧ m ++ buf' = buf ++ carried used ∧
      ∀ p q, used = p ++ q → q ≠ [] → ¬ Complete (buf ++ carried p) := by
  have hs := recv_spec buf evs
  rw [h] at hs
  obtain ⟨used, h1, h2, h3⟩ := hs
  have hne : m ≠ [] := by intro e; subst e; simp at hm
  obtain ⟨k1, k2, k3⟩ := h3 hne
  refine ⟨⟨hm, ?_⟩, used, h1, h2, k1⟩
  rw [k2, ← h2, announced_append _ _ (by omega)]

/-- **C03**, converse direction: a complete buffered message is delivered at once, without reading. -/
theorem C03_no_read_when_complete (buf : Bytes) (evs : List Ev) (h : Complete buf) :
    ∃ m, recv buf evs = .ret m (buf.drop m.length) evs ∧ buf = m ++ buf.drop m.length ∧ m.length = announced buf := by
  refine ⟨buf.take (announced buf), ?_, ?_, ?_⟩
  · rw [recv_complete buf evs h]; congr 1
    rw [List.length_take, Nat.min_eq_left h.2]
  · rw [List.length_take, Nat.min_eq_left h.2]; simp
  · rw [List.length_take, Nat.min_eq_left h.2]

example : Complete [4, 2, 0, 9, 0, 0, 0, 1, 5, 4] ∧
    recv [4, 2, 0] [.raw (.data [9, 0, 0, 0, 1]), .raw (.data [5, 4])] = .ret [4, 2, 0, 9, 0, 0, 0, 1, 5] [4] [] := by
  refine ⟨by simp [Complete, announced], by decide⟩

/-- **C04.** Empty reads anywhere (mid-header, mid-body, between messages) do not corrupt framing: a caller that keeps calling
`recv()` gets a prefix of the message sequence at any time, and all of it after enough calls. -/
theorem C04_empty_reads_are_harmless (msgs : List Bytes) (tail : Bytes) (evs : List Ev)
    (hwf : ∀ m ∈ msgs, WellFormed m) (htail : ¬ Complete tail)
    (hev : ∀ e ∈ evs, IsChunk e ∨ IsWait e ∨ IsEmptyRead e)
    (hsum : carried evs = msgs.flatten ++ tail) (n : Nat) :
    (recvs n [] evs).out.filter (· ≠ []) <+: msgs ∧
    (msgs.length + evs.length < n →
      (recvs n [] evs).out.filter (· ≠ []) = msgs ∧ (recvs n [] evs).buf = tail ∧ (recvs n [] evs).status = .blocked) := by
  have splitE : ∀ evs : List Ev, (∀ e ∈ evs, IsChunk e ∨ IsWait e ∨ IsEmptyRead e) →
      ∃ g tl, evs = g ++ tl ∧ (∀ e ∈ g, Good e) ∧ (tl = [] ∨ ∃ e tl', tl = e :: tl' ∧ IsEmptyRead e) := by
    intro evs
    induction evs with
    | nil => intro _; exact ⟨[], [], by simp⟩
    | cons e evs ih =>
      intro h
      rcases h e (by simp) with h1 | h1 | h1
      · obtain ⟨g, tl, a, b, c⟩ := ih (fun x hx => h x (by simp [hx]))
        refine ⟨e :: g, tl, by simp [a], ?_, c⟩
        intro x hx; rcases List.mem_cons.1 hx with rfl | hx
        · exact .inl h1
        · exact b x hx
      · obtain ⟨g, tl, a, b, c⟩ := ih (fun x hx => h x (by simp [hx]))
        refine ⟨e :: g, tl, by simp [a], ?_, c⟩
        intro x hx; rcases List.mem_cons.1 hx with rfl | hx
        · exact .inr h1
        · exact b x hx
      · exact ⟨[], e :: evs, by simp, by simp, .inr ⟨e, evs, rfl, h1⟩⟩
  have key : ∀ (n : Nat) (msgs : List Bytes) (buf : Bytes) (evs : List Ev), (∀ m ∈ msgs, WellFormed m) →
      (∀ e ∈ evs, IsChunk e ∨ IsWait e ∨ IsEmptyRead e) → buf ++ carried evs = msgs.flatten ++ tail →
      (recvs n buf evs).out.filter (· ≠ []) <+: msgs ∧
      (msgs.length + evs.length < n →
        (recvs n buf evs).out.filter (· ≠ []) = msgs ∧ (recvs n buf evs).buf = tail ∧
        (recvs n buf evs).status = .blocked) := by
    intro n
    induction n with
    | zero => intro msgs buf evs _ _ _; simp [recvs]
    | succ n ih =>
      intro msgs buf evs hwf hev hs
      obtain ⟨g, tl, e1, hg, htl⟩ := splitE evs hev
      rcases recv_good buf g tl hg with ⟨hc, used, rest, buf', h1, h2, h3⟩ | ⟨hc, h2⟩
      · -- a message is delivered
        cases msgs with
        | nil =>
          exfalso
          have : buf ++ carried g ++ carried tl = tail := by simpa [e1] using hs
          apply htail
          rw [← this]
          refine ⟨?_, ?_⟩
          · have := hc.1; simp only [List.length_append] at *; omega
          · have h8 := hc.1; have := hc.2
            rw [announced_append _ _ (by omega)]; simp only [List.length_append] at *; omega
        | cons m msgs =>
          have hm : WellFormed m := hwf m (by simp)
          have hs' : (buf ++ carried g) ++ carried tl = m ++ (msgs.flatten ++ tail) := by simpa [e1] using hs
          have ha : announced (buf ++ carried g) = m.length := by
            have h8 := hc.1
            rw [← announced_append (buf ++ carried g) (carried tl) (by omega), hs',
              announced_append _ _ (by have := hm.1; omega)]; exact hm.2
          have hlen : m.length ≤ (buf ++ carried g).length := by rw [← ha]; exact hc.2
          have htake : (buf ++ carried g).take m.length = m := by
            have := congrArg (List.take m.length) hs'
            rw [List.take_append_of_le_length hlen] at this
            simpa using this
          have hdrop : (buf ++ carried g).drop m.length ++ carried tl = msgs.flatten ++ tail := by
            have := congrArg (List.drop m.length) hs'
            rw [List.drop_append_of_le_length hlen] at this
            simpa using this
          rw [ha, htake] at h2
          rw [ha] at h3
          have := ih msgs buf' (rest ++ tl) (fun a h => hwf a (by simp [h]))
            (fun e he => hev e (by rw [e1, h1]; simp at he ⊢; rcases he with h | h <;> simp [h]))
            (by rw [carried_append, ← List.append_assoc, h3, hdrop])
          have hne : m ≠ [] := by intro h; subst h; have := hm.1; simp at this
          have hlen2 : (rest ++ tl).length ≤ evs.length := by rw [e1, h1]; simp
          rw [e1]; simp only [recvs, h2]
          rw [List.filter_cons_of_pos (by simpa using hne)]
          refine ⟨(List.cons_prefix_cons).2 ⟨rfl, this.1⟩, fun hn => ?_⟩
          have := this.2 (by rw [e1] at hlen2; simp at hn hlen2 ⊢; omega)
          exact ⟨by rw [this.1], this.2⟩
      · rcases htl with rfl | ⟨e, tl', rfl, he⟩
        · -- no more events: waits
          simp only [List.append_nil] at e1 h2
          subst e1
          have hm : msgs = [] := by
            cases msgs with
            | nil => rfl
            | cons m msgs =>
              exfalso; apply hc
              have hm : WellFormed m := hwf m (by simp)
              rw [hs]
              refine ⟨by have := hm.1; simp; omega, ?_⟩
              simp only [List.flatten_cons, List.append_assoc]
              rw [announced_append _ _ (by have := hm.1; omega), hm.2]; simp
          subst hm
          have hb : buf ++ carried evs = tail := by simpa using hs
          rw [hb, recv_nil tail htail] at h2
          simp [recvs, h2]
        · rw [recv_empty _ _ _ hc he] at h2
          have := ih msgs (buf ++ carried g) tl' hwf (fun x hx => hev x (by rw [e1]; simp [hx]))
            (by rw [← hs, e1]; simp [(chanRead_empty he).2])
          rw [e1]; simp only [recvs, h2]
          rw [List.filter_cons_of_neg (by simp)]
          refine ⟨this.1, fun hn => this.2 (by simp at hn ⊢; omega)⟩
  exact key n msgs [] evs hwf hev (by simpa using hsum)

/-- Non-vacuity of C04: an empty read in the middle of a header. -/
example :
    let evs : List Ev := [.raw (.data [4, 0, 0]), .raw (.sockErr .eagain), .raw (.data [8, 0, 0, 0, 1])]
    (∀ e ∈ evs, IsChunk e ∨ IsWait e ∨ IsEmptyRead e) ∧ carried evs = [[4, 0, 0, 8, 0, 0, 0, 1]].flatten ++ [] ∧
    (recvs 2 [] evs).out = [[], [4, 0, 0, 8, 0, 0, 0, 1]] := by
  refine ⟨by simp [IsChunk, IsWait, IsEmptyRead], rfl, by decide⟩

/-- **C05 is false of the code**: a header that announces 3 bytes makes `recv()` return a 3-byte fragment, whose header
cannot be unpacked. -/
theorem C05_refuted_fragment :
    ∃ (evs : List Ev) (m buf' : Bytes), (∀ e ∈ evs, IsChunk e) ∧ recv [] evs = .ret m buf' [] ∧ m ≠ [] ∧
      m.length < 8 ∧ parseHeader m = .error .structError :=
  ⟨[.raw (.data [4, 2, 0, 3, 0, 0, 0, 1])], [4, 2, 0], [3, 0, 0, 0, 1],
    by simp [IsChunk], by decide, by decide, by decide, by decide⟩

/-- **C05 is false of the code**, second way: once a header announces length 0, every further `recv()` reports "no message"
without reading and without making progress, although data is buffered and the transport is open; `for message in channel`
stops as if the peer had closed. -/
theorem C05_refuted_zero_length (buf : Bytes) (evs : List Ev) (h8 : 8 ≤ buf.length) (h0 : announced buf = 0) (n : Nat) :
    recvs n buf evs = ⟨List.replicate n [], buf, evs, .running⟩ ∧
    iterate (n + 1) buf evs = ⟨[], buf, evs, .stopped⟩ := by
  have hr : recv buf evs = .ret [] buf evs := by
    rw [recv_complete buf evs ⟨h8, by omega⟩, h0]; simp
  constructor
  · induction n with
    | zero => simp [recvs]
    | succ n ih => simp [recvs, hr, ih, List.replicate_succ]
  · simp [iterate, hr]

example : 8 ≤ ([4, 2, 0, 0, 0, 0, 0, 1, 99] : Bytes).length ∧ announced [4, 2, 0, 0, 0, 0, 0, 1, 99] = 0 := by
  simp [announced]

/-- **C05, provable part.** If the header at the front of the received bytes announces at least 8 bytes, then `recv()` returns
at least a header, or nothing, and the latter only after an empty read; missing for the full claim: announced lengths 0..7
(see `C05_refuted_fragment`, `C05_refuted_zero_length`). -/
theorem C05_no_short_fragment_partial (buf : Bytes) (evs : List Ev) (m buf' : Bytes) (rest : List Ev)
    (h : recv buf evs = .ret m buf' rest)
    (hann : ∀ used, evs = used ++ rest → 8 ≤ (buf ++ carried used).length → 8 ≤ announced (buf ++ carried used)) :
    (8 ≤ m.length ∧ ∃ v t l x, parseHeader m = .ok (v, t, l, x)) ∨
    (m = [] ∧ ∃ used e, evs = used ++ e :: rest ∧ IsEmptyRead e) := by
  have hs := recv_spec buf evs
  rw [h] at hs
  obtain ⟨used, h1, h2, h3⟩ := hs
  by_cases hm : m = []
  · right; refine ⟨hm, ?_⟩
    -- inspect the two read loops
    have f1 := fill_spec 8 buf evs
    match hf : fill 8 buf evs with
    | .blocked b => simp [recv, hf] at h
    | .raised e b r => simp [recv, hf] at h
    | .empty b r =>
      rw [hf] at f1
      simp only [recv, hf, Recv.ret.injEq] at h
      obtain ⟨u, e, a1, a2, _⟩ := f1
      exact ⟨u, e, by rw [a1, h.2.2], a2⟩
    | .full b r =>
      rw [hf] at f1
      obtain ⟨u, a1, a2, a3, a4⟩ := f1
      obtain ⟨v, t, x, hp⟩ := parseHeader_ok _ a3
      have f2 := fill_spec (announced b) b r
      simp only [recv, hf, hp] at h
      match hf2 : fill (announced b) b r with
      | .blocked b' => simp [hf2] at h
      | .raised e b' r' => simp [hf2] at h
      | .empty b' r' =>
        rw [hf2] at f2
        simp only [hf2, Recv.ret.injEq] at h
        obtain ⟨u2, e, c1, c2, _⟩ := f2
        exact ⟨u ++ u2, e, by rw [a1, c1, h.2.2]; simp, c2⟩
      | .full b' r' =>
        exfalso
        rw [hf2] at f2
        obtain ⟨u2, c1, c2, c3, _⟩ := f2
        simp only [hf2, Recv.ret.injEq] at h
        have hb' : b' = buf ++ carried (u ++ u2) := by simp [c2, a2]
        have := hann (u ++ u2) (by rw [a1, c1, h.2.2]; simp) (by rw [← hb', c2]; simp; omega)
        rw [← hb', c2, announced_append _ _ (by omega)] at this
        have hl := congrArg List.length h.1
        rw [hm] at hl
        simp [slice] at hl
        rcases hl with hl | hl
        · omega
        · subst hl; simp at c3; omega
  · left
    obtain ⟨_, k2, k3⟩ := h3 hm
    have h8 : 8 ≤ m.length := by rw [k2]; exact hann used h1 k3
    obtain ⟨v, t, x, hp⟩ := parseHeader_ok m h8
    exact ⟨h8, v, t, _, x, hp⟩

/-- **C05, exactly.** `recv()` returns either nothing, after an empty read, or, once a whole header is there, as many bytes as that header
announces. So what it returns is a fragment shorter than a header just if 1 to 7 bytes are announced, and nothing without an empty
read just if 0 are. -/
theorem C05_exact (buf : Bytes) (evs : List Ev) (m buf' : Bytes) (rest : List Ev) (h : recv buf evs = .ret m buf' rest) :
    (m = [] ∧ ∃ used e, evs = used ++ e :: rest ∧ IsEmptyRead e) ∨
    (∃ used, evs = used ++ rest ∧ 8 ≤ (buf ++ carried used).length ∧ m.length = announced (buf ++ carried used) ∧
      m ++ buf' = buf ++ carried used) := by
  have f1 := fill_spec 8 buf evs
  match hf : fill 8 buf evs with
  | .blocked b => simp [recv, hf] at h
  | .raised e b r => simp [recv, hf] at h
  | .empty b r =>
    rw [hf] at f1
    simp only [recv, hf, Recv.ret.injEq] at h
    obtain ⟨u, e, a1, a2, _⟩ := f1
    exact .inl ⟨h.1.symm, u, e, by rw [a1, h.2.2], a2⟩
  | .full b r =>
    rw [hf] at f1
    obtain ⟨u, a1, a2, a3, a4⟩ := f1
    obtain ⟨v, t, x, hp⟩ := parseHeader_ok _ a3
    have f2 := fill_spec (announced b) b r
    simp only [recv, hf, hp] at h
    match hf2 : fill (announced b) b r with
    | .blocked b' => simp [hf2] at h
    | .raised e b' r' => simp [hf2] at h
    | .empty b' r' =>
      rw [hf2] at f2
      simp only [hf2, Recv.ret.injEq] at h
      obtain ⟨u2, e, c1, c2, _⟩ := f2
      exact .inl ⟨h.1.symm, u ++ u2, e, by rw [a1, c1, h.2.2]; simp, c2⟩
    | .full b' r' =>
      rw [hf2] at f2
      obtain ⟨u2, c1, c2, c3, _⟩ := f2
      simp only [hf2, Recv.ret.injEq] at h
      have hb' : b' = buf ++ carried (u ++ u2) := by simp [c2, a2]
      obtain ⟨rfl, rfl, rfl⟩ := h
      refine .inr ⟨u ++ u2, by rw [a1, c1]; simp, by rw [← hb', c2]; simp; omega, ?_, by rw [← hb']; simp [slice]⟩
      rw [← hb', c2, announced_append _ _ (by omega), ← c2]
      simp [slice]; omega

example : recv [] [.raw (.data [4, 2, 0, 8, 0, 0, 0, 1])] = .ret [4, 2, 0, 8, 0, 0, 0, 1] [] [] ∧
    ∀ used, [Ev.raw (.data [4, 2, 0, 8, 0, 0, 0, 1])] = used ++ [] → 8 ≤ (([] : Bytes) ++ carried used).length →
      8 ≤ announced ([] ++ carried used) := by
  refine ⟨by decide, ?_⟩
  intro used h _
  rw [List.append_nil] at h
  subst h
  simp [carried, payload, announced]

end Twink
