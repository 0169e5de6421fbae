import Verif.Spec.Sending
import Verif.Props.Framing

/-! # From sender to receiver (C68) -/

namespace Twink

open Spec

theorem chanSends_whole (l : List (Bytes × Sent)) (h : ∀ x ∈ l, Whole x) (stream : Bytes) :
    chanSends stream l = stream ++ (sentOf l).flatten := by
  induction l generalizing stream with
  | nil => simp [chanSends, sentOf]
  | cons x l ih =>
    obtain ⟨m, r⟩ := x
    have hx := h _ (List.mem_cons_self ..)
    rw [chanSends, ih fun y hy => h y (by simp [hy])]
    cases r with
    | accepts n =>
      have : n = m.length := hx
      simp [chanSend, sentOf, this]
    | raises e => simp [chanSend, sentOf]

/-- C68 if `socket.send` always takes the whole message or raises: the receiver gets exactly the messages whose `send` did not raise, in order,
however the transport cuts the stream and whatever timeouts occur. (Partial: the code does not handle partial sends,
`C68_refuted`.) -/
theorem C68_partial (l : List (Bytes × Sent)) (hm : ∀ m ∈ sentOf l, WellFormed m) (hw : ∀ x ∈ l, Whole x) (evs : List Ev)
    (hev : ∀ e ∈ evs, IsChunk e ∨ IsWait e) (hs : carried evs = chanSends [] l) (n : Nat) (hn : (sentOf l).length < n) :
    (∀ eof rest, IsEmptyRead eof → iterate n [] (evs ++ eof :: rest) = ⟨sentOf l, [], rest, .stopped⟩) ∧
    iterate n [] evs = ⟨sentOf l, [], [], .blocked⟩ :=
  C01_framing_split_independent (sentOf l) [] evs hm (by simp [Complete]) hev (by rw [hs, chanSends_whole l hw]; simp) n hn

theorem chanSends_length (l : List (Bytes × Sent)) (h : ∀ x ∈ l, Lawful x) (stream : Bytes) :
    (chanSends stream l).length ≤ stream.length + (sentOf l).flatten.length := by
  induction l generalizing stream with
  | nil => simp [chanSends, sentOf]
  | cons x l ih =>
    obtain ⟨m, r⟩ := x
    have hx := h _ (List.mem_cons_self ..)
    have := ih (fun y hy => h y (by simp [hy])) (chanSend stream m r).1
    cases r with
    | accepts n =>
      have hn : 1 ≤ n ∧ n ≤ m.length := hx
      simp only [chanSends, chanSend, sentOf, List.filterMap_cons, List.flatten_cons, List.length_append, List.length_take] at this ⊢
      omega
    | raises e => simpa [chanSends, chanSend, sentOf] using this

theorem chanSends_short : ∀ (l : List (Bytes × Sent)) (stream : Bytes), (∀ x ∈ l, Lawful x) → (∃ x ∈ l, ¬ Whole x) →
    (chanSends stream l).length < stream.length + (sentOf l).flatten.length := by
  intro l
  induction l with
  | nil => rintro _ _ ⟨x, hx, _⟩; cases hx
  | cons x l ih =>
    intro stream hl hx
    obtain ⟨m, r⟩ := x
    have h0 := hl _ (List.mem_cons_self ..)
    have hl' : ∀ y ∈ l, Lawful y := fun y hy => hl y (by simp [hy])
    have h1 := chanSends_length l hl' (chanSend stream m r).1
    by_cases hr : ∃ y ∈ l, ¬ Whole y
    · have h2 := ih (chanSend stream m r).1 hl' hr
      cases r with
      | accepts n =>
        have hn : 1 ≤ n ∧ n ≤ m.length := h0
        simp only [chanSends, chanSend, sentOf, List.filterMap_cons, List.flatten_cons, List.length_append, List.length_take] at h2 ⊢
        omega
      | raises e => simpa [chanSends, chanSend, sentOf] using h2
    · obtain ⟨y, hy, hny⟩ := hx
      rcases List.mem_cons.1 hy with rfl | hy
      · cases r with
        | accepts n =>
          have hn : 1 ≤ n ∧ n ≤ m.length := h0
          have hne : n ≠ m.length := hny
          simp only [chanSends, chanSend, sentOf, List.filterMap_cons, List.flatten_cons, List.length_append, List.length_take] at h1 ⊢
          omega
        | raises e => exact absurd trivial hny
      · exact absurd ⟨y, hy, hny⟩ hr

/-- C68: a partial send always loses bytes: whenever some `send` was partial, the transport carries fewer bytes than the messages have, although no
caller got an exception for them; so no receiver whatsoever can deliver all of them. -/
theorem C68_loses_bytes_refuted (l : List (Bytes × Sent)) (h : ∀ x ∈ l, Lawful x) (x : Bytes × Sent) (hx : x ∈ l) (hp : ¬ Whole x) :
    (chanSends [] l).length < (sentOf l).flatten.length := by
  simpa only [List.length_nil, Nat.zero_add] using chanSends_short l [] h ⟨x, hx, hp⟩

/-- C68 is false: an echo request of 8 bytes of which the socket accepts 4, followed by three more; the receiver gets messages that nobody has
sent. -/
theorem C68_refuted : ∃ (l : List (Bytes × Sent)) (evs : List Ev), (∀ x ∈ l, Lawful x) ∧ (∀ m ∈ sentOf l, WellFormed m) ∧
    (∀ e ∈ evs, IsChunk e ∨ IsWait e) ∧ carried evs = chanSends [] l ∧ ∃ m ∈ (iterate 5 [] evs).out, m ∉ sentOf l := by
  let e : UInt8 → Bytes := fun x => [4, 2, 0, 8, 0, 0, 0, x]
  refine ⟨[(e 1, .accepts 4), (e 2, .accepts 8), (e 3, .accepts 8)], [.raw (.data ((e 1).take 4 ++ e 2 ++ e 3))], ?_, ?_, ?_, ?_, ?_⟩
  · simp [Lawful, e]
  · simp [sentOf, WellFormed, announced, e]
  · simp [IsChunk, e]
  · simp [carried, payload, chanSends, chanSend, e]
  · exact ⟨[4, 2, 0, 8, 4, 2, 0, 8], by decide +kernel, by decide +kernel⟩

/-- The hypotheses of `C68_partial`: three sends, one of them raises; the stream arrives in two pieces. -/
example : ∃ (l : List (Bytes × Sent)) (evs : List Ev), (sentOf l).length = 2 ∧ (∀ m ∈ sentOf l, WellFormed m) ∧ (∀ x ∈ l, Whole x) ∧
    (∀ e ∈ evs, IsChunk e ∨ IsWait e) ∧ carried evs = chanSends [] l :=
  ⟨[([4, 2, 0, 8, 0, 0, 0, 1], .accepts 8), ([4, 2, 0, 8, 0, 0, 0, 2], .raises .other), ([4, 2, 0, 8, 0, 0, 0, 3], .accepts 8)],
    [.raw (.data [4, 2, 0]), .raw .timeout, .raw (.data [8, 0, 0, 0, 1, 4, 2, 0, 8, 0, 0, 0, 3])],
    rfl, by simp [sentOf, WellFormed, announced], by simp [Whole], by simp [IsChunk, IsWait], by simp [carried, payload, chanSends, chanSend]⟩

/-- The hypotheses of `C68_loses_bytes_refuted`. -/
example : ∃ (l : List (Bytes × Sent)) (x : Bytes × Sent), (∀ x ∈ l, Lawful x) ∧ x ∈ l ∧ ¬ Whole x :=
  ⟨[([4, 2, 0, 8, 0, 0, 0, 1], .accepts 3)], _, by simp [Lawful], List.mem_cons_self .., by simp [Whole]⟩

end Twink
