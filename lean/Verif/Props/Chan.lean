import Verif.Model.Chan
import Verif.Proof.Framing
import Verif.Proof.HelloSpec

/-! # Property C34: a closed channel delivers nothing more -/

namespace Twink
open Spec

/-! ## Agreement with the event model of framing -/

theorem chFill_closed (need : Nat) (buf : Bytes) (tr : List Raw) :
    chFill need true buf tr = if need ≤ buf.length then .full ⟨true, buf, tr⟩ else .empty ⟨true, buf, tr⟩ := by
  cases tr <;> simp [chFill]

/-- The outcome of a read loop without the channel state. -/
def ChFill.forget : ChFill → Fill
  | .full c => .full c.buf (c.transport.map .raw)
  | .empty c => .empty c.buf (c.transport.map .raw)
  | .raised e c => .raised e c.buf (c.transport.map .raw)
  | .blocked c => .blocked c.buf

/-- On an open channel the loop is the one of `Verif.Model.Framing`, every read attempt reaching the transport. -/
theorem chFill_open (need : Nat) (buf : Bytes) (tr : List Raw) :
    (chFill need false buf tr).forget = fill need buf (tr.map .raw) := by
  induction tr generalizing buf with
  | nil => simp only [chFill, fill, List.map_nil]; split <;> simp [ChFill.forget]
  | cons r tr ih =>
    simp only [chFill, fill, List.map_cons, chanRead]
    split
    · simp [ChFill.forget]
    · simp only [Bool.false_eq_true, if_false]
      cases h : defaultWrapper r with
      | error e => simp [ChFill.forget]
      | ok o =>
        cases o with
        | none => exact ih buf
        | some b =>
          cases b with
          | nil => simp [ChFill.forget]
          | cons x b => exact ih _

/-! ## C34 -/

/-- **C34, recv.** On a closed channel `recv` never touches the transport, never blocks or raises; it returns the first message if
the buffer holds it completely, and nothing otherwise. -/
theorem C34_recv (buf : Bytes) (tr : List Raw) :
    (Complete buf → chRecv ⟨true, buf, tr⟩ = .ret (buf.take (announced buf)) ⟨true, buf.drop (announced buf), tr⟩) ∧
    (¬ Complete buf → chRecv ⟨true, buf, tr⟩ = .ret [] ⟨true, buf, tr⟩) := by
  unfold chRecv
  simp only [chFill_closed]
  by_cases h8 : 8 ≤ buf.length
  · rw [if_pos h8]
    simp only
    have hp : parseHeader buf = .ok (u8 buf 0, u8 buf 1, announced buf, u32 buf 4) := by
      rw [parseHeader_fields buf h8, announced_eq_u16 buf (by omega)]
    simp only [hp, chFill_closed]
    by_cases ha : announced buf ≤ buf.length
    · rw [if_pos ha]
      exact ⟨fun _ => by simp [slice], fun hn => absurd ⟨h8, ha⟩ hn⟩
    · rw [if_neg ha]
      exact ⟨fun hc => absurd hc.2 ha, fun _ => rfl⟩
  · rw [if_neg h8]
    exact ⟨fun hc => absurd hc.1 h8, fun _ => rfl⟩

/-- The complete messages at the front of a buffer, and what remains. -/
inductive Front : Bytes → List Bytes → Bytes → Prop
  | stop (b : Bytes) (h : ¬ Complete b ∨ announced b = 0) : Front b [] b
  | more (m r rest : Bytes) (ms : List Bytes) (hc : Complete (m ++ r)) (hm : m.length = announced (m ++ r)) (h0 : m ≠ [])
      (h : Front r ms rest) : Front (m ++ r) (m :: ms) rest

theorem front_concat {b : Bytes} {ms : List Bytes} {rest : Bytes} (h : Front b ms rest) : ms.flatten ++ rest = b := by
  induction h with
  | stop b h => rfl
  | more m r rest ms hc hm h0 h ih => simp [ih]

/-- **C34, iteration.** Iterating over a closed channel ends after at most one round per buffered byte plus one, yields exactly
the complete messages at the front of the buffer, and leaves the transport alone. -/
theorem C34_iteration (buf : Bytes) (tr : List Raw) (n : Nat) (hn : buf.length < n) :
    ∃ ms rest, chIter n ⟨true, buf, tr⟩ = (ms, ⟨true, rest, tr⟩, true) ∧ Front buf ms rest ∧ ms.flatten ++ rest = buf := by
  induction n generalizing buf with
  | zero => omega
  | succ n ih =>
    obtain ⟨h1, h2⟩ := C34_recv buf tr
    by_cases hc : Complete buf
    · have h1 := h1 hc
      by_cases h0 : announced buf = 0
      · refine ⟨[], buf, ?_, .stop _ (.inr h0), rfl⟩
        simp only [chIter, h1, h0, List.take_zero, List.drop_zero]
      · have hlen : 0 < buf.length := by have := hc.1; omega
        have hne : buf.take (announced buf) ≠ [] := by
          intro e; have := congrArg List.length e; rw [List.length_take, List.length_nil] at this; omega
        obtain ⟨ms, rest, e, hf, _⟩ := ih (buf.drop (announced buf)) (by rw [List.length_drop]; omega)
        have hfront : Front (buf.take (announced buf) ++ buf.drop (announced buf)) (buf.take (announced buf) :: ms) rest :=
          .more _ _ _ _ (by rw [List.take_append_drop]; exact hc)
            (by rw [List.take_append_drop, List.length_take]; have := hc.2; omega) hne hf
        rw [List.take_append_drop] at hfront
        refine ⟨buf.take (announced buf) :: ms, rest, ?_, hfront, front_concat hfront⟩
        cases ht : buf.take (announced buf) with
        | nil => exact absurd ht hne
        | cons x m => simp only [chIter, h1, ht, e]
    · refine ⟨[], buf, ?_, .stop _ (.inl hc), rfl⟩
      simp only [chIter, h2 hc]

theorem chRecv_closed_stays (c : Chan) (h : c.closed = true) : (chRecv c).chan.closed = true ∧ (chRecv c).chan.transport = c.transport := by
  obtain ⟨cl, buf, tr⟩ := c
  simp only at h; subst h
  obtain ⟨h1, h2⟩ := C34_recv buf tr
  by_cases hc : Complete buf
  · rw [h1 hc]; exact ⟨rfl, rfl⟩
  · rw [h2 hc]; exact ⟨rfl, rfl⟩

theorem chIter_closed_stays (n : Nat) (c : Chan) (h : c.closed = true) :
    (chIter n c).2.1.closed = true ∧ (chIter n c).2.1.transport = c.transport := by
  induction n generalizing c with
  | zero => exact ⟨h, rfl⟩
  | succ n ih =>
    obtain ⟨a, b⟩ := chRecv_closed_stays c h
    simp only [chIter]
    cases hr : chRecv c with
    | blocked c' => rw [hr] at a b; exact ⟨a, b⟩
    | raised e c' => rw [hr] at a b; exact ⟨a, b⟩
    | ret m c' =>
      rw [hr] at a b
      cases m with
      | nil => exact ⟨a, b⟩
      | cons x m => exact ⟨(ih c' a).1, by rw [(ih c' a).2]; exact b⟩

/-- **C34.** After `close()`, whatever calls follow (as long as no new transport is attached), the channel stays closed and the
transport is never read. -/
theorem C34_no_transport_read (c : Chan) (ops : List ChOp) (h : ∀ tr, ChOp.attach tr ∉ ops) :
    (chRun c.close ops).closed = true ∧ (chRun c.close ops).transport = c.transport := by
  have key : ∀ c : Chan, c.closed = true → (chRun c ops).closed = true ∧ (chRun c ops).transport = c.transport := by
    induction ops with
    | nil => intro c hc; exact ⟨hc, rfl⟩
    | cons op ops ih =>
      intro c hc
      have ih := ih (fun tr htr => h tr (by simp [htr]))
      have hs : (chStep c op).closed = true ∧ (chStep c op).transport = c.transport := by
        cases op with
        | recv => exact chRecv_closed_stays c hc
        | iterate n => exact chIter_closed_stays n c hc
        | close => exact ⟨rfl, rfl⟩
        | attach tr => exact absurd (List.mem_cons_self) (h tr)
      obtain ⟨a, b⟩ := ih _ hs.1
      exact ⟨a, by rw [chRun, b, hs.2]⟩
  exact key c.close rfl

/-- Non-vacuity of C34: a complete message and a partial one are buffered, the transport has data. -/
example : chIter 20 (Chan.close ⟨false, [4, 2, 0, 8, 0, 0, 0, 1, 4, 2, 0], [.data [9]]⟩) =
    ([[4, 2, 0, 8, 0, 0, 0, 1]], ⟨true, [4, 2, 0], [.data [9]]⟩, true) := by decide +kernel

/-- An iteration that comes to its end: `recv` returned these messages, one after the other, and then nothing. -/
inductive Ends : Chan → List Bytes → Chan → Prop
  | stop (c c' : Chan) (h : chRecv c = .ret [] c') : Ends c [] c'
  | more (c c' c'' : Chan) (m : Bytes) (ms : List Bytes) (hm : m ≠ []) (h : chRecv c = .ret m c') (hr : Ends c' ms c'') : Ends c (m :: ms) c''

/-- **C34, end of the iteration.** Open or closed, an iteration counts as ended just if `recv` has returned nothing: not when it waits for the
transport, nor when the transport has raised. -/
theorem C34_ended (n : Nat) (c c' : Chan) (ms : List Bytes) : chIter n c = (ms, c', true) ↔ Ends c ms c' ∧ ms.length < n := by
  induction n generalizing c ms with
  | zero => simp [chIter]
  | succ n ih =>
    rw [chIter]
    cases hr : chRecv c with
    | blocked d =>
      refine ⟨fun h => by simp at h, fun ⟨h, _⟩ => ?_⟩
      cases h <;> simp_all
    | raised e d =>
      refine ⟨fun h => by simp at h, fun ⟨h, _⟩ => ?_⟩
      cases h <;> simp_all
    | ret m d =>
      cases m with
      | nil =>
        constructor
        · intro h
          simp only [Prod.mk.injEq, and_true] at h
          obtain ⟨rfl, rfl⟩ := h
          exact ⟨.stop _ _ hr, Nat.zero_lt_succ _⟩
        · rintro ⟨h, _⟩
          cases h with
          | stop _ _ h => rw [hr] at h; injection h with _ h; rw [h]
          | more _ _ _ m ms hm h _ => rw [hr] at h; injection h with h _; exact absurd h.symm hm
      | cons x m =>
        constructor
        · intro h
          simp only [Prod.mk.injEq] at h
          obtain ⟨rfl, h2⟩ := h
          obtain ⟨h3, h4⟩ := (ih d (chIter n d).1).1 (by rw [← h2])
          exact ⟨.more _ _ _ _ _ (List.cons_ne_nil _ _) hr h3, by simpa using h4⟩
        · rintro ⟨h, hl⟩
          cases h with
          | stop _ _ h => rw [hr] at h; injection h with h _; cases h
          | more _ e _ m' ms' hm h h' =>
            rw [hr] at h; injection h with h1 h2; subst h1 h2
            have := (ih d ms').2 ⟨h', by simpa using hl⟩
            simp only [this]

/-- Non-vacuity: the peer of an open channel sends a message and closes; the iteration ends after one message. -/
example : Ends ⟨false, [], [.data [4, 2, 0, 8, 0, 0, 0, 1], .data []]⟩ [[4, 2, 0, 8, 0, 0, 0, 1]] ⟨false, [], []⟩ :=
  ((C34_ended 2 _ _ _).1 (by decide +kernel)).1

/-- And it does not while the peer may still send. -/
example : chIter 5 ⟨false, [], [.data [4, 2, 0, 8, 0, 0, 0, 1]]⟩ = ([[4, 2, 0, 8, 0, 0, 0, 1]], ⟨false, [], []⟩, false) := by decide +kernel

end Twink
