import Verif.Proof.Outstanding

/-!
# C18, C19: where each message goes, by the requests outstanding

Nothing is assumed about the switch: messages may arrive in any order, with any contents.
-/

namespace Twink.Outstanding
open Spec

/-- The outstanding requests before the first outstanding barrier request. -/
def firstPart (out : List Req) : List Req := out.takeWhile fun q => decide (¬ IsBarrierReq q.bytes)

/-- The first outstanding barrier request. -/
def firstBarrier (out : List Req) : Option Req := out.find? fun q => decide (IsBarrierReq q.bytes)

/-- C18, exactly: in every history, a message that is neither a barrier reply nor for the asynchronous handler is given to callback `k` if
and only if `k` is still referenced and was passed with a request that is outstanding and was sent before the first outstanding barrier
request; and it is given to the default handler if there is no such callback.  So a reply to a message sent
without callback goes astray exactly if a message with callback was sent before or after it with no barrier request between the two. -/
theorem C18_exact {c : Ctl} {alive : Nat → Bool} {out : List Req} (h : OutReach c alive out) (hasAsync : Bool) (m : Bytes)
    (hm : 8 ≤ m.length) (hb : ¬ IsBarrierRep m) (ha : ¬ (hasAsync = true ∧ IsAsyncMsg m)) :
    (∀ k, (ctlHandle hasAsync alive c m).2 = .callback k ↔ alive k = true ∧ ∃ q ∈ firstPart out, q.cb = some k) ∧
    ((ctlHandle hasAsync alive c m).2 = .default ↔ ∀ k, alive k = true → ∀ q ∈ firstPart out, q.cb ≠ some k) := by
  obtain ⟨k, h1, h2⟩ := ((handle_rel (alive := alive) (reach_rel h) hasAsync m hm).2 ha).1 hb
  change ∀ j, k = some j ↔ ∃ q ∈ firstPart out, q.cb = some j at h2
  rw [h1]
  cases k with
  | none =>
    have h3 : ∀ j, ¬ ∃ q ∈ firstPart out, q.cb = some j := fun j hj => by have := (h2 j).2 hj; cases this
    refine ⟨fun j => ⟨fun e => by simp [cbOr, live] at e, fun e => absurd e.2 (h3 j)⟩, ?_⟩
    exact ⟨fun _ j _ q hq e => h3 j ⟨q, hq, e⟩, fun _ => rfl⟩
  | some i =>
    by_cases hi : alive i = true
    · have e : cbOr alive (some i) .default = .callback i := by simp [cbOr, live, hi]
      rw [e]
      refine ⟨fun j => ?_, ?_⟩
      · rw [← h2 j]
        constructor
        · intro e; cases e; exact ⟨hi, rfl⟩
        · rintro ⟨_, e⟩; cases e; rfl
      · obtain ⟨q, hq, e⟩ := (h2 i).1 rfl
        exact ⟨fun e => (by cases e), fun h => absurd e (h i hi q hq)⟩
    · have e : cbOr alive (some i) .default = .default := by simp [cbOr, live, hi]
      rw [e]
      have h3 : ∀ j, alive j = true → ¬ ∃ q ∈ firstPart out, q.cb = some j := by
        intro j hj hq
        have := (h2 j).2 hq; cases this; exact hi hj
      refine ⟨fun j => ⟨fun e => (by cases e), fun e => absurd e.2 (h3 j e.1)⟩, ?_⟩
      exact ⟨fun _ j hj q hq e => h3 j hj ⟨q, hq, e⟩, fun _ => rfl⟩

/-- C18, what helps: if the requests outstanding were sent without callback up to the first outstanding barrier request, e.g. because the
user sent a barrier request before the first message with a callback, then messages go to the default handler. -/
theorem C18_barrier_helps {c : Ctl} {alive : Nat → Bool} {X Y : List Req} {b : Req} (h : OutReach c alive (X ++ b :: Y))
    (hb : IsBarrierReq b.bytes) (hX : ∀ q ∈ X, q.cb = none) (hasAsync : Bool) (m : Bytes) (hm : 8 ≤ m.length) (hr : ¬ IsBarrierRep m)
    (ha : ¬ (hasAsync = true ∧ IsAsyncMsg m)) : (ctlHandle hasAsync alive c m).2 = .default := by
  refine (C18_exact h hasAsync m hm hr ha).2.2 fun k _ q hq e => ?_
  have : firstPart (X ++ b :: Y) ⊆ X := by
    clear hX h hq
    intro r hr
    induction X with
    | nil => simp [firstPart, hb] at hr
    | cons x X ih =>
      simp only [firstPart, List.cons_append, List.takeWhile_cons] at hr
      split at hr
      · rcases List.mem_cons.1 hr with rfl | hr
        · simp
        · exact List.mem_cons_of_mem _ (ih hr)
      · cases hr
  rw [hX q (this hq)] at e; cases e

/-- A history in which the theorem applies: a message without callback, a barrier request, a message with callback 1. -/
example : ∃ c X b Y, OutReach c (fun _ => true) (X ++ b :: Y) ∧ IsBarrierReq b.bytes ∧ (∀ q ∈ X, q.cb = none) ∧ X ≠ [] ∧
    ∃ q ∈ Y, q.cb = some 1 := by
  refine ⟨_, [⟨[4, 5, 0, 8, 0, 0, 0, 1], none, false⟩], ⟨[4, 20, 0, 8, 0, 0, 0, 2], none, false⟩, [⟨[4, 7, 0, 8, 0, 0, 0, 3], some 1, true⟩],
    OutReach.send [4, 7, 0, 8, 0, 0, 0, 3] (some 1) ⟨0, 0, 0, 0⟩ (by simp)
      (OutReach.send [4, 20, 0, 8, 0, 0, 0, 2] none ⟨0, 0, 0, 0⟩ (by simp)
        (OutReach.send [4, 5, 0, 8, 0, 0, 0, 1] none ⟨0, 0, 0, 0⟩ (by simp) (OutReach.init (some 4) (some 9) _))), by decide, by simp, by simp,
    _, List.mem_singleton.2 rfl, rfl⟩

theorem find_dropWhile (out : List Req) : firstBarrier out = (out.dropWhile fun q => decide (¬ IsBarrierReq q.bytes)).head? := by
  unfold firstBarrier
  induction out with
  | nil => rfl
  | cons q out ih =>
    by_cases hq : IsBarrierReq q.bytes
    · simp [hq]
    · simp [hq] at ih ⊢; exact ih

/-- C19, exactly: in every history, a barrier reply is given to the callback of the first outstanding barrier request if it has its id (and
is dropped if that callback does not exist any more); another id is an error.  With no barrier request outstanding it is an error if a
request was sent with a callback or while something was outstanding, and given to the default handler otherwise. -/
theorem C19_exact {c : Ctl} {alive : Nat → Bool} {out : List Req} (h : OutReach c alive out) (hasAsync : Bool) (m : Bytes)
    (hm : 8 ≤ m.length) (hb : IsBarrierRep m) :
    (∀ b, firstBarrier out = some b → u32 m 4 = u32 b.bytes 4 → (ctlHandle hasAsync alive c m).2 = belongsTo alive b) ∧
    (∀ b, firstBarrier out = some b → u32 m 4 ≠ u32 b.bytes 4 → (ctlHandle hasAsync alive c m).2 = .missingBarrier) ∧
    (firstBarrier out = none → (∃ q ∈ out, q.cb ≠ none ∨ q.busy = true) → (ctlHandle hasAsync alive c m).2 = .unknownBarrier) ∧
    (firstBarrier out = none → (∀ q ∈ out, q.cb = none ∧ q.busy = false) → (ctlHandle hasAsync alive c m).2 = .default) := by
  have h1 := ((handle_rel (alive := alive) (reach_rel h) hasAsync m hm).2 fun h => barrierRep_not_async hb h.2).2 hb
  rw [h1, find_dropWhile]
  cases hd : out.dropWhile (fun q => decide (¬ IsBarrierReq q.bytes)) with
  | nil =>
    refine ⟨by simp, by simp, fun _ hq => if_pos hq, fun _ hq => if_neg ?_⟩
    rintro ⟨q, hm, e⟩
    rw [(hq q hm).1, (hq q hm).2] at e; simp at e
  | cons b rest =>
    have hbb : IsBarrierReq b.bytes := by
      have := List.head?_dropWhile_not (fun q : Req => decide (¬ IsBarrierReq q.bytes)) out
      rw [hd] at this; simpa using this
    simp only [List.head?_cons, Option.some.injEq, reduceCtorEq, false_imp_iff, and_true]
    constructor
    · rintro _ rfl hx
      rw [if_pos hx]
      simp only [belongsTo, hbb, if_true, cbOr]
      cases b.cb with
      | none => rfl
      | some k => simp only [live]; by_cases hk : alive k = true <;> simp [hk]
    · rintro _ rfl hx
      rw [if_neg hx]

/-- A history with an outstanding barrier request behind a message with a callback. -/
example : ∃ c out b, OutReach c (fun _ => true) out ∧ firstBarrier out = some b ∧ u32 b.bytes 4 = 2 ∧ b.cb = some 7 := by
  refine ⟨_, _, ⟨[4, 20, 0, 8, 0, 0, 0, 2], some 7, true⟩,
    OutReach.send [4, 20, 0, 8, 0, 0, 0, 2] (some 7) ⟨0, 0, 0, 0⟩ (by simp)
        (OutReach.send [4, 5, 0, 8, 0, 0, 0, 1] (some 1) ⟨0, 0, 0, 0⟩ (by simp) (OutReach.init (some 4) (some 9) _)), ?_⟩
  decide

end Twink.Outstanding
