import Verif.Props.Sync
import Verif.Proof.HelloSpec
import Verif.Spec.AfterClose

/-! # Property C25: exactly what a request released by `close` returns -/

namespace Twink.AfterClose
open Twink Spec

theorem data_append {st : SyncSt} {t : Nat} {d : Bytes} (h : trackerData st t = some d) {st1 : SyncSt} {l : List Tracker}
    (e : st1.heap = st.heap ++ l) : trackerData st1 t = some d := by
  unfold trackerData at *
  rw [e]
  cases ht : st.heap[t]? with
  | none => rw [ht] at h; cases h
  | some x =>
    rw [List.getElem?_append_left (List.getElem?_eq_some_iff.1 ht).1, ht, ← ht]
    exact h

theorem syncStep_heap (ch : Choice) (st : SyncSt) (c : SCall) : (syncStep ch st c).1.heap = st.heap := by
  unfold syncStep
  split
  · split <;> rfl
  · have e : ∀ b : Bool, (if b = true then (st, { c with pc := .popping, byEvent := true })
        else if ch.timeout = true then (st, { c with pc := .popping }) else (st, c)).1.heap = st.heap := by
      intro b
      cases b <;> cases ch.timeout <;> rfl
    exact e _
  · split <;> rfl
  · rfl
  · rfl
  · rfl

theorem multiStep_heap (ch : Choice) (st : SyncSt) (c : MCall) : ∃ l, (multiStep ch st c).1.heap = st.heap ++ l := by
  have same : ∀ st1 : SyncSt, st1.heap = st.heap → ∃ l, st1.heap = st.heap ++ l := fun st1 e => ⟨[], by simp [e]⟩
  unfold multiStep
  split
  · split
    · split
      · exact same _ rfl
      · exact ⟨_, rfl⟩
    · split
      · exact same _ rfl
      · exact ⟨_, rfl⟩
  · split <;> exact same _ rfl
  · split
    · split <;> exact same _ rfl
    · exact same _ rfl
    · exact same _ (syncStep_heap ch st _)
  · split
    · exact same _ rfl
    · split <;> exact same _ rfl
  · split
    · exact same _ rfl
    · split <;> exact same _ rfl
  · split
    · exact same _ rfl
    · split <;> exact same _ rfl
  · exact same _ rfl
  · exact same _ rfl

/-- The receiving thread changes data other than by storing. -/
theorem data_upd {st : SyncSt} {t t' : Nat} {d : Bytes} (h : trackerData st t = some d) (f : Tracker → Tracker)
    (hf : ∀ x, t' = t → (f x).data = x.data) {st1 : SyncSt} (e : st1.heap = st.heap.modify t' f) : trackerData st1 t = some d := by
  unfold trackerData at *
  rw [e, List.getElem?_modify]
  cases ht : st.heap[t]? with
  | none => rw [ht] at h; cases h
  | some x =>
    rw [ht] at h
    by_cases e2 : t' = t
    · subst e2
      simpa [hf x rfl] using h
    · simpa [e2] using h

theorem data_step {st : SyncSt} {t : Nat} {d : Bytes} (h : trackerData st t = some d) (op : SyncOp) (hc : ∀ i, op ≠ .closeStep i) :
    trackerData (syncOp st op) t = some ((lands t st op).foldl joined d) := by
  cases op with
  | sendSync m =>
    simp only [syncOp, lands, List.foldl_nil]
    split
    · exact h
    · exact data_append h rfl
  | multi ms => exact h
  | thread i ch =>
    simp only [syncOp, lands, List.foldl_nil]
    split
    · exact data_append (l := []) h (by simp [syncStep_heap])
    · obtain ⟨l, e⟩ := multiStep_heap ch st (by assumption)
      exact data_append (l := l) h e
    · exact h
  | recv m =>
    simp only [syncOp, lands, List.foldl_nil, recvBegin]
    split
    · split
      · exact h
      · split
        · exact h
        · split <;> exact h
    · exact h
  | recvStep =>
    simp only [syncOp, lands, recvStep]
    cases hr : st.rpc with
    | idle => exact h
    | checked m =>
      simp only [List.foldl_nil]
      split
      · exact h
      · split <;> exact h
    | found m t' =>
      simp only
      by_cases hm : 8 ≤ m.length
      · rw [parseHeader_fields m hm]
        by_cases e : t' = t
        · subst e
          simp only [hm, and_self, if_true, List.foldl_cons, List.foldl_nil]
          unfold trackerData at h ⊢
          simp only [updTracker, List.getElem?_modify]
          cases ht : st.heap[t']? with
          | none => rw [ht] at h; cases h
          | some x =>
            rw [ht] at h
            have hx : x.data = some d := h
            have hmp : ∀ b : Bool, (b = true ↔ (u8 m 0 = 1 ∧ u8 m 1 = 17) ∨ (u8 m 0 ≠ 1 ∧ u8 m 1 = 19)) →
                storeData b m (some d) = some (joined d m) := by
              intro b hb
              unfold storeData joined
              by_cases hbt : b = true
              · rw [if_pos hbt, if_pos (hb.1 hbt)]
              · rw [if_neg hbt, if_neg (fun hh => hbt (hb.2 hh))]
            have hgoal := hmp (isMultipart (u8 m 0) (u8 m 1)) (by simp [isMultipart])
            rw [← hx] at hgoal
            simpa using hgoal
        · rw [if_neg (fun hh => e hh.1)]
          exact data_upd h _ (fun x ee => absurd ee e) rfl
      · rw [parseHeader_short m (by omega), if_neg (fun hh => hm hh.2)]
        exact h
    | stored m t' =>
      simp only [List.foldl_nil]
      split
      · exact h
      · split
        · split
          · split
            · exact data_upd h (fun x => { x with ev := true }) (fun x _ => rfl) rfl
            · exact h
          · exact h
          · exact h
        · exact data_upd h (fun x => { x with ev := true }) (fun x _ => rfl) rfl
  | close => exact h
  | closeStep i => exact absurd rfl (hc i)

theorem data_run {st : SyncSt} {t : Nat} {d : Bytes} (h : trackerData st t = some d) (ops : List SyncOp) (hc : NoClosing ops) :
    trackerData (syncRun st ops) t = some ((landed t st ops).foldl joined d) := by
  induction ops generalizing st d with
  | nil => exact h
  | cons op ops ih =>
    simp only [syncRun, landed, List.foldl_append]
    exact ih (data_step h op (hc op (by simp))) fun o ho => hc o (by simp [ho])

theorem landed_len (t : Nat) (st : SyncSt) (ops : List SyncOp) : ∀ m ∈ landed t st ops, 8 ≤ m.length := by
  induction ops generalizing st with
  | nil => intro m hm; cases hm
  | cons op ops ih =>
    intro m hm
    rcases List.mem_append.1 hm with h | h
    · cases op with
      | recvStep =>
        simp only [lands] at h
        split at h
        · split at h
          · rename_i hc
            rw [List.mem_singleton.1 h]; exact hc.2
          · cases h
        · cases h
      | _ => cases h
    · exact ih _ m h

theorem joined_nil {l : List Bytes} (h : ∀ m ∈ l, 8 ≤ m.length) (d : Bytes) : l.foldl joined d = [] ↔ d = [] ∧ l = [] := by
  induction l generalizing d with
  | nil => simp
  | cons m l ih =>
    have hm := h m (by simp)
    rw [List.foldl_cons, ih fun k hk => h k (by simp [hk])]
    constructor
    · rintro ⟨hj, _⟩
      exfalso
      unfold joined at hj
      split at hj
      · have := congrArg List.length hj
        simp at this
        rw [this.2] at hm; simp at hm
      · rw [hj] at hm; simp at hm
    · rintro ⟨_, hl⟩; cases hl

/-- **C25, exactly what is returned.** A closing thread has just emptied the reply of a request (tracker `t`), and from then on no closing thread touches it again.
Whatever else happens, the call that then reads its reply returns the messages that the receiving thread still stored for it, multipart
replies joined; it returns the empty value if and only if there were none. -/
theorem C25_exact (st : SyncSt) (k i : Nat) (ts : List Nat) (t : Nat) (hk : st.closers[k]? = some (t :: ts, false)) (ht : t < st.heap.length)
    (ops : List SyncOp) (hc : NoClosing ops) (c : SCall)
    (hr : (syncRun (syncOp st (.closeStep k)) ops).threads[i]? = some (.sync c)) (hp : c.pc = .reading) (htr : c.tr = t) (ch : Choice) :
    (syncRun (syncOp st (.closeStep k)) (ops ++ [.thread i ch])).threads[i]? =
      some (.sync { c with pc := .done (some ((landed t (syncOp st (.closeStep k)) ops).foldl joined [])) }) ∧
    ((landed t (syncOp st (.closeStep k)) ops).foldl joined [] = [] ↔ landed t (syncOp st (.closeStep k)) ops = []) := by
  have h0 : trackerData (syncOp st (.closeStep k)) t = some [] := by
    simp [syncOp, closeStep, hk, trackerData, updTracker, List.getElem?_eq_getElem ht]
  have h1 := data_run h0 ops hc
  refine ⟨?_, by rw [joined_nil (landed_len _ _ _)]; simp⟩
  have happ : ∀ (l : List SyncOp) (s : SyncSt) (o : SyncOp), syncRun s (l ++ [o]) = syncOp (syncRun s l) o := by
    intro l
    induction l with
    | nil => intro s o; rfl
    | cons x l ih => intro s o; exact ih _ o
  rw [happ]
  generalize syncRun (syncOp st (.closeStep k)) ops = s1 at *
  have hi := (List.getElem?_eq_some_iff.1 hr).1
  simp only [syncOp, hr, syncStep, hp, htr, h1, List.getElem?_set, if_true, if_pos hi]

/-- Non-vacuity, one side: nothing arrives after the reply has been emptied, the call gets the empty value. -/
example : (syncRun (freshSync (some 4)) [.sendSync exReq, .thread 0 go, .close]).closers[0]? = some ([0], false) ∧
    ((syncRun (freshSync (some 4)) [.sendSync exReq, .thread 0 go, .close, .closeStep 0, .thread 0 ⟨true, true, 0⟩, .thread 0 go]).threads[0]?.map
      fun th => match th with | .sync c => c.pc | .multi _ => .sending) = some .reading := by decide +kernel

/-- Non-vacuity, the other side: an echo reply for the request is stored after that. -/
example : landed 0 (syncRun (freshSync (some 4)) [.sendSync exReq, .thread 0 go, .close, .closeStep 0]) (recvAll [4, 3, 0, 8, 0, 0, 0, 7]) =
    [[4, 3, 0, 8, 0, 0, 0, 7]] := by decide +kernel

end Twink.AfterClose
