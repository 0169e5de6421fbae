import Verif.Proof.Of13Messages

/-! When the loops of the OpenFlow 1.3 parser do not end. -/

namespace Twink.Of13
open Fmt Spec

/-! ### `Err.diverges` is what it says -/

/-- At most `fuel` rounds of the Python loop `while offset < limit: ret.append(fetch(offset))`, whatever
the fetcher does with the offset; `none`: not finished yet (also if a call within does not return). -/
def runLoop (fetch : Nat → Py (α × Nat)) (limit : Nat) : Nat → Nat → Option (Py (List α × Nat))
  | 0, _ => none
  | fuel + 1, off =>
    if off < limit then
      match fetch off with
      | .error .diverges => none
      | .error e => some (.error e)
      | .ok (a, off') =>
        match runLoop fetch limit fuel off' with
        | none => none
        | some (.error e) => some (.error e)
        | some (.ok (as, o)) => some (.ok (a :: as, o))
    else some (.ok ([], off))

/-- The fetcher never moves backwards. -/
def Forward (fetch : Nat → Py (α × Nat)) : Prop := ∀ off a off', fetch off = .ok (a, off') → off ≤ off'

theorem runLoop_some {fetch : Nat → Py (α × Nat)} {limit fuel off r} (h : runLoop fetch limit fuel off = some r)
    (hf : Forward fetch) : whileFetch fetch limit off = r ∧ r ≠ .error .diverges := by
  induction fuel generalizing off r with
  | zero => simp [runLoop] at h
  | succ fuel ih =>
    rw [runLoop] at h
    rw [whileFetch]
    split at h
    · rename_i hlt
      rw [if_pos hlt]
      cases hfe : fetch off with
      | error e =>
        rw [hfe] at h
        cases e <;> simp at h <;> subst h <;> simp
      | ok p =>
        obtain ⟨a, off'⟩ := p
        rw [hfe] at h
        simp only at h ⊢
        cases hr : runLoop fetch limit fuel off' with
        | none => simp [hr] at h
        | some r' =>
          obtain ⟨i1, i2⟩ := ih hr
          have hp : off < off' := by
            rcases Nat.lt_or_ge off off' with h1 | h1
            · exact h1
            · exfalso
              have : off' = off := by have := hf off a off' hfe; omega
              subst this
              rw [whileFetch, if_pos hlt, hfe] at i1
              simp at i1
              exact i2 i1.symm
          rw [if_pos hp, i1]
          rw [hr] at h
          cases r' with
          | error e => simp at h; subst h; exact ⟨rfl, i2⟩
          | ok q => obtain ⟨as, o⟩ := q; simp at h; subst h; simp
    · rename_i hlt
      simp at h; subst h
      rw [if_neg hlt]; simp

theorem runLoop_none {fetch : Nat → Py (α × Nat)} {limit off} (h : ∀ fuel, runLoop fetch limit fuel off = none) :
    whileFetch fetch limit off = .error .diverges := by
  rw [whileFetch]
  have h1 := h 1
  rw [runLoop] at h1
  split at h1
  · rename_i hlt
    rw [if_pos hlt]
    cases hfe : fetch off with
    | error e => rw [hfe] at h1; cases e <;> simp at h1 ⊢
    | ok p =>
      obtain ⟨a, off'⟩ := p
      simp only
      split
      · rename_i hp
        have : ∀ fuel, runLoop fetch limit fuel off' = none := by
          intro fuel
          have h2 := h (fuel + 1)
          rw [runLoop, if_pos hlt, hfe] at h2
          simp only at h2
          cases hr : runLoop fetch limit fuel off' with
          | none => rfl
          | some r => rw [hr] at h2; cases r with
            | error e => simp at h2
            | ok q => simp at h2
        rw [runLoop_none this]
      · rfl
  · simp at h1
termination_by limit - off

/-- The loop never ends exactly if the model says so. -/
theorem whileFetch_diverges {fetch : Nat → Py (α × Nat)} {limit off} (hf : Forward fetch) :
    whileFetch fetch limit off = .error .diverges ↔ ∀ fuel, runLoop fetch limit fuel off = none := by
  constructor
  · intro h fuel
    cases hr : runLoop fetch limit fuel off with
    | none => rfl
    | some r =>
      obtain ⟨h1, h2⟩ := runLoop_some hr hf
      exact absurd (h1.symm.trans h) h2
  · exact runLoop_none

/-! ### where loops get stuck -/

theorem rd_ok {f m off} {k : List Val → Option α} {r} (h : rd f m off k = .ok r) :
    r.2 = off + calcsize f ∧ off + calcsize f ≤ m.length ∧ k (dec f (m.drop off)) = some r.1 := by
  unfold rd unpackFrom at h
  split at h
  · simp at h
  · rename_i vs hv
    split at hv
    · injection hv with hv; subst hv
      split at h
      · rename_i a ha; injection h with h; subst h; exact ⟨rfl, by assumption, ha⟩
      · simp at h
    · simp at hv

theorem rd_nd {f m off} {k : List Val → Option α} : rd f m off k ≠ .error .diverges := by
  unfold rd unpackFrom
  split
  · rename_i e he; split at he <;> simp at he; subst he; simp
  · split <;> simp

theorem assert_nd {p : Prop} [Decidable p] : pyAssert p ≠ .error .diverges := by
  unfold pyAssert; split <;> simp

theorem bind_diverges {x : Py α} {f : α → Py β} (h : (x >>= f) = .error .diverges) :
    x = .error .diverges ∨ ∃ a, x = .ok a ∧ f a = .error .diverges := by
  cases x with
  | error e => left; simpa [bind, Except.bind] using h
  | ok a => right; exact ⟨a, rfl, h⟩

/-- If a loop does not end, a call within it does not end, or does not move the cursor forward. -/
theorem whileFetch_stuck {fetch : Nat → Py (α × Nat)} {limit off} (h : whileFetch fetch limit off = .error .diverges) :
    ∃ o, off ≤ o ∧ o < limit ∧ (fetch o = .error .diverges ∨ ∃ a o', fetch o = .ok (a, o') ∧ o' ≤ o) := by
  rw [whileFetch] at h
  split at h
  · rename_i hlt
    cases hfe : fetch off with
    | error e => rw [hfe] at h; simp at h; exact ⟨off, Nat.le_refl _, hlt, .inl (by rw [hfe, h])⟩
    | ok p =>
      obtain ⟨a, off'⟩ := p
      rw [hfe] at h
      simp only at h
      split at h
      · rename_i hp
        have h1 : whileFetch fetch limit off' = .error .diverges := by
          cases hw : whileFetch fetch limit off' with
          | error e => rw [hw] at h; simpa using h
          | ok q => rw [hw] at h; simp at h
        obtain ⟨o, h2, h3, h4⟩ := whileFetch_stuck h1
        exact ⟨o, by omega, h3, h4⟩
      · rename_i hp
        exact ⟨off, Nat.le_refl _, hlt, .inr ⟨a, off', hfe, by omega⟩⟩
  · simp at h
termination_by limit - off

theorem listFetch_stuck {fetch : Nat → Py (α × Nat)} {limit off} (h : listFetch fetch limit off = .error .diverges) :
    ∃ o, off ≤ o ∧ o < limit ∧ (fetch o = .error .diverges ∨ ∃ a o', fetch o = .ok (a, o') ∧ o' ≤ o) := by
  rcases bind_diverges h with h | ⟨a, _, h⟩
  · exact whileFetch_stuck h
  · rcases bind_diverges h with h | ⟨_, _, h⟩
    · exact absurd h assert_nd
    · simp at h

theorem whileFetch_ge {fetch : Nat → Py (α × Nat)} {limit off r} (h : whileFetch fetch limit off = .ok r) : off ≤ r.2 := by
  rw [whileFetch] at h
  split at h
  · cases hfe : fetch off with
    | error e => rw [hfe] at h; simp at h
    | ok p =>
      obtain ⟨a, off'⟩ := p
      rw [hfe] at h
      simp only at h
      split at h
      · cases hw : whileFetch fetch limit off' with
        | error e => rw [hw] at h; simp at h
        | ok q =>
          have := whileFetch_ge hw
          rw [hw] at h
          injection h with h; subst h
          simp only; omega
      · simp at h
  · injection h with h; subst h; simp
termination_by limit - off

theorem listFetch_ge {fetch : Nat → Py (α × Nat)} {limit off r} (h : listFetch fetch limit off = .ok r) : off ≤ r.2 := by
  simp only [listFetch, bind_ok, pyAssert_ok, ok_inj, exists_const] at h
  obtain ⟨a, h1, _, rfl⟩ := h
  exact whileFetch_ge h1

/-! ### the fetchers -/

theorem decBE_two (m : Bytes) (o : Nat) (h : o + 2 ≤ m.length) : decBE ((m.drop o).take 2) = u16 m o := by
  have e : (m.drop o).take 2 = [m.getD o 0, m.getD (o + 1) 0] := by
    apply List.ext_getElem
    · simp; omega
    · intro i h1 h2
      simp at h2
      have : i = 0 ∨ i = 1 := by omega
      rcases this with rfl | rfl
      · simp [List.getD_eq_getElem?_getD, List.getElem?_eq_getElem (show o < m.length by omega)]
      · simp [List.getD_eq_getElem?_getD, List.getElem?_eq_getElem (show o + 1 < m.length by omega)]
  rw [e]
  simp [decBE, u16, u8]
  omega

theorem dec_HH (f : Fmt) (m : Bytes) (o : Nat) (h : o + 4 ≤ m.length) :
    dec (H :: H :: f) (m.drop o) = .int (u16 m o) :: .int (u16 m (o + 2)) :: dec f (m.drop (o + 4)) := by
  simp only [dec, List.drop_drop]
  rw [decBE_two m o (by omega), decBE_two m (o + 2) (by omega)]

/-- Peeking at type and length. -/
theorem rd_HH {f m off} {k : Nat → Nat → α} {r} (h : rd (H :: H :: f) m off (two k) = .ok r) :
    off + 4 ≤ m.length ∧ r = (k (u16 m off) (u16 m (off + 2)), off + calcsize (H :: H :: f)) := by
  obtain ⟨h1, h2, h3⟩ := rd_ok h
  have hl : off + 4 ≤ m.length := by simp [calcsize, Item.width] at h2; omega
  rw [dec_HH f m off hl] at h3
  refine ⟨hl, ?_⟩
  cases hd : dec f (m.drop (off + 4)) with
  | nil => rw [hd] at h3; simp [two] at h3; exact Prod.ext h3.symm h1
  | cons v l => rw [hd] at h3; simp [two] at h3

theorem action_step {m off a o'} (h : parseAction m off = .ok (a, o')) :
    off < o' ∨ (o' = off ∧ ZeroLength m off) := by
  simp only [parseAction, bind_ok] at h
  obtain ⟨r, h1, h2⟩ := h
  obtain ⟨hl, rfl⟩ := rd_HH h1
  simp only [parseActionOf] at h2
  split_ifs at h2 with c1 c2 c3 c4 c5 c6 c7 c8 c9
  all_goals first
    | (simp at h2; done)
    | (have := (rd_ok h2).1
       simp [calcsize, Item.width] at this
       left; omega)
    | skip
  · simp only [bind_ok, ok_inj, Prod.mk.injEq] at h2
    obtain ⟨r, h3, h4, h5⟩ := h2
    obtain ⟨_, rfl⟩ := rd_HH h3
    simp only at h5
    by_cases hz : u16 m (off + 2) = 0
    · exact .inr ⟨by omega, hl, .inl c8, hz⟩
    · left; omega
  · simp only [bind_ok, ok_inj, Prod.mk.injEq] at h2
    obtain ⟨r, h3, h4, h5⟩ := h2
    obtain ⟨_, g2, g3⟩ := rd_ok h3
    rw [dec_HH [I] m off hl] at g3
    simp only [dec, three, Option.some.injEq] at g3
    have g4 : r.1.2.1 = u16 m (off + 2) := by rw [← g3]
    rw [g4] at h5
    by_cases hz : u16 m (off + 2) = 0
    · exact .inr ⟨by omega, hl, .inr c9, hz⟩
    · left; omega

theorem action_nd {m off} : parseAction m off ≠ .error .diverges := by
  intro h
  rcases bind_diverges h with h | ⟨r, h1, h⟩
  · exact rd_nd h
  · simp only [parseActionOf] at h
    split_ifs at h
    all_goals try exact rd_nd h
    · simp at h
    · rcases bind_diverges h with h | ⟨_, _, h⟩
      · exact rd_nd h
      · simp at h
    · rcases bind_diverges h with h | ⟨_, _, h⟩
      · exact rd_nd h
      · simp at h

theorem actions_stuck {m limit off} (h : whileFetch (parseAction m) limit off = .error .diverges) :
    ∃ o, off ≤ o ∧ ZeroLength m o := by
  obtain ⟨o, h1, _, h2 | ⟨a, o', h2, h3⟩⟩ := whileFetch_stuck h
  · exact absurd h2 action_nd
  · rcases action_step h2 with h4 | ⟨_, h4⟩
    · omega
    · exact ⟨o, h1, h4⟩

theorem instr_step {m off a o'} (h : parseInstr m off = .ok (a, o')) :
    off < o' ∨ (o' = off ∧ ZeroLength m off) := by
  simp only [parseInstr, bind_ok] at h
  obtain ⟨r, h1, h2⟩ := h
  obtain ⟨hl, rfl⟩ := rd_HH h1
  simp only [parseInstrOf] at h2
  split_ifs at h2 with c1 c2 c3 c4 c5
  · have := (rd_ok h2).1
    simp [calcsize, Item.width] at this
    left; omega
  · have := (rd_ok h2).1
    simp [calcsize, Item.width] at this
    left; omega
  · simp only [bind_ok, pyAssert_ok, ok_inj, Prod.mk.injEq, exists_const] at h2
    obtain ⟨r, h3, r', h4, h5, h6, h7⟩ := h2
    obtain ⟨_, rfl⟩ := rd_HH h3
    have := whileFetch_ge h4
    simp [calcsize, Item.width] at this
    left; omega
  · have := (rd_ok h2).1
    simp [calcsize, Item.width] at this
    left; omega
  · simp only [bind_ok, ok_inj, Prod.mk.injEq] at h2
    obtain ⟨r, h3, h4, h5⟩ := h2
    obtain ⟨_, g2, g3⟩ := rd_ok h3
    rw [dec_HH [I] m off hl] at g3
    simp only [dec, three, Option.some.injEq] at g3
    have g4 : r.1.2.1 = u16 m (off + 2) := by rw [← g3]
    rw [g4] at h5
    by_cases hz : u16 m (off + 2) = 0
    · exact .inr ⟨by omega, hl, .inr c5, hz⟩
    · left; omega

theorem instr_stuck {m off} (h : parseInstr m off = .error .diverges) : ∃ o, off ≤ o ∧ ZeroLength m o := by
  rcases bind_diverges h with h | ⟨r, h1, h⟩
  · exact absurd h rd_nd
  · simp only [parseInstrOf] at h
    split_ifs at h
    all_goals try exact absurd h rd_nd
    · rcases bind_diverges h with h | ⟨r, h2, h⟩
      · exact absurd h rd_nd
      · obtain ⟨_, rfl⟩ := rd_HH h2
        rcases bind_diverges h with h | ⟨_, _, h⟩
        · obtain ⟨o, h3, h4⟩ := actions_stuck h
          exact ⟨o, by omega, h4⟩
        · rcases bind_diverges h with h | ⟨_, _, h⟩
          · exact absurd h assert_nd
          · simp at h
    · rcases bind_diverges h with h | ⟨_, _, h⟩
      · exact absurd h rd_nd
      · simp at h
    · simp at h

theorem instrs_stuck {m limit off} (h : listFetch (parseInstr m) limit off = .error .diverges) :
    ∃ o, off ≤ o ∧ ZeroLength m o := by
  obtain ⟨o, h1, _, h2 | ⟨a, o', h2, h3⟩⟩ := listFetch_stuck h
  · obtain ⟨o2, h3, h4⟩ := instr_stuck h2
    exact ⟨o2, by omega, h4⟩
  · rcases instr_step h2 with h4 | ⟨_, h4⟩
    · omega
    · exact ⟨o, h1, h4⟩

theorem match_nd {m off} : parseMatch m off ≠ .error .diverges := by
  intro h
  rcases bind_diverges h with h | ⟨_, _, h⟩
  · exact rd_nd h
  · simp at h

theorem match_step {m off a o'} (h : parseMatch m off = .ok (a, o')) : off ≤ o' := by
  simp only [parseMatch, bind_ok, ok_inj, Prod.mk.injEq] at h
  obtain ⟨_, _, _, h⟩ := h
  omega

theorem bucket_step {m off a o'} (h : parseBucket m off = .ok (a, o')) : off < o' := by
  simp only [parseBucket, bind_ok, ok_inj, Prod.mk.injEq] at h
  obtain ⟨_, h1, _, h2, _, h3⟩ := h
  have := (rd_ok h1).1
  have := whileFetch_ge h2
  simp [calcsize, Item.width] at *
  omega

theorem bucket_stuck {m off} (h : parseBucket m off = .error .diverges) : ∃ o, off ≤ o ∧ ZeroLength m o := by
  rcases bind_diverges h with h | ⟨r, h1, h⟩
  · exact absurd h rd_nd
  · have h2 := (rd_ok h1).1
    rcases bind_diverges h with h | ⟨_, _, h⟩
    · obtain ⟨o, h3, h4⟩ := actions_stuck h
      exact ⟨o, by omega, h4⟩
    · simp at h

theorem buckets_stuck {m limit off} (h : whileFetch (parseBucket m) limit off = .error .diverges) :
    ∃ o, off ≤ o ∧ ZeroLength m o := by
  obtain ⟨o, h1, _, h2 | ⟨a, o', h2, h3⟩⟩ := whileFetch_stuck h
  · obtain ⟨o2, h3, h4⟩ := bucket_stuck h2
    exact ⟨o2, by omega, h4⟩
  · have := bucket_step h2
    omega

theorem band_step {m off a o'} (h : parseBand m off = .ok (a, o')) : off < o' ∨ (o' = off ∧ ExperimenterBand m off) := by
  simp only [parseBand, bind_ok] at h
  obtain ⟨r, h1, h2⟩ := h
  obtain ⟨_, g2, g3⟩ := rd_ok h1
  have hl : off + 12 ≤ m.length := by simp [calcsize, Item.width] at g2; omega
  rw [dec_HH [I, I] m off (by omega)] at g3
  simp only [dec, four, Option.some.injEq] at g3
  rw [← g3] at h2
  simp only [parseBandOf] at h2
  split_ifs at h2 with c1 c2 c3
  · have := (rd_ok h2).1
    simp [calcsize, Item.width] at this
    left; omega
  · have := (rd_ok h2).1
    simp [calcsize, Item.width] at this
    left; omega
  · simp only [bind_ok, ok_inj, Prod.mk.injEq] at h2
    obtain ⟨r, h3, h4, h5⟩ := h2
    have := (rd_ok h3).2.1
    simp [calcsize, Item.width] at this
    exact .inr ⟨h5.symm, by omega, c3⟩

theorem band_nd {m off} : parseBand m off ≠ .error .diverges := by
  intro h
  rcases bind_diverges h with h | ⟨r, h1, h⟩
  · exact rd_nd h
  · simp only [parseBandOf] at h
    split_ifs at h
    all_goals try exact rd_nd h
    · rcases bind_diverges h with h | ⟨_, _, h⟩
      · exact rd_nd h
      · simp at h
    · simp at h

theorem bands_stuck {m limit off} (h : whileFetch (parseBand m) limit off = .error .diverges) :
    ∃ o, off ≤ o ∧ ExperimenterBand m o := by
  obtain ⟨o, h1, _, h2 | ⟨a, o', h2, h3⟩⟩ := whileFetch_stuck h
  · exact absurd h2 band_nd
  · rcases band_step h2 with h4 | ⟨_, h4⟩
    · omega
    · exact ⟨o, h1, h4⟩

/-- A loop over records that always move forward and always end. -/
theorem list_nd {fetch : Nat → Py (α × Nat)} (h1 : ∀ o, fetch o ≠ .error .diverges)
    (h2 : ∀ o a o', fetch o = .ok (a, o') → o < o') {limit off} : listFetch fetch limit off ≠ .error .diverges := by
  intro h
  obtain ⟨o, _, _, h3 | ⟨a, o', h3, h4⟩⟩ := listFetch_stuck h
  · exact h1 o h3
  · have := h2 o a o' h3; omega

theorem while_nd {fetch : Nat → Py (α × Nat)} (h1 : ∀ o, fetch o ≠ .error .diverges)
    (h2 : ∀ o a o', fetch o = .ok (a, o') → o < o') {limit off} : whileFetch fetch limit off ≠ .error .diverges := by
  intro h
  obtain ⟨o, _, _, h3 | ⟨a, o', h3, h4⟩⟩ := whileFetch_stuck h
  · exact h1 o h3
  · have := h2 o a o' h3; omega

theorem rd_step {f m off} {k : List Val → Option α} {a o'} (h : rd f m off k = .ok (a, o')) (hc : 0 < calcsize f) : off < o' := by
  have := (rd_ok h).1; simp only at this; omega

theorem pairs_nd {m limit off} : listFetch (parsePair m) limit off ≠ .error .diverges :=
  list_nd (fun _ => rd_nd) (fun _ _ _ h => rd_step h (by decide))

theorem flowStats_stuck {m off} (h : parseFlowStats m off = .error .diverges) : ∃ o, off ≤ o ∧ ZeroLength m o := by
  rcases bind_diverges h with h | ⟨r, h1, h⟩
  · exact absurd h rd_nd
  · have h2 := (rd_ok h1).1
    rcases bind_diverges h with h | ⟨r', h3, h⟩
    · exact absurd h match_nd
    · have h3 := match_step h3
      rcases bind_diverges h with h | ⟨_, _, h⟩
      · obtain ⟨o, h3, h4⟩ := instrs_stuck h
        exact ⟨o, by omega, h4⟩
      · simp at h

theorem flowStats_step {m off a o'} (h : parseFlowStats m off = .ok (a, o')) : off < o' := by
  simp only [parseFlowStats, bind_ok, ok_inj, Prod.mk.injEq] at h
  obtain ⟨_, h1, _, h2, _, h3, _, h4⟩ := h
  have e1 := (rd_ok h1).1
  have e2 := match_step h2
  have e3 := listFetch_ge h3
  have : calcsize flowStatsFmt = 48 := rfl
  omega

theorem groupDesc_stuck {m off} (h : parseGroupDesc m off = .error .diverges) : ∃ o, off ≤ o ∧ ZeroLength m o := by
  rcases bind_diverges h with h | ⟨r, h1, h⟩
  · exact absurd h rd_nd
  · have h2 := (rd_ok h1).1
    rcases bind_diverges h with h | ⟨_, _, h⟩
    · rcases bind_diverges h with h | ⟨_, _, h⟩
      · obtain ⟨o, h3, h4⟩ := buckets_stuck h
        exact ⟨o, by omega, h4⟩
      · rcases bind_diverges h with h | ⟨_, _, h⟩
        · exact absurd h assert_nd
        · simp at h
    · simp at h

theorem groupDesc_step {m off a o'} (h : parseGroupDesc m off = .ok (a, o')) : off < o' := by
  simp only [parseGroupDesc, bind_ok, ok_inj, Prod.mk.injEq] at h
  obtain ⟨_, h1, _, h3, _, h4⟩ := h
  have e1 := (rd_ok h1).1
  have e3 := listFetch_ge h3
  simp [calcsize, Item.width] at e1
  omega

theorem meterConfig_stuck {m off} (h : parseMeterConfig m off = .error .diverges) : ∃ o, off ≤ o ∧ ExperimenterBand m o := by
  rcases bind_diverges h with h | ⟨r, h1, h⟩
  · exact absurd h rd_nd
  · have h2 := (rd_ok h1).1
    rcases bind_diverges h with h | ⟨_, _, h⟩
    · rcases bind_diverges h with h | ⟨_, _, h⟩
      · obtain ⟨o, h3, h4⟩ := bands_stuck h
        exact ⟨o, by omega, h4⟩
      · rcases bind_diverges h with h | ⟨_, _, h⟩
        · exact absurd h assert_nd
        · simp at h
    · simp at h

theorem meterConfig_step {m off a o'} (h : parseMeterConfig m off = .ok (a, o')) : off < o' := by
  simp only [parseMeterConfig, bind_ok, ok_inj, Prod.mk.injEq] at h
  obtain ⟨_, h1, _, h3, _, h4⟩ := h
  have e1 := (rd_ok h1).1
  have e3 := listFetch_ge h3
  simp [calcsize, Item.width] at e1
  omega

theorem groupStats_step {m off a o'} (h : parseGroupStats m off = .ok (a, o')) : off < o' := by
  simp only [parseGroupStats, bind_ok, ok_inj, Prod.mk.injEq] at h
  obtain ⟨_, h1, _, h3, _, h4⟩ := h
  have e1 := (rd_ok h1).1
  have e3 := listFetch_ge h3
  have : calcsize groupStatsFmt = 40 := rfl
  omega

theorem groupStats_nd {m off} : parseGroupStats m off ≠ .error .diverges := by
  intro h
  rcases bind_diverges h with h | ⟨r, h1, h⟩
  · exact absurd h rd_nd
  · rcases bind_diverges h with h | ⟨_, _, h⟩
    · exact pairs_nd h
    · simp at h

theorem meterStats_step {m off a o'} (h : parseMeterStats m off = .ok (a, o')) : off < o' := by
  simp only [parseMeterStats, bind_ok, ok_inj, Prod.mk.injEq] at h
  obtain ⟨_, h1, _, h3, _, h4⟩ := h
  have e1 := (rd_ok h1).1
  have e3 := listFetch_ge h3
  have : calcsize meterStatsFmt = 40 := rfl
  omega

theorem meterStats_nd {m off} : parseMeterStats m off ≠ .error .diverges := by
  intro h
  rcases bind_diverges h with h | ⟨r, h1, h⟩
  · exact absurd h rd_nd
  · rcases bind_diverges h with h | ⟨_, _, h⟩
    · exact pairs_nd h
    · simp at h

theorem port_nd {m off} : parsePort m off ≠ .error .diverges := by
  intro h
  rcases bind_diverges h with h | ⟨r, h1, h⟩
  · exact absurd h rd_nd
  · rcases bind_diverges h with h | ⟨_, _, h⟩
    · unfold decodeName at h
      split at h
      · split at h <;> simp at h
      · simp at h
    · simp at h

theorem portRec_nd {m off} : parsePortRec m off ≠ .error .diverges := by
  intro h
  rcases bind_diverges h with h | ⟨r, h1, h⟩
  · exact port_nd h
  · simp at h

theorem portRec_step {m off a o'} (h : parsePortRec m off = .ok (a, o')) : off < o' := by
  simp only [parsePortRec, parsePort, bind_ok, ok_inj, Prod.mk.injEq] at h
  obtain ⟨_, ⟨_, h1, _, _, rfl⟩, _, h4⟩ := h
  have e1 := (rd_ok h1).1
  have : calcsize portFmt = 64 := rfl
  simp only at h4
  omega

theorem tableFeatures_nd {m off} : parseTableFeatures m off ≠ .error .diverges := by
  intro h
  rcases bind_diverges h with h | ⟨r, h1, h⟩
  · exact rd_nd h
  · simp at h

theorem tableFeatures_step {m off a o'} (h : parseTableFeatures m off = .ok (a, o')) : off < o' := by
  simp [parseTableFeatures, bind_ok] at h

theorem queue_nd {m off} : parseQueue m off ≠ .error .diverges := by
  intro h
  rcases bind_diverges h with h | ⟨r, h1, h⟩
  · exact absurd h rd_nd
  · rcases bind_diverges h with h | ⟨_, _, h⟩
    · refine while_nd ?_ ?_ h
      · intro o h
        rcases bind_diverges h with h | ⟨_, _, h⟩
        · exact rd_nd h
        · simp at h
      · intro o a o' h
        simp [bind_ok] at h
    · rcases bind_diverges h with h | ⟨_, _, h⟩
      · exact assert_nd h
      · simp at h

theorem queue_step {m off a o'} (h : parseQueue m off = .ok (a, o')) : off < o' := by
  simp only [parseQueue, bind_ok, pyAssert_ok, ok_inj, Prod.mk.injEq, exists_const] at h
  obtain ⟨_, h1, _, h2, _, _, h4⟩ := h
  have e1 := (rd_ok h1).1
  have e2 := whileFetch_ge h2
  simp [calcsize, Item.width] at e1
  omega

theorem helloElem_nd {m off} : parseHelloElem m off ≠ .error .diverges := by
  intro h
  rcases bind_diverges h with h | ⟨r, h1, h⟩
  · exact rd_nd h
  · simp only at h
    split at h
    · rcases bind_diverges h with h | ⟨r, h1, h⟩
      · exact rd_nd h
      · rcases bind_diverges h with h | ⟨_, _, h⟩
        · exact assert_nd h
        · split at h
          · simp at h
          · rcases bind_diverges h with h | ⟨_, _, h⟩
            · exact rd_nd h
            · simp at h
    · simp at h

theorem helloElem_step {m off a o'} (h : parseHelloElem m off = .ok (a, o')) : off < o' := by
  simp only [parseHelloElem, bind_ok] at h
  obtain ⟨r, h1, h2⟩ := h
  split at h2
  · simp only [parseVersionBitmap, bind_ok, pyAssert_ok, exists_const] at h2
    obtain ⟨r2, h3, _, h4⟩ := h2
    have e1 := (rd_ok h3).1
    split at h4
    · simp at h4
    · simp only [bind_ok, ok_inj, Prod.mk.injEq] at h4
      obtain ⟨r3, h5, _, h6⟩ := h4
      have e2 := (rd_ok h5).1
      simp only [calcsize_ints] at e2
      simp [calcsize, Item.width] at e1
      omega
  · simp at h2

/-! ### messages -/

theorem single_diverges {r : Py (Rec × Nat)} (h : single r = .error .diverges) : r = .error .diverges := by
  rcases bind_diverges h with h | ⟨_, _, h⟩
  · exact h
  · simp at h

theorem several_diverges {r : Py (List Rec × Nat)} (h : several r = .error .diverges) : r = .error .diverges := by
  rcases bind_diverges h with h | ⟨_, _, h⟩
  · exact h
  · simp at h

theorem reqBody_nd {t m lim off} : parseReqBody t m lim off ≠ .error .diverges := by
  intro h
  unfold parseReqBody at h
  split_ifs at h
  · have h := single_diverges h
    rcases bind_diverges h with h | ⟨_, _, h⟩
    · exact rd_nd h
    · rcases bind_diverges h with h | ⟨_, _, h⟩
      · exact match_nd h
      · simp at h
  · have h := single_diverges h
    rcases bind_diverges h with h | ⟨_, _, h⟩
    · exact rd_nd h
    · rcases bind_diverges h with h | ⟨_, _, h⟩
      · exact match_nd h
      · simp at h
  · exact rd_nd (single_diverges h)
  · exact rd_nd (single_diverges h)
  · exact rd_nd (single_diverges h)
  · exact rd_nd (single_diverges h)
  · exact while_nd (fun _ => tableFeatures_nd) (fun _ _ _ h => tableFeatures_step h) (several_diverges h)
  · simp at h

theorem repBody_stuck {t m lim off} (h : parseRepBody t m lim off = .error .diverges) :
    ((t = 1 ∨ t = 7) ∧ ∃ o, off ≤ o ∧ ZeroLength m o) ∨ (t = 10 ∧ ∃ o, off ≤ o ∧ ExperimenterBand m o) := by
  unfold parseRepBody at h
  by_cases c0 : t = 0
  · rw [if_pos c0] at h
    exact absurd (single_diverges h) rd_nd
  rw [if_neg c0] at h
  by_cases c1 : t = 1
  · rw [if_pos c1] at h
    refine .inl ⟨.inl c1, ?_⟩
    obtain ⟨o, h1, _, h2 | ⟨a, o', h2, h3⟩⟩ := listFetch_stuck (several_diverges h)
    · obtain ⟨o2, h3, h4⟩ := flowStats_stuck h2
      exact ⟨o2, by omega, h4⟩
    · have := flowStats_step h2; omega
  rw [if_neg c1] at h
  by_cases c2 : t = 2
  · rw [if_pos c2] at h
    exact absurd (several_diverges h) (list_nd (fun _ => rd_nd) (fun _ _ _ h => rd_step h (by decide)))
  rw [if_neg c2] at h
  by_cases c3 : t = 3
  · rw [if_pos c3] at h
    exact absurd (several_diverges h) (list_nd (fun _ => rd_nd) (fun _ _ _ h => rd_step h (by decide)))
  rw [if_neg c3] at h
  by_cases c4 : t = 4
  · rw [if_pos c4] at h
    exact absurd (several_diverges h) (list_nd (fun _ => rd_nd) (fun _ _ _ h => rd_step h (by decide)))
  rw [if_neg c4] at h
  by_cases c5 : t = 5
  · rw [if_pos c5] at h
    exact absurd (several_diverges h) (list_nd (fun _ => rd_nd) (fun _ _ _ h => rd_step h (by decide)))
  rw [if_neg c5] at h
  by_cases c6 : t = 6
  · rw [if_pos c6] at h
    exact absurd (several_diverges h) (list_nd (fun _ => groupStats_nd) (fun _ _ _ h => groupStats_step h))
  rw [if_neg c6] at h
  by_cases c7 : t = 7
  · rw [if_pos c7] at h
    refine .inl ⟨.inr c7, ?_⟩
    obtain ⟨o, h1, _, h2 | ⟨a, o', h2, h3⟩⟩ := listFetch_stuck (several_diverges h)
    · obtain ⟨o2, h3, h4⟩ := groupDesc_stuck h2
      exact ⟨o2, by omega, h4⟩
    · have := groupDesc_step h2; omega
  rw [if_neg c7] at h
  by_cases c8 : t = 8
  · rw [if_pos c8] at h
    exfalso
    rcases bind_diverges (single_diverges h) with h | ⟨_, _, h⟩
    · exact rd_nd h
    · rcases bind_diverges h with h | ⟨_, _, h⟩
      · exact rd_nd h
      · rcases bind_diverges h with h | ⟨_, _, h⟩
        · exact rd_nd h
        · simp at h
  rw [if_neg c8] at h
  by_cases c9 : t = 9
  · rw [if_pos c9] at h
    exact absurd (several_diverges h) (list_nd (fun _ => meterStats_nd) (fun _ _ _ h => meterStats_step h))
  rw [if_neg c9] at h
  by_cases c10 : t = 10
  · rw [if_pos c10] at h
    refine .inr ⟨c10, ?_⟩
    obtain ⟨o, h1, _, h2 | ⟨a, o', h2, h3⟩⟩ := listFetch_stuck (several_diverges h)
    · obtain ⟨o2, h3, h4⟩ := meterConfig_stuck h2
      exact ⟨o2, by omega, h4⟩
    · have := meterConfig_step h2; omega
  rw [if_neg c10] at h
  by_cases c11 : t = 11
  · rw [if_pos c11] at h
    exact absurd (single_diverges h) rd_nd
  rw [if_neg c11] at h
  by_cases c12 : t = 12
  · rw [if_pos c12] at h
    exact absurd (several_diverges h) (list_nd (fun _ => tableFeatures_nd) (fun _ _ _ h => tableFeatures_step h))
  rw [if_neg c12] at h
  by_cases c13 : t = 13
  · rw [if_pos c13] at h
    exact absurd (several_diverges h) (list_nd (fun _ => portRec_nd) (fun _ _ _ h => portRec_step h))
  rw [if_neg c13] at h
  by_cases c14 : t = 0xffff
  · rw [if_pos c14] at h
    exfalso
    rcases bind_diverges (single_diverges h) with h | ⟨_, _, h⟩
    · exact rd_nd h
    · simp at h
  rw [if_neg c14] at h
  simp at h

theorem hdr_nd {m off} : parseHdr m off ≠ .error .diverges := by
  intro h
  rcases bind_diverges h with h | ⟨_, _, h⟩
  · exact rd_nd h
  · rcases bind_diverges h with h | ⟨_, _, h⟩
    · exact assert_nd h
    · simp at h

theorem parseHdr_ok {m off r} (h : parseHdr m off = .ok r) :
    off + 8 ≤ m.length ∧ r.2 = off + 8 ∧ r.1.type = u8 m (off + 1) := by
  simp only [parseHdr, bind_ok, pyAssert_ok, ok_inj, exists_const] at h
  obtain ⟨r', h1, _, rfl⟩ := h
  obtain ⟨e1, e2, e3⟩ := rd_ok h1
  have hc : calcsize hdrFmt = 8 := rfl
  rw [hc] at e1 e2
  refine ⟨e2, e1, ?_⟩
  simp only [hdrFmt, dec, four, Option.some.injEq] at e3
  rw [← e3]
  simp only [List.drop_drop]
  have : (m.drop (off + 1)).take 1 = [m.getD (off + 1) 0] := by
    apply List.ext_getElem
    · simp; omega
    · intro i h1 h2
      simp at h2
      subst h2
      simp [List.getD_eq_getElem?_getD, List.getElem?_eq_getElem (show off + 1 < m.length by omega)]
  rw [this]
  simp [decBE, u8]

theorem features_nd {m off} : parseFeatures m off ≠ .error .diverges := by
  intro h
  rcases bind_diverges h with h | ⟨_, _, h⟩
  · exact hdr_nd h
  · rcases bind_diverges h with h | ⟨_, _, h⟩
    · exact rd_nd h
    · simp at h

theorem config_nd {m off} : parseConfig m off ≠ .error .diverges := by
  intro h
  rcases bind_diverges h with h | ⟨_, _, h⟩
  · exact hdr_nd h
  · rcases bind_diverges h with h | ⟨_, _, h⟩
    · exact rd_nd h
    · simp at h

theorem tableMod_nd {m off} : parseTableMod m off ≠ .error .diverges := by
  intro h
  rcases bind_diverges h with h | ⟨_, _, h⟩
  · exact hdr_nd h
  · rcases bind_diverges h with h | ⟨_, _, h⟩
    · exact rd_nd h
    · simp at h

theorem queueReq_nd {m off} : parseQueueReq m off ≠ .error .diverges := by
  intro h
  rcases bind_diverges h with h | ⟨_, _, h⟩
  · exact hdr_nd h
  · rcases bind_diverges h with h | ⟨_, _, h⟩
    · exact rd_nd h
    · simp at h

theorem role_nd {m off} : parseRole m off ≠ .error .diverges := by
  intro h
  rcases bind_diverges h with h | ⟨_, _, h⟩
  · exact hdr_nd h
  · rcases bind_diverges h with h | ⟨_, _, h⟩
    · exact rd_nd h
    · simp at h

theorem async_nd {m off} : parseAsync m off ≠ .error .diverges := by
  intro h
  rcases bind_diverges h with h | ⟨_, _, h⟩
  · exact hdr_nd h
  · rcases bind_diverges h with h | ⟨_, _, h⟩
    · exact rd_nd h
    · simp at h

theorem error_nd {m off} : parseError m off ≠ .error .diverges := by
  intro h
  rcases bind_diverges h with h | ⟨_, _, h⟩
  · exact hdr_nd h
  · rcases bind_diverges h with h | ⟨_, _, h⟩
    · exact rd_nd h
    · simp at h

theorem experimenter_nd {m off} : parseExperimenter m off ≠ .error .diverges := by
  intro h
  rcases bind_diverges h with h | ⟨_, _, h⟩
  · exact hdr_nd h
  · rcases bind_diverges h with h | ⟨_, _, h⟩
    · exact rd_nd h
    · simp at h

theorem portMod_nd {m off} : parsePortMod m off ≠ .error .diverges := by
  intro h
  rcases bind_diverges h with h | ⟨_, _, h⟩
  · exact hdr_nd h
  · rcases bind_diverges h with h | ⟨_, _, h⟩
    · exact rd_nd h
    · rcases bind_diverges h with h | ⟨_, _, h⟩
      · exact assert_nd h
      · simp at h

theorem other_nd {m off} : parseOther m off ≠ .error .diverges := by
  intro h
  rcases bind_diverges h with h | ⟨_, _, h⟩
  · exact hdr_nd h
  · simp at h

theorem hello_nd {m off} : parseHello m off ≠ .error .diverges := by
  intro h
  rcases bind_diverges h with h | ⟨_, _, h⟩
  · exact hdr_nd h
  · rcases bind_diverges h with h | ⟨_, _, h⟩
    · exact while_nd (fun _ => helloElem_nd) (fun _ _ _ h => helloElem_step h) h
    · rcases bind_diverges h with h | ⟨_, _, h⟩
      · exact assert_nd h
      · simp at h

theorem packetIn_nd {m off} : parsePacketIn m off ≠ .error .diverges := by
  intro h
  rcases bind_diverges h with h | ⟨_, _, h⟩
  · exact hdr_nd h
  · rcases bind_diverges h with h | ⟨_, _, h⟩
    · exact rd_nd h
    · rcases bind_diverges h with h | ⟨_, _, h⟩
      · exact match_nd h
      · rcases bind_diverges h with h | ⟨_, _, h⟩
        · exact rd_nd h
        · simp at h

theorem flowRemoved_nd {m off} : parseFlowRemoved m off ≠ .error .diverges := by
  intro h
  rcases bind_diverges h with h | ⟨_, _, h⟩
  · exact hdr_nd h
  · rcases bind_diverges h with h | ⟨_, _, h⟩
    · exact rd_nd h
    · rcases bind_diverges h with h | ⟨_, _, h⟩
      · exact match_nd h
      · simp at h

theorem portStatus_nd {m off} : parsePortStatus m off ≠ .error .diverges := by
  intro h
  rcases bind_diverges h with h | ⟨_, _, h⟩
  · exact hdr_nd h
  · rcases bind_diverges h with h | ⟨_, _, h⟩
    · exact rd_nd h
    · rcases bind_diverges h with h | ⟨_, _, h⟩
      · exact port_nd h
      · simp at h

theorem queueRep_nd {m off} : parseQueueRep m off ≠ .error .diverges := by
  intro h
  rcases bind_diverges h with h | ⟨_, _, h⟩
  · exact hdr_nd h
  · rcases bind_diverges h with h | ⟨_, _, h⟩
    · exact rd_nd h
    · rcases bind_diverges h with h | ⟨_, _, h⟩
      · exact list_nd (fun _ => queue_nd) (fun _ _ _ h => queue_step h) h
      · simp at h

theorem mpRequest_nd {m off} : parseMpRequest m off ≠ .error .diverges := by
  intro h
  rcases bind_diverges h with h | ⟨_, _, h⟩
  · exact hdr_nd h
  · rcases bind_diverges h with h | ⟨_, _, h⟩
    · exact rd_nd h
    · rcases bind_diverges h with h | ⟨_, _, h⟩
      · exact reqBody_nd h
      · simp at h

theorem packetOut_stuck {m off} (h : parsePacketOut m off = .error .diverges) : ∃ o, off ≤ o ∧ ZeroLength m o := by
  rcases bind_diverges h with h | ⟨r, h1, h⟩
  · exact absurd h hdr_nd
  · have e1 := (parseHdr_ok h1).2.1
    rcases bind_diverges h with h | ⟨r, h2, h⟩
    · exact absurd h rd_nd
    · have e2 := (rd_ok h2).1
      rcases bind_diverges h with h | ⟨_, _, h⟩
      · obtain ⟨o, h3, h4⟩ := actions_stuck h
        exact ⟨o, by omega, h4⟩
      · simp at h

theorem flowMod_stuck {m off} (h : parseFlowMod m off = .error .diverges) : ∃ o, off ≤ o ∧ ZeroLength m o := by
  rcases bind_diverges h with h | ⟨r, h1, h⟩
  · exact absurd h hdr_nd
  · have e1 := (parseHdr_ok h1).2.1
    rcases bind_diverges h with h | ⟨r, h2, h⟩
    · exact absurd h rd_nd
    · have e2 := (rd_ok h2).1
      rcases bind_diverges h with h | ⟨r, h3, h⟩
      · exact absurd h match_nd
      · have e3 := match_step h3
        rcases bind_diverges h with h | ⟨_, _, h⟩
        · obtain ⟨o, h3, h4⟩ := instrs_stuck h
          exact ⟨o, by omega, h4⟩
        · simp at h

theorem groupMod_stuck {m off} (h : parseGroupMod m off = .error .diverges) : ∃ o, off ≤ o ∧ ZeroLength m o := by
  rcases bind_diverges h with h | ⟨r, h1, h⟩
  · exact absurd h hdr_nd
  · have e1 := (parseHdr_ok h1).2.1
    rcases bind_diverges h with h | ⟨r, h2, h⟩
    · exact absurd h rd_nd
    · have e2 := (rd_ok h2).1
      rcases bind_diverges h with h | ⟨_, _, h⟩
      · obtain ⟨o, h3, h4⟩ := buckets_stuck h
        exact ⟨o, by omega, h4⟩
      · simp at h

theorem meterMod_stuck {m off} (h : parseMeterMod m off = .error .diverges) : ∃ o, off ≤ o ∧ ExperimenterBand m o := by
  rcases bind_diverges h with h | ⟨r, h1, h⟩
  · exact absurd h hdr_nd
  · have e1 := (parseHdr_ok h1).2.1
    rcases bind_diverges h with h | ⟨r, h2, h⟩
    · exact absurd h rd_nd
    · have e2 := (rd_ok h2).1
      rcases bind_diverges h with h | ⟨_, _, h⟩
      · obtain ⟨o, h3, h4⟩ := bands_stuck h
        exact ⟨o, by omega, h4⟩
      · simp at h

theorem mpReply_stuck {m off} (h : parseMpReply m off = .error .diverges) :
    ((u16 m (off + 8) = 1 ∨ u16 m (off + 8) = 7) ∧ ∃ o, off ≤ o ∧ ZeroLength m o) ∨
    (u16 m (off + 8) = 10 ∧ ∃ o, off ≤ o ∧ ExperimenterBand m o) := by
  rcases bind_diverges h with h | ⟨r, h1, h⟩
  · exact absurd h hdr_nd
  · have e1 := (parseHdr_ok h1).2.1
    rcases bind_diverges h with h | ⟨r2, h2, h⟩
    · exact absurd h rd_nd
    · obtain ⟨_, rfl⟩ := rd_HH h2
      rw [e1] at h
      rcases bind_diverges h with h | ⟨_, _, h⟩
      · rcases repBody_stuck h with ⟨h3, o, h4, h5⟩ | ⟨h3, o, h4, h5⟩
        · exact .inl ⟨h3, o, by omega, h5⟩
        · exact .inr ⟨h3, o, by omega, h5⟩
      · simp at h

theorem parse_stuck {m off} (h : parse m off = .error .diverges) :
    ((u8 m (off + 1) ∈ [13, 14, 15] ∨ (u8 m (off + 1) = 19 ∧ u16 m (off + 8) ∈ [1, 7])) ∧ ∃ o, off ≤ o ∧ ZeroLength m o) ∨
    ((u8 m (off + 1) = 29 ∨ (u8 m (off + 1) = 19 ∧ u16 m (off + 8) = 10)) ∧ ∃ o, off ≤ o ∧ ExperimenterBand m o) := by
  rcases bind_diverges h with h | ⟨r, h1, h⟩
  · exact absurd h hdr_nd
  · have h : parseOf r.1.type m off = .error .diverges := h
    rw [(parseHdr_ok h1).2.2] at h
    generalize u8 m (off + 1) = t at *
    unfold parseOf at h
    by_cases c : t = 0
    · rw [if_pos c] at h
      exact absurd h hello_nd
    rw [if_neg c] at h
    clear c
    by_cases c : t = 1
    · rw [if_pos c] at h
      exact absurd h error_nd
    rw [if_neg c] at h
    clear c
    by_cases c : t = 6
    · rw [if_pos c] at h
      exact absurd h features_nd
    rw [if_neg c] at h
    clear c
    by_cases c : t = 9 ∨ t = 8
    · rw [if_pos c] at h
      exact absurd h config_nd
    rw [if_neg c] at h
    clear c
    by_cases c : t = 10
    · rw [if_pos c] at h
      exact absurd h packetIn_nd
    rw [if_neg c] at h
    clear c
    by_cases c : t = 11
    · rw [if_pos c] at h
      exact absurd h flowRemoved_nd
    rw [if_neg c] at h
    clear c
    by_cases c : t = 12
    · rw [if_pos c] at h
      exact absurd h portStatus_nd
    rw [if_neg c] at h
    clear c
    by_cases c : t = 13
    · rw [if_pos c] at h
      exact .inl ⟨.inl (by simp [c]), packetOut_stuck h⟩
    rw [if_neg c] at h
    clear c
    by_cases c : t = 14
    · rw [if_pos c] at h
      exact .inl ⟨.inl (by simp [c]), flowMod_stuck h⟩
    rw [if_neg c] at h
    clear c
    by_cases c : t = 15
    · rw [if_pos c] at h
      exact .inl ⟨.inl (by simp [c]), groupMod_stuck h⟩
    rw [if_neg c] at h
    clear c
    by_cases c : t = 16
    · rw [if_pos c] at h
      exact absurd h portMod_nd
    rw [if_neg c] at h
    clear c
    by_cases c : t = 17
    · rw [if_pos c] at h
      exact absurd h tableMod_nd
    rw [if_neg c] at h
    clear c
    by_cases c : t = 18
    · rw [if_pos c] at h
      exact absurd h mpRequest_nd
    rw [if_neg c] at h
    clear c
    by_cases c : t = 19
    · rw [if_pos c] at h
      rcases mpReply_stuck h with ⟨h3, h4⟩ | ⟨h3, h4⟩
      · exact .inl ⟨.inr ⟨c, by simpa using h3⟩, h4⟩
      · exact .inr ⟨.inr ⟨c, h3⟩, h4⟩
    rw [if_neg c] at h
    clear c
    by_cases c : t = 4
    · rw [if_pos c] at h
      exact absurd h experimenter_nd
    rw [if_neg c] at h
    clear c
    by_cases c : t = 22
    · rw [if_pos c] at h
      exact absurd h queueReq_nd
    rw [if_neg c] at h
    clear c
    by_cases c : t = 23
    · rw [if_pos c] at h
      exact absurd h queueRep_nd
    rw [if_neg c] at h
    clear c
    by_cases c : t = 24
    · rw [if_pos c] at h
      exact absurd h role_nd
    rw [if_neg c] at h
    clear c
    by_cases c : t = 28 ∨ t = 27
    · rw [if_pos c] at h
      exact absurd h async_nd
    rw [if_neg c] at h
    clear c
    by_cases c : t = 29
    · rw [if_pos c] at h
      exact .inr ⟨.inl c, meterMod_stuck h⟩
    rw [if_neg c] at h
    clear c
    exact absurd h other_nd

end Twink.Of13
