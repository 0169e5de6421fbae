import Verif.Proof.Of14Messages
import Verif.Proof.Of13Loop
import Verif.Proof.Of13Refute
import Verif.Spec.Of14Loop

/-! When the loops of the OpenFlow 1.4 parser do not end. -/

namespace Twink.Of14
open Fmt Of13 Spec

/-- Somewhere from `off` on stands something. -/
def From (P : Nat → Prop) (off : Nat) : Prop := ∃ o, off ≤ o ∧ P o

theorem From.mono {P : Nat → Prop} {a b} (h : From P b) (hab : a ≤ b) : From P a :=
  h.elim fun o ho => ⟨o, Nat.le_trans hab ho.1, ho.2⟩

theorem bind_stuck {x : Py α} {f : α → Py β} {Q : Prop} (hx : x = .error .diverges → Q)
    (hf : ∀ a, x = .ok a → f a = .error .diverges → Q) (h : (x >>= f) = .error .diverges) : Q :=
  (bind_diverges h).elim hx fun ⟨a, h1, h2⟩ => hf a h1 h2

theorem ok_stuck {a : α} {Q : Prop} (h : (.ok a : Py α) = .error .diverges) : Q := by cases h

theorem err_stuck {e : Err} {Q : Prop} (he : e ≠ .diverges) (h : (.error e : Py α) = .error .diverges) : Q := by
  injection h with h; exact absurd h he

theorem rd_stuck {f m off} {k : List Val → Option α} {Q : Prop} (h : rd f m off k = .error .diverges) : Q := absurd h rd_nd

theorem assert_stuck {p : Prop} [Decidable p] {Q : Prop} (h : pyAssert p = .error .diverges) : Q := absurd h assert_nd

theorem ite_or {c : Prop} [Decidable c] {a b x : α} (h : (if c then a else b) = x) : (c ∧ a = x) ∨ b = x := by
  by_cases hc : c
  · rw [if_pos hc] at h; exact .inl ⟨hc, h⟩
  · rw [if_neg hc] at h; exact .inr h

/-- A loop whose fetcher goes forward unless something stands there. -/
theorem while_stuck {fetch : Nat → Py (α × Nat)} {P : Nat → Prop} (h1 : ∀ o, fetch o = .error .diverges → From P o)
    (h2 : ∀ o a o', fetch o = .ok (a, o') → o < o' ∨ P o) {limit off} (h : whileFetch fetch limit off = .error .diverges) :
    From P off := by
  obtain ⟨o, g1, _, h3 | ⟨a, o', h3, h4⟩⟩ := whileFetch_stuck h
  · exact (h1 o h3).mono g1
  · rcases h2 o a o' h3 with h5 | h5
    · omega
    · exact ⟨o, g1, h5⟩

theorem list_stuck {fetch : Nat → Py (α × Nat)} {P : Nat → Prop} (h1 : ∀ o, fetch o = .error .diverges → From P o)
    (h2 : ∀ o a o', fetch o = .ok (a, o') → o < o' ∨ P o) {limit off} (h : listFetch fetch limit off = .error .diverges) :
    From P off :=
  bind_stuck (while_stuck h1 h2) (fun _ _ => bind_stuck assert_stuck fun _ _ => ok_stuck) h

/-- the length of what begins with two 16-bit numbers -/
theorem rd_HH_three {f m off} {k : Nat → Nat → Nat → α} {r} (h : rd [H, H, f] m off (three k) = .ok r) :
    off + 4 ≤ m.length ∧ ∃ c o, r = (k (u16 m off) (u16 m (off + 2)) c, o) := by
  obtain ⟨r, o⟩ := r
  obtain ⟨h1, h2, h3⟩ := rd_ok h
  have hl : off + 4 ≤ m.length := by simp [calcsize] at h2; simp [Item.width] at h2; omega
  rw [dec_HH [f] m off hl] at h3
  refine ⟨hl, ?_⟩
  generalize dec [f] (m.drop (off + 4)) = l at h3
  rcases l with _ | ⟨_ | _, _ | ⟨_, _⟩⟩ <;> simp [three] at h3
  exact ⟨_, _, by rw [← h3]⟩

theorem rd_HHII {m off} {k : Nat → Nat → Nat → Nat → α} {r} (h : rd [H, H, I, I] m off (four k) = .ok r) :
    off + 4 ≤ m.length ∧ ∃ c d, r = (k (u16 m off) (u16 m (off + 2)) c d, off + 12) := by
  obtain ⟨r, o⟩ := r
  obtain ⟨h1, h2, h3⟩ := rd_ok h
  have h1 : o = off + 12 := h1
  have hl : off + 4 ≤ m.length := by simp [calcsize, Item.width] at h2; omega
  rw [dec_HH [I, I] m off hl] at h3
  simp only [dec, four, Option.some.injEq] at h3
  exact ⟨hl, _, _, by rw [← h3, h1]⟩

theorem action_step {m off a o'} (h : parseAction m off = .ok (a, o')) : off < o' ∨ (o' = off ∧ ZeroLength m off) := by
  simp only [parseAction, bind_ok] at h
  obtain ⟨r, h1, h2⟩ := h
  obtain ⟨hl, rfl⟩ := rd_HH h1
  simp only [parseActionOf] at h2
  split_ifs at h2 with c1 c2 c3 c4 c5 c6 c7 c8 c9 c10
  all_goals first
    | (simp at h2; done)
    | (have := (rd_ok h2).1
       simp [calcsize, Item.width] at this
       left; omega)
    | skip
  · simp only [bind_ok, ok_inj, Prod.mk.injEq] at h2
    obtain ⟨r, h3, h4, h5⟩ := h2
    obtain ⟨_, rfl⟩ := rd_HH h3
    simp only at h5
    by_cases hz : u16 m (off + 2) = 0
    · exact .inr ⟨by omega, hl, .inl c8, hz⟩
    · left; omega
  · simp only [bind_ok, ok_inj, Prod.mk.injEq] at h2
    obtain ⟨r, h3, h4, h5⟩ := h2
    obtain ⟨_, c, o, rfl⟩ := rd_HH_three h3
    by_cases hz : u16 m (off + 2) = 0
    · exact .inr ⟨by simp only at h5; omega, hl, .inr c9, hz⟩
    · left; simp only at h5; omega

theorem action_nd {m off} : parseAction m off ≠ .error .diverges :=
  bind_stuck rd_stuck fun r _ h => by
    simp only [parseActionOf] at h
    split_ifs at h
    all_goals first
      | exact rd_stuck h
      | exact err_stuck (by simp) h
      | exact bind_stuck rd_stuck (fun _ _ => ok_stuck) h

theorem actions_stuck {m limit off} (h : whileFetch (parseAction m) limit off = .error .diverges) : From (ZeroLength m) off :=
  while_stuck (fun _ h => absurd h action_nd) (fun _ _ _ h => (action_step h).imp_right And.right) h

theorem instr_step {m off a o'} (h : parseInstr m off = .ok (a, o')) : off < o' ∨ (o' = off ∧ ZeroLength m off) := by
  simp only [parseInstr, bind_ok] at h
  obtain ⟨r, h1, h2⟩ := h
  obtain ⟨hl, rfl⟩ := rd_HH h1
  simp only [parseInstrOf] at h2
  split_ifs at h2 with c1 c2 c3 c4 c5
  · exact .inl (rd_step h2 (by decide))
  · exact .inl (rd_step h2 (by decide))
  · simp only [bind_ok, pyAssert_ok, ok_inj, Prod.mk.injEq, exists_const] at h2
    obtain ⟨r, h3, r', h4, h5, h6, h7⟩ := h2
    obtain ⟨_, rfl⟩ := rd_HH h3
    have := whileFetch_ge h4
    simp [calcsize, Item.width] at this
    left; omega
  · exact .inl (rd_step h2 (by decide))
  · simp only [bind_ok, ok_inj, Prod.mk.injEq] at h2
    obtain ⟨r, h3, h4, h5⟩ := h2
    obtain ⟨_, c, o, rfl⟩ := rd_HH_three h3
    by_cases hz : u16 m (off + 2) = 0
    · exact .inr ⟨by simp only at h5; omega, hl, .inr c5, hz⟩
    · left; simp only at h5; omega

theorem instr_stuck {m off} : parseInstr m off = .error .diverges → From (ZeroLength m) off :=
  bind_stuck rd_stuck fun r _ h => by
    simp only [parseInstrOf] at h
    split_ifs at h
    · exact rd_stuck h
    · exact rd_stuck h
    · exact bind_stuck rd_stuck (fun r h2 => bind_stuck (fun h => (actions_stuck h).mono (by rw [(rd_ok h2).1]; omega))
        fun _ _ => bind_stuck assert_stuck fun _ _ => ok_stuck) h
    · exact rd_stuck h
    · exact bind_stuck rd_stuck (fun _ _ => ok_stuck) h
    · exact err_stuck (by simp) h

theorem instrs_stuck {m limit off} (h : listFetch (parseInstr m) limit off = .error .diverges) : From (ZeroLength m) off :=
  list_stuck (fun _ => instr_stuck) (fun _ _ _ h => (instr_step h).imp_right And.right) h

theorem bucket_step {m off a o'} (h : parseBucket m off = .ok (a, o')) : off < o' := by
  simp only [parseBucket, bind_ok, ok_inj, Prod.mk.injEq] at h
  obtain ⟨_, h1, _, h2, _, h3⟩ := h
  have := (rd_ok h1).1
  have := whileFetch_ge h2
  simp [calcsize, Item.width] at *
  omega

theorem bucket_stuck {m off} : parseBucket m off = .error .diverges → From (ZeroLength m) off :=
  bind_stuck rd_stuck fun _ h2 => bind_stuck (fun h => (actions_stuck h).mono (by rw [(rd_ok h2).1]; omega)) fun _ _ => ok_stuck

/-! ### properties -/

theorem exp_step {k fill m off a o'} (hf : ∀ n, n ≤ fill n) (ht : u16 m off = 0xffff) (h : parseExp k fill m off = .ok (a, o')) :
    off < o' ∨ ZeroProp m off := by
  simp only [parseExp, bind_ok, ok_inj, Prod.mk.injEq] at h
  obtain ⟨r, h3, h4, h5⟩ := h
  obtain ⟨hl, c, d, rfl⟩ := rd_HHII h3
  simp only at h5
  have := hf (u16 m (off + 2))
  by_cases hz : u16 m (off + 2) = 0
  · exact .inr ⟨hl, ht, hz⟩
  · left; omega

theorem exp_nd {k fill m off} : parseExp k fill m off ≠ .error .diverges := bind_stuck rd_stuck fun _ _ => ok_stuck

theorem align_ge (n : Nat) : n ≤ align n := by rw [align_eq]; exact up8_ge n

theorem tmProp_step {m off a o'} (h : parseTmProp m off = .ok (a, o')) : off < o' ∨ ZeroProp m off := by
  simp only [parseTmProp, bind_ok] at h
  obtain ⟨r, h1, h2⟩ := h
  obtain ⟨hl, rfl⟩ := rd_HH h1
  simp only [parseTmPropOf] at h2
  split_ifs at h2 with c1 c2 c3
  · exact .inl (rd_step h2 (by decide))
  · exact .inl (rd_step h2 (by decide))
  · exact exp_step align_ge c3 h2

theorem tmProp_nd {m off} : parseTmProp m off ≠ .error .diverges :=
  bind_stuck rd_stuck fun _ _ h => by
    simp only [parseTmPropOf] at h
    split_ifs at h
    · exact rd_stuck h
    · exact rd_stuck h
    · exact exp_nd h
    · exact err_stuck (by simp) h

theorem pmProp_step {m off a o'} (h : parsePmProp m off = .ok (a, o')) :
    off < o' ∨ (o' = off ∧ (ZeroProp m off ∨ UnknownProp m off)) := by
  simp only [parsePmProp, bind_ok] at h
  obtain ⟨r, h1, h2⟩ := h
  obtain ⟨hl, rfl⟩ := rd_HH h1
  simp only [parsePmPropOf] at h2
  split_ifs at h2 with c1 c2 c3
  · exact .inl (rd_step h2 (by decide))
  · exact .inl (rd_step h2 (by decide))
  · simp only [bind_ok, ok_inj, Prod.mk.injEq] at h2
    obtain ⟨r, h3, h4, h5⟩ := h2
    obtain ⟨_, c, d, rfl⟩ := rd_HHII h3
    simp only at h5
    have := align_ge (u16 m (off + 2))
    by_cases hz : u16 m (off + 2) = 0
    · rw [hz] at h5
      exact .inr ⟨h5.symm, .inl ⟨hl, c3, hz⟩⟩
    · left; omega
  · simp only [ok_inj, Prod.mk.injEq] at h2
    exact .inr ⟨h2.2.symm, .inr ⟨hl, by simp [c1, c2, c3]⟩⟩

theorem pmProp_nd {m off} : parsePmProp m off ≠ .error .diverges :=
  bind_stuck rd_stuck fun _ _ h => by
    simp only [parsePmPropOf] at h
    split_ifs at h
    · exact rd_stuck h
    · exact rd_stuck h
    · exact bind_stuck rd_stuck (fun _ _ => ok_stuck) h

theorem psProp_step {m off a o'} (h : parsePsProp m off = .ok (a, o')) : off < o' ∨ ZeroProp m off := by
  simp only [parsePsProp, bind_ok] at h
  obtain ⟨r, h1, h2⟩ := h
  obtain ⟨hl, rfl⟩ := rd_HH h1
  simp only [parsePsPropOf] at h2
  split_ifs at h2 with c1 c2 c3
  · exact .inl (rd_step h2 (by decide))
  · exact .inl (rd_step h2 (by decide))
  · exact exp_step align_ge c3 h2

theorem psProp_nd {m off} : parsePsProp m off ≠ .error .diverges :=
  bind_stuck rd_stuck fun _ _ h => by
    simp only [parsePsPropOf] at h
    split_ifs at h
    · exact rd_stuck h
    · exact rd_stuck h
    · exact exp_nd h
    · exact err_stuck (by simp) h

theorem qsProp_step {m off a o'} (h : parseQsProp m off = .ok (a, o')) : off < o' ∨ ZeroProp m off := by
  simp only [parseQsProp, bind_ok] at h
  obtain ⟨r, h1, h2⟩ := h
  obtain ⟨hl, rfl⟩ := rd_HH h1
  split_ifs at h2 with c3
  exact exp_step align_ge c3 h2

theorem qsProp_nd {m off} : parseQsProp m off ≠ .error .diverges :=
  bind_stuck rd_stuck fun _ _ h => by
    simp only at h
    split_ifs at h
    · exact exp_nd h
    · exact err_stuck (by simp) h

theorem qdProp_step {m off a o'} (h : parseQdProp m off = .ok (a, o')) : off < o' ∨ ZeroProp m off := by
  simp only [parseQdProp, bind_ok] at h
  obtain ⟨r, h1, h2⟩ := h
  obtain ⟨hl, rfl⟩ := rd_HH h1
  simp only [parseQdPropOf] at h2
  split_ifs at h2 with c1 c2 c3
  · exact .inl (rd_step h2 (by decide))
  · exact .inl (rd_step h2 (by decide))
  · exact exp_step align_ge c3 h2

theorem qdProp_nd {m off} : parseQdProp m off ≠ .error .diverges :=
  bind_stuck rd_stuck fun _ _ h => by
    simp only [parseQdPropOf] at h
    split_ifs at h
    · exact rd_stuck h
    · exact rd_stuck h
    · exact exp_nd h
    · exact err_stuck (by simp) h

theorem asyncProp_step {m off a o'} (h : parseAsyncProp m off = .ok (a, o')) : off < o' := by
  simp only [parseAsyncProp, bind_ok] at h
  obtain ⟨r, h1, h2⟩ := h
  split_ifs at h2
  exact rd_step h2 (by decide)

theorem asyncProp_nd {m off} : parseAsyncProp m off ≠ .error .diverges :=
  bind_stuck rd_stuck fun _ _ h => by
    simp only at h
    split_ifs at h
    · exact rd_stuck h
    · exact err_stuck (by simp) h

theorem id_step {m off a o'} (h : parseId m off = .ok (a, o')) : off < o' := by
  simp only [parseId, bind_ok, ok_inj, Prod.mk.injEq] at h
  obtain ⟨_, h1, _, rfl⟩ := h
  exact rd_step (a := _) h1 (by decide)

theorem id_nd {m off} : parseId m off ≠ .error .diverges := bind_stuck rd_stuck fun _ _ => ok_stuck

theorem tfProp_step {m off a o'} (h : parseTfProp m off = .ok (a, o')) : off < o' := by
  simp only [parseTfProp, bind_ok] at h
  obtain ⟨r, h1, h2⟩ := h
  obtain ⟨hl, rfl⟩ := rd_HH h1
  simp only [parseTfPropOf] at h2
  split_ifs at h2
  · simp only [bind_ok, ok_inj, Prod.mk.injEq] at h2
    obtain ⟨r, h3, r', h4, _, h5⟩ := h2
    obtain ⟨_, rfl⟩ := rd_HH h3
    have h6 : (off + 4 : Nat) ≤ off + u16 m (off + 2) := by
      simp only [listFetch, bind_ok, pyAssert_ok, ok_inj, exists_const] at h4
      obtain ⟨_, g1, g2, _⟩ := h4
      have := whileFetch_ge g1
      simp [calcsize, Item.width] at this
      omega
    have := align_ge (u16 m (off + 2))
    simp only at h5
    omega
  all_goals simp only [bind_ok] at h2; obtain ⟨r, h3, h2⟩ := h2
  · obtain ⟨_, rfl⟩ := rd_HH h3
    simp only at h2
    split_ifs at h2
    simp only [bind_ok, ok_inj, Prod.mk.injEq] at h2
    obtain ⟨_, _, _, h5⟩ := h2
    simp [calcsize, Item.width] at h5
    omega
  · simp at h2
  · obtain ⟨_, rfl⟩ := rd_HH h3
    simp only at h2
    split_ifs at h2
    simp only [bind_ok, ok_inj, Prod.mk.injEq] at h2
    obtain ⟨r, h4, _, h5⟩ := h2
    have := (rd_ok h4).1
    simp [calcsize, Item.width] at this
    omega
  · obtain ⟨_, c, d, rfl⟩ := rd_HHII h3
    simp only [ok_inj, Prod.mk.injEq] at h2
    omega

theorem tfProp_nd {m off} : parseTfProp m off ≠ .error .diverges :=
  bind_stuck rd_stuck fun _ _ h => by
    simp only [parseTfPropOf] at h
    split_ifs at h
    · exact bind_stuck rd_stuck (fun _ _ => bind_stuck (list_nd (fun _ => id_nd) (fun _ _ _ => id_step)) fun _ _ => ok_stuck) h
    · refine bind_stuck rd_stuck (fun _ _ h => ?_) h
      split_ifs at h
      · exact err_stuck (by simp) h
      · exact bind_stuck rd_stuck (fun _ _ => ok_stuck) h
    · exact bind_stuck rd_stuck (fun _ _ => err_stuck (by simp)) h
    · refine bind_stuck rd_stuck (fun _ _ h => ?_) h
      split_ifs at h
      · exact err_stuck (by simp) h
      · exact bind_stuck rd_stuck (fun _ _ => ok_stuck) h
    · exact bind_stuck rd_stuck (fun _ _ => ok_stuck) h
    · exact err_stuck (by simp) h

theorem portProp_nd {t m off} : parsePortPropOf t m off ≠ .error .diverges := by
  intro h
  unfold parsePortPropOf at h
  split_ifs at h
  · exact rd_nd h
  · exact rd_nd h
  · exact exp_nd h
  · exact err_stuck (by simp) h

theorem port_nd {m off} : parsePort m off ≠ .error .diverges :=
  bind_stuck rd_stuck fun _ _ h => by
    simp only at h
    split_ifs at h
    · exact bind_stuck rd_stuck (fun _ _ => portProp_nd) h
    · exact err_stuck (by simp) h

theorem port_step {m off a o'} (h : parsePort m off = .ok (a, o')) : off < o' := by
  simp only [parsePort, bind_ok] at h
  obtain ⟨r, h1, h2⟩ := h
  have h1 := (rd_ok h1).1
  have hc : calcsize portFmt = 40 := rfl
  rw [hc] at h1
  split_ifs at h2
  simp only [bind_ok] at h2
  obtain ⟨r', h3, h2⟩ := h2
  simp only [parsePortPropOf] at h2
  split_ifs at h2
  · have := rd_step h2 (by decide); omega
  · have := rd_step h2 (by decide); omega
  · simp only [parseExp, bind_ok, ok_inj, Prod.mk.injEq] at h2
    obtain ⟨_, _, _, h5⟩ := h2
    simp only [id] at h5
    omega

/-! ### records -/

theorem single_stuck {Q : Prop} {r : Py (Rec × Nat)} (h : r = .error .diverges → Q) (hs : single r = .error .diverges) : Q :=
  bind_stuck h (fun _ _ => ok_stuck) hs

theorem several_stuck {Q : Prop} {r : Py (List Rec × Nat)} (h : r = .error .diverges → Q) (hs : several r = .error .diverges) : Q :=
  bind_stuck h (fun _ _ => ok_stuck) hs

theorem flowStats_stuck {m off} : parseFlowStats m off = .error .diverges → From (ZeroLength m) off :=
  bind_stuck rd_stuck fun _ h1 => bind_stuck (fun h => absurd h match_nd) fun r h2 =>
    bind_stuck (fun h => (instrs_stuck h).mono (by
      have e1 := (rd_ok h1).1
      have e2 := match_step (a := r.1) (o' := r.2) h2
      omega)) fun _ _ => ok_stuck

theorem flowStats_step {m off a o'} (h : parseFlowStats m off = .ok (a, o')) : off < o' := by
  simp only [parseFlowStats, bind_ok, ok_inj, Prod.mk.injEq] at h
  obtain ⟨_, h1, _, h2, _, h3, _, h4⟩ := h
  have e1 := (rd_ok h1).1
  have e2 := match_step h2
  have e3 := listFetch_ge h3
  have : calcsize flowStatsFmt = 48 := rfl
  omega

theorem groupDesc_stuck {m off} : parseGroupDesc m off = .error .diverges → From (ZeroLength m) off :=
  bind_stuck rd_stuck fun _ h1 =>
    bind_stuck (fun h => (list_stuck (P := ZeroLength m) (fun _ => bucket_stuck) (fun _ _ _ h => .inl (bucket_step h)) h).mono (by
      have e1 := (rd_ok h1).1
      omega)) fun _ _ => ok_stuck

theorem groupDesc_step {m off a o'} (h : parseGroupDesc m off = .ok (a, o')) : off < o' := by
  simp only [parseGroupDesc, bind_ok, ok_inj, Prod.mk.injEq] at h
  obtain ⟨_, h1, _, h3, _, h4⟩ := h
  have e1 := (rd_ok h1).1
  have e3 := listFetch_ge h3
  simp [calcsize, Item.width] at e1
  omega

theorem bands_list_stuck {m limit off} (h : listFetch (parseBand m) limit off = .error .diverges) : From (ExperimenterBand m) off :=
  list_stuck (fun _ h => absurd h band_nd) (fun _ _ _ h => (band_step h).imp_right And.right) h

theorem meterConfig_stuck {m off} : parseMeterConfig m off = .error .diverges → From (ExperimenterBand m) off :=
  bind_stuck rd_stuck fun _ h1 => bind_stuck (fun h => (bands_list_stuck h).mono (by
      have e1 := (rd_ok h1).1
      omega)) fun _ _ => ok_stuck

theorem meterConfig_step {m off a o'} (h : parseMeterConfig m off = .ok (a, o')) : off < o' := by
  simp only [parseMeterConfig, bind_ok, ok_inj, Prod.mk.injEq] at h
  obtain ⟨_, h1, _, h3, _, h4⟩ := h
  have e1 := (rd_ok h1).1
  have e3 := listFetch_ge h3
  simp [calcsize, Item.width] at e1
  omega

theorem groupStats_step {m off a o'} (h : parseGroupStats m off = .ok (a, o')) : off < o' := by
  simp only [parseGroupStats, bind_ok, ok_inj, Prod.mk.injEq] at h
  obtain ⟨_, h1, _, h3, _, h4⟩ := h
  have e1 := (rd_ok h1).1
  have e3 := listFetch_ge h3
  have : calcsize groupStatsFmt = 40 := rfl
  omega

theorem groupStats_nd {m off} : parseGroupStats m off ≠ .error .diverges :=
  bind_stuck rd_stuck fun _ _ => bind_stuck pairs_nd fun _ _ => ok_stuck

theorem meterStats_step {m off a o'} (h : parseMeterStats m off = .ok (a, o')) : off < o' := by
  simp only [parseMeterStats, bind_ok, ok_inj, Prod.mk.injEq] at h
  obtain ⟨_, h1, _, h3, _, h4⟩ := h
  have e1 := (rd_ok h1).1
  have e3 := listFetch_ge h3
  have : calcsize meterStatsFmt = 40 := rfl
  omega

theorem meterStats_nd {m off} : parseMeterStats m off ≠ .error .diverges :=
  bind_stuck rd_stuck fun _ _ => bind_stuck pairs_nd fun _ _ => ok_stuck

theorem portRec_nd {m off} : parsePortRec m off ≠ .error .diverges := bind_stuck port_nd fun _ _ => ok_stuck

theorem portRec_step {m off a o'} (h : parsePortRec m off = .ok (a, o')) : off < o' := by
  simp only [parsePortRec, bind_ok, ok_inj, Prod.mk.injEq] at h
  obtain ⟨_, h1, _, rfl⟩ := h
  exact port_step (a := _) h1

theorem tableFeatures_nd {m off} : parseTableFeatures m off ≠ .error .diverges :=
  bind_stuck rd_stuck fun _ _ => bind_stuck (while_nd (fun _ => tfProp_nd) (fun _ _ _ => tfProp_step)) fun _ _ => ok_stuck

theorem tableFeatures_step {m off a o'} (h : parseTableFeatures m off = .ok (a, o')) : off < o' := by
  simp only [parseTableFeatures, bind_ok, ok_inj, Prod.mk.injEq] at h
  obtain ⟨_, h1, _, h3, _, h4⟩ := h
  have e1 := (rd_ok h1).1
  have e3 := whileFetch_ge h3
  have : calcsize tableFeaturesFmt = 64 := rfl
  omega

theorem portStats_stuck {m off} : parsePortStats m off = .error .diverges → From (ZeroProp m) off :=
  bind_stuck rd_stuck fun _ h1 =>
    bind_stuck (fun h => (while_stuck (P := ZeroProp m) (fun _ h => absurd h psProp_nd) (fun _ _ _ => psProp_step) h).mono (by
      have e1 := (rd_ok h1).1
      omega)) fun _ _ => err_stuck (by simp)

theorem queueStats_stuck {m off} : parseQueueStats m off = .error .diverges → From (ZeroProp m) off :=
  bind_stuck rd_stuck fun _ h1 =>
    bind_stuck (fun h => (while_stuck (P := ZeroProp m) (fun _ h => absurd h qsProp_nd) (fun _ _ _ => qsProp_step) h).mono (by
      have e1 := (rd_ok h1).1
      omega)) fun _ _ => err_stuck (by simp)

theorem queueDesc_stuck {m off} : parseQueueDesc m off = .error .diverges → From (ZeroProp m) off :=
  bind_stuck rd_stuck fun _ h1 =>
    bind_stuck (fun h => (while_stuck (P := ZeroProp m) (fun _ h => absurd h qdProp_nd) (fun _ _ _ => qdProp_step) h).mono (by
      have e1 := (rd_ok h1).1
      omega)) fun _ _ => ok_stuck

theorem queueDesc_step {m off a o'} (h : parseQueueDesc m off = .ok (a, o')) : off < o' := by
  simp only [parseQueueDesc, bind_ok, ok_inj, Prod.mk.injEq] at h
  obtain ⟨_, h1, _, h3, _, h4⟩ := h
  have e1 := (rd_ok h1).1
  have e3 := whileFetch_ge h3
  simp [calcsize, Item.width] at e1
  omega

theorem never_step {m off a o'} {p : Bytes → Nat → Py (Rec × Nat)} (hp : ∀ r, p m off ≠ .ok r) (h : p m off = .ok (a, o')) : off < o' :=
  absurd h (hp _)

theorem reqBody_nd {t m lim off} : parseReqBody t m lim off ≠ .error .diverges := by
  intro h
  unfold parseReqBody at h
  rcases ite_or h with ⟨_, h⟩ | h
  · exact ok_stuck h
  rcases ite_or h with ⟨_, h⟩ | h
  · exact single_stuck (bind_stuck rd_stuck fun _ _ => bind_stuck match_nd fun _ _ => ok_stuck) h
  rcases ite_or h with ⟨_, h⟩ | h
  · exact single_stuck (bind_stuck rd_stuck fun _ _ => bind_stuck match_nd fun _ _ => ok_stuck) h
  rcases ite_or h with ⟨_, h⟩ | h
  · exact single_stuck rd_stuck h
  rcases ite_or h with ⟨_, h⟩ | h
  · exact single_stuck rd_stuck h
  rcases ite_or h with ⟨_, h⟩ | h
  · exact single_stuck rd_stuck h
  rcases ite_or h with ⟨_, h⟩ | h
  · exact err_stuck (by simp) h
  rcases ite_or h with ⟨_, h⟩ | h
  · exact single_stuck rd_stuck h
  rcases ite_or h with ⟨_, h⟩ | h
  · exact single_stuck (bind_stuck rd_stuck fun _ _ => bind_stuck match_nd fun _ _ => ok_stuck) h
  rcases ite_or h with ⟨_, h⟩ | h
  · exact several_stuck (while_nd (fun _ => tableFeatures_nd) (fun _ _ _ => tableFeatures_step)) h
  rcases ite_or h with ⟨_, h⟩ | h
  · exact ok_stuck h
  exact err_stuck (by simp) h

theorem repBody_stuck {t m lim off} (h : parseRepBody t m lim off = .error .diverges) :
    ((t = 1 ∨ t = 7) ∧ From (ZeroLength m) off) ∨ (t = 10 ∧ From (ExperimenterBand m) off) ∨
    ((t = 4 ∨ t = 5 ∨ t = 15) ∧ From (ZeroProp m) off) := by
  unfold parseRepBody at h
  rcases ite_or h with ⟨c0, h⟩ | h
  · exact single_stuck rd_stuck h
  rcases ite_or h with ⟨c1, h⟩ | h
  · exact .inl ⟨.inl c1, several_stuck (list_stuck (fun _ => flowStats_stuck) (fun _ _ _ h => .inl (flowStats_step h))) h⟩
  rcases ite_or h with ⟨c2, h⟩ | h
  · exact several_stuck (fun h => absurd h (list_nd (fun _ => rd_nd) (fun _ _ _ h => rd_step h (by decide)))) h
  rcases ite_or h with ⟨c3, h⟩ | h
  · exact several_stuck (fun h => absurd h (list_nd (fun _ => bind_stuck rd_stuck fun _ _ => err_stuck (by simp))
      (fun _ _ _ h => by simp [bind_ok] at h))) h
  rcases ite_or h with ⟨c4, h⟩ | h
  · exact .inr (.inr ⟨.inl c4, several_stuck (list_stuck (fun _ => portStats_stuck)
      (fun _ _ _ h => by simp [parsePortStats, bind_ok] at h)) h⟩)
  rcases ite_or h with ⟨c5, h⟩ | h
  · exact .inr (.inr ⟨.inr (.inl c5), several_stuck (list_stuck (fun _ => queueStats_stuck)
      (fun _ _ _ h => by simp [parseQueueStats, bind_ok] at h)) h⟩)
  rcases ite_or h with ⟨c6, h⟩ | h
  · exact several_stuck (fun h => absurd h (list_nd (fun _ => groupStats_nd) (fun _ _ _ => groupStats_step))) h
  rcases ite_or h with ⟨c7, h⟩ | h
  · exact .inl ⟨.inr c7, several_stuck (list_stuck (fun _ => groupDesc_stuck) (fun _ _ _ h => .inl (groupDesc_step h))) h⟩
  rcases ite_or h with ⟨c8, h⟩ | h
  · exact single_stuck (bind_stuck rd_stuck fun _ _ => bind_stuck rd_stuck fun _ _ => bind_stuck rd_stuck fun _ _ => ok_stuck) h
  rcases ite_or h with ⟨c9, h⟩ | h
  · exact several_stuck (fun h => absurd h (list_nd (fun _ => meterStats_nd) (fun _ _ _ => meterStats_step))) h
  rcases ite_or h with ⟨c10, h⟩ | h
  · exact .inr (.inl ⟨c10, several_stuck (list_stuck (fun _ => meterConfig_stuck) (fun _ _ _ h => .inl (meterConfig_step h))) h⟩)
  rcases ite_or h with ⟨c11, h⟩ | h
  · exact single_stuck rd_stuck h
  rcases ite_or h with ⟨c12, h⟩ | h
  · exact several_stuck (fun h => absurd h (list_nd (fun _ => tableFeatures_nd) (fun _ _ _ => tableFeatures_step))) h
  rcases ite_or h with ⟨c13, h⟩ | h
  · exact several_stuck (fun h => absurd h (list_nd (fun _ => portRec_nd) (fun _ _ _ => portRec_step))) h
  rcases ite_or h with ⟨c14, h⟩ | h
  · exact several_stuck (fun h => absurd h (list_nd (fun _ => bind_stuck rd_stuck fun _ _ => err_stuck (by simp))
      (fun _ _ _ h => by simp [bind_ok] at h))) h
  rcases ite_or h with ⟨c15, h⟩ | h
  · exact .inr (.inr ⟨.inr (.inr c15), several_stuck (list_stuck (fun _ => queueDesc_stuck)
      (fun _ _ _ h => .inl (queueDesc_step h))) h⟩)
  rcases ite_or h with ⟨c16, h⟩ | h
  · exact several_stuck (fun h => absurd h (list_nd (fun _ => rd_nd) (fun _ _ _ h => rd_step h (by decide)))) h
  rcases ite_or h with ⟨c17, h⟩ | h
  · exact single_stuck (bind_stuck rd_stuck fun _ _ => ok_stuck) h
  exact err_stuck (by simp) h

/-! ### messages -/

theorem hdr_nd {m off} : parseHdr m off ≠ .error .diverges :=
  bind_stuck rd_stuck fun _ _ => bind_stuck assert_stuck fun _ _ => ok_stuck

theorem hdr_stuck {m off} {Q : Prop} (h : parseHdr m off = .error .diverges) : Q := absurd h hdr_nd

theorem parseHdr_ok {m off r} (h : parseHdr m off = .ok r) :
    off + 8 ≤ m.length ∧ r.2 = off + 8 ∧ r.1.type = u8 m (off + 1) := by
  simp only [parseHdr, bind_ok, pyAssert_ok, ok_inj, exists_const] at h
  obtain ⟨r', h1, _, rfl⟩ := h
  obtain ⟨e1, e2, e3⟩ := rd_ok h1
  have hc : calcsize hdrFmt = 8 := rfl
  rw [hc] at e1 e2
  refine ⟨e2, e1, ?_⟩
  simp only [hdrFmt, dec, four, Option.some.injEq] at e3
  rw [← e3]
  simp only [List.drop_drop]
  have : (m.drop (off + 1)).take 1 = [m.getD (off + 1) 0] := by
    apply List.ext_getElem
    · simp; omega
    · intro i h1 h2
      simp at h2
      subst h2
      simp [List.getD_eq_getElem?_getD, List.getElem?_eq_getElem (show off + 1 < m.length by omega)]
  rw [this]
  simp [decBE, u8]

theorem hello_nd {m off} : parseHello m off ≠ .error .diverges :=
  bind_stuck hdr_nd fun _ _ => bind_stuck (while_nd (fun _ => helloElem_nd) (fun _ _ _ => helloElem_step)) fun _ _ =>
    bind_stuck assert_stuck fun _ _ => ok_stuck

theorem packetIn_nd {m off} : parsePacketIn m off ≠ .error .diverges :=
  bind_stuck hdr_nd fun _ _ => bind_stuck rd_stuck fun _ _ => bind_stuck match_nd fun _ _ => bind_stuck rd_stuck fun _ _ => ok_stuck

theorem flowRemoved_nd {m off} : parseFlowRemoved m off ≠ .error .diverges :=
  bind_stuck hdr_nd fun _ _ => bind_stuck rd_stuck fun _ _ => bind_stuck match_nd fun _ _ => ok_stuck

theorem portStatus_nd {m off} : parsePortStatus m off ≠ .error .diverges :=
  bind_stuck hdr_nd fun _ _ => bind_stuck rd_stuck fun _ _ => bind_stuck port_nd fun _ _ => ok_stuck

theorem async_nd {m off} : parseAsync m off ≠ .error .diverges :=
  bind_stuck hdr_nd fun _ _ => bind_stuck (while_nd (fun _ => asyncProp_nd) (fun _ _ _ => asyncProp_step)) fun _ _ => ok_stuck

theorem mpRequest_nd {m off} : parseMpRequest m off ≠ .error .diverges :=
  bind_stuck hdr_nd fun _ _ => bind_stuck rd_stuck fun _ _ => bind_stuck reqBody_nd fun _ _ => ok_stuck

theorem tableStatus_nd {m off} : parseTableStatus m off ≠ .error .diverges :=
  bind_stuck hdr_nd fun _ _ => bind_stuck rd_stuck fun _ _ =>
    bind_stuck (bind_stuck rd_stuck fun _ _ => err_stuck (by simp)) fun _ _ => err_stuck (by simp)

theorem bundleCtrl_nd {m off} : parseBundleCtrl m off ≠ .error .diverges :=
  bind_stuck hdr_nd fun _ _ => bind_stuck rd_stuck fun _ _ =>
    bind_stuck (while_nd (fun _ => bind_stuck rd_stuck fun _ _ => err_stuck (by simp))
      (fun _ _ _ h => by simp [bind_ok] at h)) fun _ _ => ok_stuck

theorem packetOut_stuck {m off} : parsePacketOut m off = .error .diverges → From (ZeroLength m) off :=
  bind_stuck hdr_stuck fun _ h1 => bind_stuck rd_stuck fun _ h2 => bind_stuck (fun h => (actions_stuck h).mono (by
    have e1 := (parseHdr_ok h1).2.1
    have e2 := (rd_ok h2).1
    omega)) fun _ _ => ok_stuck

theorem flowMod_stuck {m off} : parseFlowMod m off = .error .diverges → From (ZeroLength m) off :=
  bind_stuck hdr_stuck fun _ h1 => bind_stuck rd_stuck fun _ h2 => bind_stuck (fun h => absurd h match_nd) fun r h3 =>
    bind_stuck (fun h => (instrs_stuck h).mono (by
      have e1 := (parseHdr_ok h1).2.1
      have e2 := (rd_ok h2).1
      have e3 := match_step (a := r.1) (o' := r.2) h3
      omega)) fun _ _ => ok_stuck

theorem groupMod_stuck {m off} : parseGroupMod m off = .error .diverges → From (ZeroLength m) off :=
  bind_stuck hdr_stuck fun _ h1 => bind_stuck rd_stuck fun _ h2 =>
    bind_stuck (fun h => (while_stuck (P := ZeroLength m) (fun _ => bucket_stuck) (fun _ _ _ h => .inl (bucket_step h)) h).mono (by
      have e1 := (parseHdr_ok h1).2.1
      have e2 := (rd_ok h2).1
      omega)) fun _ _ => ok_stuck

theorem meterMod_stuck {m off} : parseMeterMod m off = .error .diverges → From (ExperimenterBand m) off :=
  bind_stuck hdr_stuck fun _ h1 => bind_stuck rd_stuck fun _ h2 =>
    bind_stuck (fun h => (while_stuck (P := ExperimenterBand m) (fun _ h => absurd h band_nd)
        (fun _ _ _ h => (band_step h).imp_right And.right) h).mono (by
      have e1 := (parseHdr_ok h1).2.1
      have e2 := (rd_ok h2).1
      omega)) fun _ _ => ok_stuck

theorem tableMod_stuck {m off} : parseTableMod m off = .error .diverges → From (ZeroProp m) off :=
  bind_stuck hdr_stuck fun _ h1 => bind_stuck rd_stuck fun _ h2 =>
    bind_stuck (fun h => (while_stuck (P := ZeroProp m) (fun _ h => absurd h tmProp_nd) (fun _ _ _ => tmProp_step) h).mono (by
      have e1 := (parseHdr_ok h1).2.1
      have e2 := (rd_ok h2).1
      omega)) fun _ _ => ok_stuck

theorem portMod_stuck {m off} : parsePortMod m off = .error .diverges → From (fun o => ZeroProp m o ∨ UnknownProp m o) off :=
  bind_stuck hdr_stuck fun _ h1 => bind_stuck rd_stuck fun _ _ =>
    bind_stuck (fun h => (while_stuck (P := fun o => ZeroProp m o ∨ UnknownProp m o) (fun _ h => absurd h pmProp_nd)
        (fun _ _ _ h => (pmProp_step h).imp_right And.right) h).mono (by
      have e1 := (parseHdr_ok h1).2.1
      omega)) fun _ _ => ok_stuck

theorem roleProp_ok {s m off a o'} (h : parseRoleProp s m off = .ok (a, o')) : o' = off ∧ u16 m off = 0xffff := by
  simp only [parseRoleProp, bind_ok] at h
  obtain ⟨r, h1, h2⟩ := h
  obtain ⟨hl, rfl⟩ := rd_HH h1
  split_ifs at h2 with c
  simp only [bind_ok, ok_inj, Prod.mk.injEq] at h2
  obtain ⟨_, _, _, h3⟩ := h2
  exact ⟨h3.symm, c⟩

theorem roleProp_nd {s m off} : parseRoleProp s m off ≠ .error .diverges :=
  bind_stuck rd_stuck fun _ _ h => by
    simp only at h
    split_ifs at h
    · exact bind_stuck rd_stuck (fun _ _ => ok_stuck) h
    · exact err_stuck (by simp) h

theorem roleStatus_stuck {m off} : parseRoleStatus m off = .error .diverges → u16 m (off + 8) = 0xffff :=
  bind_stuck hdr_stuck fun _ h1 => bind_stuck rd_stuck fun _ _ => bind_stuck (fun h => by
      rw [(parseHdr_ok h1).2.1, whileFetch] at h
      split_ifs at h
      cases hr : parseRoleProp off m (off + 8) with
      | error e =>
        rw [hr] at h
        simp only [Except.error.injEq] at h
        exact absurd (h ▸ hr) roleProp_nd
      | ok r => exact (roleProp_ok (a := r.1) (o' := r.2) hr).2) fun _ _ => ok_stuck

theorem mpReply_stuck {m off} : parseMpReply m off = .error .diverges →
    (u16 m (off + 8) ∈ [1, 7] ∧ From (ZeroLength m) off) ∨ (u16 m (off + 8) = 10 ∧ From (ExperimenterBand m) off) ∨
    (u16 m (off + 8) ∈ [4, 5, 15] ∧ From (ZeroProp m) off) :=
  bind_stuck hdr_stuck fun r1 h1 => bind_stuck rd_stuck fun _ h2 => bind_stuck (fun h => by
    have e1 := (parseHdr_ok h1).2.1
    obtain ⟨_, rfl⟩ := rd_HH h2
    rw [e1] at h
    rcases repBody_stuck h with ⟨g1, g2⟩ | ⟨g1, g2⟩ | ⟨g1, g2⟩
    · exact .inl ⟨by simpa using g1, g2.mono (by omega)⟩
    · exact .inr (.inl ⟨g1, g2.mono (by omega)⟩)
    · exact .inr (.inr ⟨by simpa using g1, g2.mono (by omega)⟩)) fun _ _ => ok_stuck

theorem parseOf_stuck {m off} (h : parseOf (u8 m (off + 1)) m off = .error .diverges) : From (Blocks m off) off := by
  unfold From Blocks
  generalize ht : u8 m (off + 1) = t at h ⊢
  unfold parseOf at h
  rcases ite_or h with ⟨c0, h⟩ | h
  · exact absurd h hello_nd
  rcases ite_or h with ⟨c1, h⟩ | h
  · exact bind_stuck hdr_stuck (fun _ _ => bind_stuck rd_stuck fun _ _ => ok_stuck) h
  rcases ite_or h with ⟨c6, h⟩ | h
  · exact bind_stuck hdr_stuck (fun _ _ => rd_stuck) h
  rcases ite_or h with ⟨c9, h⟩ | h
  · exact bind_stuck hdr_stuck (fun _ _ => rd_stuck) h
  rcases ite_or h with ⟨c10, h⟩ | h
  · exact absurd h packetIn_nd
  rcases ite_or h with ⟨c11, h⟩ | h
  · exact absurd h flowRemoved_nd
  rcases ite_or h with ⟨c12, h⟩ | h
  · exact absurd h portStatus_nd
  rcases ite_or h with ⟨c13, h⟩ | h
  · obtain ⟨o, h1, h2⟩ := packetOut_stuck h
    exact ⟨o, h1, .inl ⟨.inl (by simp [c13]), h2⟩⟩
  rcases ite_or h with ⟨c14, h⟩ | h
  · obtain ⟨o, h1, h2⟩ := flowMod_stuck h
    exact ⟨o, h1, .inl ⟨.inl (by simp [c14]), h2⟩⟩
  rcases ite_or h with ⟨c15, h⟩ | h
  · obtain ⟨o, h1, h2⟩ := groupMod_stuck h
    exact ⟨o, h1, .inl ⟨.inl (by simp [c15]), h2⟩⟩
  rcases ite_or h with ⟨c16, h⟩ | h
  · obtain ⟨o, h1, h2 | h2⟩ := portMod_stuck h
    · exact ⟨o, h1, .inr (.inr (.inl ⟨.inl (by simp [c16]), h2⟩))⟩
    · exact ⟨o, h1, .inr (.inr (.inr (.inl ⟨c16, h2⟩)))⟩
  rcases ite_or h with ⟨c17, h⟩ | h
  · obtain ⟨o, h1, h2⟩ := tableMod_stuck h
    exact ⟨o, h1, .inr (.inr (.inl ⟨.inl (by simp [c17]), h2⟩))⟩
  rcases ite_or h with ⟨c18, h⟩ | h
  · exact absurd h mpRequest_nd
  rcases ite_or h with ⟨c19, h⟩ | h
  · rcases mpReply_stuck h with ⟨g, o, h1, h2⟩ | ⟨g, o, h1, h2⟩ | ⟨g, o, h1, h2⟩
    · exact ⟨o, h1, .inl ⟨.inr ⟨c19, g⟩, h2⟩⟩
    · exact ⟨o, h1, .inr (.inl ⟨.inr ⟨c19, g⟩, h2⟩)⟩
    · exact ⟨o, h1, .inr (.inr (.inl ⟨.inr ⟨c19, g⟩, h2⟩))⟩
  rcases ite_or h with ⟨c4, h⟩ | h
  · exact bind_stuck hdr_stuck (fun _ _ => bind_stuck rd_stuck fun _ _ => ok_stuck) h
  rcases ite_or h with ⟨c28, h⟩ | h
  · exact absurd h async_nd
  rcases ite_or h with ⟨c29, h⟩ | h
  · obtain ⟨o, h1, h2⟩ := meterMod_stuck h
    exact ⟨o, h1, .inr (.inl ⟨.inl c29, h2⟩)⟩
  rcases ite_or h with ⟨c30, h⟩ | h
  · exact ⟨off + 8, by omega, .inr (.inr (.inr (.inr ⟨c30, rfl, roleStatus_stuck h⟩)))⟩
  rcases ite_or h with ⟨c31, h⟩ | h
  · exact absurd h tableStatus_nd
  rcases ite_or h with ⟨c33, h⟩ | h
  · exact absurd h bundleCtrl_nd
  exact bind_stuck hdr_stuck (fun _ _ => ok_stuck) h

theorem parseAt_stuck {m off} (h : parseAt m off = .error .diverges) : ∃ p, Inner m off p ∧ From (Blocks m p) p := by
  induction hk : m.length - off using Nat.strong_induction_on generalizing off with
  | _ k ih =>
    rw [parseAt] at h
    split at h
    · rename_i e he
      injection h with h
      exact absurd (h ▸ he) hdr_nd
    · rename_i hd _ he
      obtain ⟨g1, _, g3⟩ := parseHdr_ok he
      have g3 : hd.type = u8 m (off + 1) := g3
      rw [g3] at h
      split_ifs at h with c1 c2
      · have h : parseAt m (off + 8) = .error .diverges :=
          bind_stuck hdr_stuck (fun _ _ => bind_stuck (fun h => h) fun _ _ => ok_stuck) h
        obtain ⟨p, i1, i2⟩ := ih _ (by omega) h rfl
        exact ⟨p, .forwarded _ _ c1 i1, i2⟩
      · have h : parseAt m (off + 16) = .error .diverges :=
          bind_stuck hdr_stuck (fun _ _ => bind_stuck rd_stuck fun _ _ => bind_stuck (fun h => h) fun _ _ h => by
            rcases ite_or h with ⟨_, h⟩ | h
            · exact err_stuck (by simp) h
            · exact ok_stuck h) h
        obtain ⟨p, i1, i2⟩ := ih _ (by omega) h rfl
        exact ⟨p, .bundled _ _ c2 i1, i2⟩
      · exact ⟨off, .here off, parseOf_stuck h⟩

theorem parse_stuck {m off} (h : parse m off = .error .diverges) : ∃ p, Inner m off p ∧ From (Blocks m p) p :=
  parseAt_stuck (bind_stuck (fun h => h) (fun _ _ => ok_stuck) h)

end Twink.Of14
