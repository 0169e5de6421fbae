import Verif.Proof.Shift

/-!
# Parsing in a buffer that goes on behind the message

Helper lemmas for C102: a parse function that succeeds, with its cursor still inside the buffer, does the same if more
bytes follow.
-/

namespace Twink.Suffix
open Fmt Of13 Shift Spec

theorem dec_suffix (f : Fmt) (b s : Bytes) (h : calcsize f ≤ b.length) : dec f (b ++ s) = dec f b := by
  induction f generalizing b with
  | nil => rfl
  | cons i f ih =>
    rw [calcsize] at h
    have hw : i.width ≤ b.length := by omega
    have hd : calcsize f ≤ (b.drop i.width).length := by rw [List.length_drop]; omega
    cases i <;>
    simp only [dec, Item.width] at hw hd ⊢ <;>
    simp only [List.drop_append_of_le_length hw, ih _ hd, List.take_append_of_le_length hw]

theorem unpackFrom_suffix {f : Fmt} {m : Bytes} {o : Nat} {v} (s : Bytes) (h : unpackFrom f m o = .ok v) :
    unpackFrom f (m ++ s) o = .ok v := by
  unfold unpackFrom at h ⊢
  split at h
  · rename_i hle
    rw [if_pos (by rw [List.length_append]; omega), List.drop_append_of_le_length (by omega), dec_suffix]
    · exact h
    · rw [List.length_drop]; omega
  · cases h

theorem rd_suffix {f : Fmt} {m : Bytes} {o : Nat} {k : List Val → Option α} {r} (s : Bytes) (h : rd f m o k = .ok r) :
    rd f (m ++ s) o k = .ok r := by
  unfold rd at h ⊢
  cases hu : unpackFrom f m o with
  | error e => rw [hu] at h; cases h
  | ok v => rw [hu] at h; rw [unpackFrom_suffix s hu]; exact h

theorem slice_suffix (m s : Bytes) (i j : Nat) (h : j ≤ m.length) : slice (m ++ s) i j = slice m i j := by
  unfold slice
  by_cases hi : i ≤ m.length
  · rw [List.drop_append_of_le_length hi, List.take_append_of_le_length (by rw [List.length_drop]; omega)]
  · rw [show j - i = 0 by omega, List.take_zero, List.take_zero]

theorem step {x y : Py α} {F G : α → Py β} {r} (hx : ∀ a, x = .ok a → y = .ok a) (h : (x >>= F) = .ok r)
    (hF : ∀ a, x = .ok a → F a = .ok r → G a = .ok r) : (y >>= G) = .ok r := by
  cases hh : x with
  | error e => rw [hh] at h; cases h
  | ok a => rw [hh] at h; rw [hx a hh]; exact hF a hh h

theorem while_ext {F G : Nat → Py (α × Nat)} {n l o : Nat} {as : List α} {o' : Nat}
    (hF : ∀ o a o', o < o' → F o = .ok (a, o') → o' ≤ n → G o = .ok (a, o'))
    (h : whileFetch F l o = .ok (as, o')) (hn : o' ≤ n) : whileFetch G l o = .ok (as, o') := by
  fun_induction whileFetch F l o generalizing as o' with
  | case1 o hlt e he => cases h
  | case2 => cases h
  | case3 o hlt a o1 he hlt' as1 o2 hw ih =>
    cases h
    have := whileFetch_ge hw
    rw [whileFetch, if_pos hlt, hF _ _ _ hlt' he (by simp only at this; omega)]
    simp only
    rw [if_pos hlt', ih hw hn]
  | case4 => cases h
  | case5 o hlt => cases h; rw [whileFetch, if_neg hlt]

theorem list_ext {F G : Nat → Py (α × Nat)} {n l o : Nat} {as : List α} {o' : Nat}
    (hF : ∀ o a o', o < o' → F o = .ok (a, o') → o' ≤ n → G o = .ok (a, o'))
    (h : listFetch F l o = .ok (as, o')) (hn : l ≤ n) : listFetch G l o = .ok (as, o') := by
  unfold listFetch at h ⊢
  rw [bind_ok] at h
  obtain ⟨⟨bs, o1⟩, h1, h⟩ := h
  rw [bind_ok] at h
  obtain ⟨_, h2, h⟩ := h
  have h3 := (pyAssert_ok ..).1 h2
  simp only at h3
  rw [while_ext hF h1 (by omega), ok_bind, h2]
  exact h

theorem listFetch_limit {F : Nat → Py (α × Nat)} {l o : Nat} {r} (h : listFetch F l o = .ok r) : r.2 = l := by
  unfold listFetch at h
  rw [bind_ok] at h
  obtain ⟨r', h1, h⟩ := h
  rw [bind_ok] at h
  obtain ⟨_, h2, h⟩ := h
  cases h
  exact pyAssert_ok.1 h2

variable {m : Bytes} (s : Bytes) {o : Nat}

theorem hdr_suffix {r} (h : Of13.parseHdr m o = .ok r) : Of13.parseHdr (m ++ s) o = .ok r := by
  unfold Of13.parseHdr at h ⊢
  exact step (fun _ h => rd_suffix s h) h fun _ _ h => h

theorem port_suffix {r} (h : Of13.parsePort m o = .ok r) : Of13.parsePort (m ++ s) o = .ok r := by
  unfold Of13.parsePort at h ⊢
  exact step (fun _ h => rd_suffix s h) h fun _ _ h => h

theorem match_suffix {a o'} (h : Of13.parseMatch m o = .ok (a, o')) (hn : o' ≤ m.length) :
    Of13.parseMatch (m ++ s) o = .ok (a, o') := by
  unfold Of13.parseMatch at h ⊢
  refine step (fun _ h => rd_suffix s h) h ?_
  rintro ⟨⟨t, l⟩, o1⟩ h1 h
  simp only at h ⊢
  injection h with h
  have h2 := congrArg Prod.snd h
  simp only at h2
  have h3 : l ≤ align l := by unfold align; omega
  rw [slice_suffix _ _ _ _ (by omega), h]

theorem ite_step {c : Prop} [Decidable c] {x y x' y' : Py α} {r} (h : (if c then x else x') = .ok r)
    (h1 : x = .ok r → y = .ok r) (h2 : x' = .ok r → y' = .ok r) : (if c then y else y') = .ok r := by
  split
  · rename_i hc; rw [if_pos hc] at h; exact h1 h
  · rename_i hc; rw [if_neg hc] at h; exact h2 h

/-- goes through the branches of a function -/
macro "branches" h:ident : tactic => `(tactic| repeat' (refine ite_step $h (fun $h => ?_) (fun $h => ?_); skip))

/-- a branch that reads a record and takes the bytes up to its end -/
macro "upto" h:ident s:ident : tactic => `(tactic| (
  refine step (fun _ h => rd_suffix $s h) $h ?_
  intro _ _ $h:ident
  simp only at $h:ident ⊢
  injection $h:ident with $h:ident
  have h2 := congrArg Prod.snd $h
  simp only at h2
  rw [slice_suffix _ _ _ _ (by omega), $h:ident]))

theorem actionOf_suffix {t a o'} (h : Of13.parseActionOf t m o = .ok (a, o')) (hn : o' ≤ m.length) :
    Of13.parseActionOf t (m ++ s) o = .ok (a, o') := by
  unfold Of13.parseActionOf at h ⊢
  branches h
  all_goals first
    | exact rd_suffix s h
    | cases h
    | upto h s

theorem action_suffix {a o'} (h : Of13.parseAction m o = .ok (a, o')) (hn : o' ≤ m.length) :
    Of13.parseAction (m ++ s) o = .ok (a, o') := by
  unfold Of13.parseAction at h ⊢
  exact step (fun _ h => rd_suffix s h) h fun _ _ h => actionOf_suffix s h hn

theorem instrOf_suffix {t a o'} (h : Of13.parseInstrOf t m o = .ok (a, o')) (hn : o' ≤ m.length) :
    Of13.parseInstrOf t (m ++ s) o = .ok (a, o') := by
  unfold Of13.parseInstrOf at h ⊢
  branches h
  all_goals first
    | exact rd_suffix s h
    | cases h
    | upto h s
    | skip
  refine step (fun _ h => rd_suffix s h) h ?_
  rintro ⟨⟨ty, l⟩, o1⟩ h1 h
  simp only at h ⊢
  rw [bind_ok] at h
  obtain ⟨⟨as, o2⟩, h2, h⟩ := h
  simp only at h
  rw [bind_ok] at h
  obtain ⟨_, h3, h⟩ := h
  cases h
  rw [while_ext (fun _ _ _ _ h hn => action_suffix s h hn) h2 hn, ok_bind, h3]
  rfl

theorem instr_suffix {a o'} (h : Of13.parseInstr m o = .ok (a, o')) (hn : o' ≤ m.length) :
    Of13.parseInstr (m ++ s) o = .ok (a, o') := by
  unfold Of13.parseInstr at h ⊢
  exact step (fun _ h => rd_suffix s h) h fun _ _ h => instrOf_suffix s h hn

theorem bucket_suffix {a o'} (h : Of13.parseBucket m o = .ok (a, o')) (hn : o' ≤ m.length) :
    Of13.parseBucket (m ++ s) o = .ok (a, o') := by
  unfold Of13.parseBucket at h ⊢
  refine step (fun _ h => rd_suffix s h) h ?_
  rintro ⟨⟨l, w, wp, wg⟩, o1⟩ h1 h
  simp only at h ⊢
  rw [bind_ok] at h
  obtain ⟨⟨as, o2⟩, h2, h⟩ := h
  cases h
  rw [while_ext (fun _ _ _ _ h hn => action_suffix s h hn) h2 hn]
  rfl

/-- (an experimenter band leaves the cursor where it was) -/
theorem band_suffix {a o'} (hp : o < o') (h : Of13.parseBand m o = .ok (a, o')) :
    Of13.parseBand (m ++ s) o = .ok (a, o') := by
  unfold Of13.parseBand at h ⊢
  refine step (fun _ h => rd_suffix s h) h fun _ _ h => ?_
  unfold Of13.parseBandOf at h ⊢
  branches h
  all_goals first
    | exact rd_suffix s h
    | cases h
    | skip
  rw [bind_ok] at h
  obtain ⟨_, _, h⟩ := h
  cases h
  omega

theorem flowStats_suffix {a o'} (h : Of13.parseFlowStats m o = .ok (a, o')) (hn : o' ≤ m.length) :
    Of13.parseFlowStats (m ++ s) o = .ok (a, o') := by
  unfold Of13.parseFlowStats at h ⊢
  refine step (fun _ h => rd_suffix s h) h ?_
  rintro ⟨⟨l, k⟩, o1⟩ h1 h
  simp only at h ⊢
  rw [bind_ok] at h
  obtain ⟨⟨mt, o2⟩, h2, h⟩ := h
  simp only at h
  rw [bind_ok] at h
  obtain ⟨⟨is, o3⟩, h3, h⟩ := h
  cases h
  have h4 := listFetch_ge h3
  have h5 := listFetch_limit h3
  simp only at h4 h5
  rw [match_suffix s h2 (by omega), ok_bind]
  simp only
  rw [list_ext (fun _ _ _ _ h hn => instr_suffix s h hn) h3 (by omega)]
  rfl

theorem groupStats_suffix {a o'} (h : Of13.parseGroupStats m o = .ok (a, o')) (hn : o' ≤ m.length) :
    Of13.parseGroupStats (m ++ s) o = .ok (a, o') := by
  unfold Of13.parseGroupStats at h ⊢
  refine step (fun _ h => rd_suffix s h) h ?_
  rintro ⟨⟨l, k⟩, o1⟩ h1 h
  simp only at h ⊢
  rw [bind_ok] at h
  obtain ⟨⟨is, o3⟩, h3, h⟩ := h
  cases h
  have h5 := listFetch_limit h3
  rw [list_ext (n := m.length) (G := parsePair (m ++ s)) (fun _ _ _ _ h _ => rd_suffix s h) h3 (by simp only at h5 hn; omega)]
  rfl

theorem meterStats_suffix {a o'} (h : Of13.parseMeterStats m o = .ok (a, o')) (hn : o' ≤ m.length) :
    Of13.parseMeterStats (m ++ s) o = .ok (a, o') := by
  unfold Of13.parseMeterStats at h ⊢
  refine step (fun _ h => rd_suffix s h) h ?_
  rintro ⟨⟨l, k⟩, o1⟩ h1 h
  simp only at h ⊢
  rw [bind_ok] at h
  obtain ⟨⟨is, o3⟩, h3, h⟩ := h
  cases h
  have h5 := listFetch_limit h3
  rw [list_ext (n := m.length) (G := parsePair (m ++ s)) (fun _ _ _ _ h _ => rd_suffix s h) h3 (by simp only at h5 hn; omega)]
  rfl

theorem groupDesc_suffix {a o'} (h : Of13.parseGroupDesc m o = .ok (a, o')) (hn : o' ≤ m.length) :
    Of13.parseGroupDesc (m ++ s) o = .ok (a, o') := by
  unfold Of13.parseGroupDesc at h ⊢
  refine step (fun _ h => rd_suffix s h) h ?_
  rintro ⟨⟨l, k⟩, o1⟩ h1 h
  simp only at h ⊢
  rw [bind_ok] at h
  obtain ⟨⟨is, o3⟩, h3, h⟩ := h
  cases h
  have h5 := listFetch_limit h3
  rw [list_ext (fun _ _ _ _ h hn => bucket_suffix s h hn) h3 (by simp only at h5; omega)]
  rfl

theorem meterConfig_suffix {a o'} (h : Of13.parseMeterConfig m o = .ok (a, o')) (hn : o' ≤ m.length) :
    Of13.parseMeterConfig (m ++ s) o = .ok (a, o') := by
  unfold Of13.parseMeterConfig at h ⊢
  refine step (fun _ h => rd_suffix s h) h ?_
  rintro ⟨⟨l, k⟩, o1⟩ h1 h
  simp only at h ⊢
  rw [bind_ok] at h
  obtain ⟨⟨is, o3⟩, h3, h⟩ := h
  cases h
  have h5 := listFetch_limit h3
  rw [list_ext (n := m.length) (fun _ _ _ hp h _ => band_suffix s hp h) h3 (by simp only at h5 hn; omega)]
  rfl

theorem groupFeatures_suffix {r} (h : Of13.parseGroupFeatures m o = .ok r) :
    Of13.parseGroupFeatures (m ++ s) o = .ok r := by
  unfold Of13.parseGroupFeatures at h ⊢
  refine step (fun _ h => rd_suffix s h) h fun _ _ h => ?_
  refine step (fun _ h => rd_suffix s h) h fun _ _ h => ?_
  exact step (fun _ h => rd_suffix s h) h fun _ _ h => h

theorem portRec_suffix {r} (h : Of13.parsePortRec m o = .ok r) : Of13.parsePortRec (m ++ s) o = .ok r := by
  unfold Of13.parsePortRec at h ⊢
  exact step (fun _ h => port_suffix s h) h fun _ _ h => h

theorem expMp_suffix {l r} (h : Of13.parseExperimenterMp l m o = .ok r) (hn : l ≤ m.length) :
    Of13.parseExperimenterMp l (m ++ s) o = .ok r := by
  unfold Of13.parseExperimenterMp at h ⊢
  refine step (fun _ h => rd_suffix s h) h fun _ _ h => ?_
  simp only at h ⊢
  rw [slice_suffix _ _ _ _ hn]
  exact h

theorem queue_suffix {a o'} (h : Of13.parseQueue m o = .ok (a, o')) (hn : o' ≤ m.length) :
    Of13.parseQueue (m ++ s) o = .ok (a, o') := by
  unfold Of13.parseQueue at h ⊢
  refine step (fun _ h => rd_suffix s h) h ?_
  rintro ⟨⟨q, p, l⟩, o1⟩ h1 h
  simp only at h ⊢
  rw [bind_ok] at h
  obtain ⟨⟨as, o2⟩, h2, h⟩ := h
  simp only at h
  rw [bind_ok] at h
  obtain ⟨_, h3, h⟩ := h
  cases h
  rw [while_ext (fun _ _ _ _ h hn => step (fun _ h => rd_suffix s h) h fun _ _ h => h) h2 hn, ok_bind, h3]
  rfl

theorem single_step {x y : Py (Rec × Nat)} {b} (hx : ∀ r, x = .ok r → y = .ok r) (h : single x = .ok b) :
    single y = .ok b := step hx h fun _ _ h => h

theorem several_step {x y : Py (List Rec × Nat)} {b} (hx : ∀ r, x = .ok r → y = .ok r) (h : several x = .ok b) :
    several y = .ok b := step hx h fun _ _ h => h

theorem repBody_suffix {t l b} (h : Of13.parseRepBody t m l o = .ok b) (hn : l ≤ m.length) :
    Of13.parseRepBody t (m ++ s) l o = .ok b := by
  unfold Of13.parseRepBody at h ⊢
  refine ite_step h (single_step fun _ h => rd_suffix s h) fun h => ?_
  refine ite_step h (several_step fun _ h => list_ext (fun _ _ _ _ h hn => flowStats_suffix s h hn) h hn) fun h => ?_
  refine ite_step h (several_step fun _ h => list_ext (fun _ _ _ _ h _ => rd_suffix s h) h hn) fun h => ?_
  refine ite_step h (several_step fun _ h => list_ext (fun _ _ _ _ h _ => rd_suffix s h) h hn) fun h => ?_
  refine ite_step h (several_step fun _ h => list_ext (fun _ _ _ _ h _ => rd_suffix s h) h hn) fun h => ?_
  refine ite_step h (several_step fun _ h => list_ext (fun _ _ _ _ h _ => rd_suffix s h) h hn) fun h => ?_
  refine ite_step h (several_step fun _ h => list_ext (fun _ _ _ _ h hn => groupStats_suffix s h hn) h hn) fun h => ?_
  refine ite_step h (several_step fun _ h => list_ext (fun _ _ _ _ h hn => groupDesc_suffix s h hn) h hn) fun h => ?_
  refine ite_step h (single_step fun _ h => groupFeatures_suffix s h) fun h => ?_
  refine ite_step h (several_step fun _ h => list_ext (fun _ _ _ _ h hn => meterStats_suffix s h hn) h hn) fun h => ?_
  refine ite_step h (several_step fun _ h => list_ext (fun _ _ _ _ h hn => meterConfig_suffix s h hn) h hn) fun h => ?_
  refine ite_step h (single_step fun _ h => rd_suffix s h) fun h => ?_
  refine ite_step h (several_step fun _ h => list_ext
    (fun _ _ _ _ h _ => step (fun _ h => rd_suffix s h) h fun _ _ h => h) h hn) fun h => ?_
  refine ite_step h (several_step fun _ h => list_ext (fun _ _ _ _ h _ => portRec_suffix s h) h hn) fun h => ?_
  exact ite_step h (single_step fun _ h => expMp_suffix s h hn) fun h => h

theorem versionBitmap_suffix {r} (h : Of13.parseVersionBitmap m o = .ok r) : Of13.parseVersionBitmap (m ++ s) o = .ok r := by
  unfold Of13.parseVersionBitmap at h ⊢
  refine step (fun _ h => rd_suffix s h) h fun _ _ h => ?_
  refine step (fun _ h => h) h fun _ _ h => ?_
  exact ite_step h (fun h => h) fun h => step (fun _ h => rd_suffix s h) h fun _ _ h => h

theorem helloElem_suffix {r} (h : Of13.parseHelloElem m o = .ok r) : Of13.parseHelloElem (m ++ s) o = .ok r := by
  unfold Of13.parseHelloElem at h ⊢
  refine step (fun _ h => rd_suffix s h) h fun _ _ h => ?_
  exact ite_step h (fun h => versionBitmap_suffix s h) fun h => h

/-- (match fields that end behind the message are cut off) -/
theorem reqBody_suffix {t l b} (h : Of13.parseReqBody t m l o = .ok b) (hn : l ≤ m.length) (h1 : t ≠ 1) (h2 : t ≠ 2) :
    Of13.parseReqBody t (m ++ s) l o = .ok b := by
  unfold Of13.parseReqBody at h ⊢
  refine ite_step h (fun h => h) fun h => ?_
  rw [if_neg h1, if_neg h2] at h ⊢
  refine ite_step h (single_step fun _ h => rd_suffix s h) fun h => ?_
  refine ite_step h (single_step fun _ h => rd_suffix s h) fun h => ?_
  refine ite_step h (single_step fun _ h => rd_suffix s h) fun h => ?_
  refine ite_step h (single_step fun _ h => rd_suffix s h) fun h => ?_
  refine ite_step h (several_step fun _ h => while_ext
    (fun _ _ _ _ h _ => step (fun _ h => rd_suffix s h) h fun _ _ h => h) h le_rfl) fun h => ?_
  refine ite_step h (fun h => ?_) fun h => h
  rw [slice_suffix _ _ _ _ hn]
  exact h

/-- the message types: header and fixed part -/
theorem parse_suffix {hd o1 r} (hh : Of13.parseHdr m o = .ok (hd, o1)) (hl : o + hd.length ≤ m.length)
    (h11 : hd.type ≠ 11) (h13 : hd.type ≠ 13) (h15 : hd.type ≠ 15)
    (h18 : hd.type = 18 → u16 m (o + 8) ≠ 1 ∧ u16 m (o + 8) ≠ 2) (h : Of13.parse m o = .ok r) : Of13.parse (m ++ s) o = .ok r := by
  unfold Of13.parse at h ⊢
  rw [hh, ok_bind] at h
  rw [hdr_suffix s hh, ok_bind]
  simp only at h ⊢
  have key : ∀ {F G : Hdr × Nat → Py Msg}, (Of13.parseHdr m o >>= F) = .ok r →
      (F (hd, o1) = .ok r → G (hd, o1) = .ok r) → (Of13.parseHdr (m ++ s) o >>= G) = .ok r := by
    intro F G h hF
    refine step (fun _ h => hdr_suffix s h) h ?_
    intro a ha
    rw [hh] at ha
    cases ha
    exact hF
  unfold Of13.parseOf at h ⊢
  refine ite_step h (fun h => ?_) fun h => ?_
  · refine key h fun h => ?_
    simp only at h ⊢
    rw [bind_ok] at h
    obtain ⟨⟨es, o2⟩, h2, h⟩ := h
    simp only at h
    rw [bind_ok] at h
    obtain ⟨_, h3, h⟩ := h
    have h4 := pyAssert_ok.1 h3
    rw [while_ext (fun _ _ _ _ h _ => helloElem_suffix s h) h2 le_rfl, ok_bind, h3]
    exact h
  refine ite_step h (fun h => ?_) fun h => ?_
  · refine key h fun h => step (fun _ h => rd_suffix s h) h fun _ _ h => ?_
    simp only at h ⊢
    rw [slice_suffix _ _ _ _ hl]
    exact h
  refine ite_step h (fun h => key h fun h => step (fun _ h => rd_suffix s h) h fun _ _ h => h) fun h => ?_
  refine ite_step h (fun h => key h fun h => step (fun _ h => rd_suffix s h) h fun _ _ h => h) fun h => ?_
  refine ite_step h (fun h => ?_) fun h => ?_
  · refine key h fun h => step (fun _ h => rd_suffix s h) h fun _ _ h => ?_
    simp only at h ⊢
    rw [bind_ok] at h
    obtain ⟨⟨mt, o2⟩, h2, h⟩ := h
    simp only at h
    rw [bind_ok] at h
    obtain ⟨⟨u, o3⟩, h3, h⟩ := h
    have h4 := (rd_ok h3).2.1
    rw [match_suffix s h2 (by omega), ok_bind]
    simp only
    rw [rd_suffix s h3, ok_bind, slice_suffix _ _ _ _ hl]
    exact h
  rw [if_neg h11] at h ⊢
  refine ite_step h (fun h => key h fun h => step (fun _ h => rd_suffix s h) h fun _ _ h =>
    step (fun _ h => port_suffix s h) h fun _ _ h => h) fun h => ?_
  rw [if_neg h13] at h ⊢
  refine ite_step h (fun h => ?_) fun h => ?_
  · refine key h fun h => step (fun _ h => rd_suffix s h) h fun _ _ h => ?_
    simp only at h ⊢
    rw [bind_ok] at h
    obtain ⟨⟨mt, o2⟩, h2, h⟩ := h
    simp only at h
    rw [bind_ok] at h
    obtain ⟨⟨is, o3⟩, h3, h⟩ := h
    have h4 := listFetch_ge h3
    have h5 := listFetch_limit h3
    simp only at h4 h5
    rw [match_suffix s h2 (by omega), ok_bind]
    simp only
    rw [list_ext (fun _ _ _ _ h hn => instr_suffix s h hn) h3 (by omega)]
    exact h
  rw [if_neg h15] at h ⊢
  refine ite_step h (fun h => key h fun h => step (fun _ h => rd_suffix s h) h fun _ _ h => h) fun h => ?_
  refine ite_step h (fun h => key h fun h => step (fun _ h => rd_suffix s h) h fun _ _ h => h) fun h => ?_
  by_cases ht : hd.type = 18
  · rw [if_pos ht] at h ⊢
    refine key h fun h => step (fun _ h => rd_suffix s h) h ?_
    intro a ha h
    obtain ⟨_, rfl⟩ := rd_HH ha
    have h4 := (parseHdr_ok hh).2.1
    simp only at h4
    subst h4
    exact step (fun _ h => reqBody_suffix s h hl (h18 ht).1 (h18 ht).2) h fun _ _ h => h
  rw [if_neg ht] at h ⊢
  refine ite_step h (fun h => key h fun h => step (fun _ h => rd_suffix s h) h fun _ _ h =>
    step (fun _ h => repBody_suffix s h hl) h fun _ _ h => h) fun h => ?_
  refine ite_step h (fun h => key h fun h => step (fun _ h => rd_suffix s h) h fun _ _ h => h) fun h => ?_
  refine ite_step h (fun h => key h fun h => step (fun _ h => rd_suffix s h) h fun _ _ h => h) fun h => ?_
  refine ite_step h (fun h => key h fun h => step (fun _ h => rd_suffix s h) h fun _ _ h =>
    step (fun _ h => list_ext (fun _ _ _ _ h hn => queue_suffix s h hn) h hl) h fun _ _ h => h) fun h => ?_
  refine ite_step h (fun h => key h fun h => step (fun _ h => rd_suffix s h) h fun _ _ h => h) fun h => ?_
  refine ite_step h (fun h => key h fun h => step (fun _ h => rd_suffix s h) h fun _ _ h => h) fun h => ?_
  refine ite_step h (fun h => ?_) fun h => ?_
  · refine key h fun h => step (fun _ h => rd_suffix s h) h fun a _ h => ?_
    refine step (x := whileFetch (parseBand m) (o + hd.length) a.2) ?_ h fun _ _ h => h
    intro ⟨bs, o2⟩ h
    exact while_ext (fun _ _ _ hp h _ => band_suffix s hp h) h le_rfl
  · refine key h fun h => ?_
    simp only at h ⊢
    rw [slice_suffix _ _ _ _ hl]
    exact h

end Twink.Suffix
