import Verif.Proof.Of13Basics

/-! Actions, matches and instructions of the OpenFlow 1.3 codec are parsed as they were built. -/

namespace Twink.Of13
open Fmt

theorem enc_HH (g : Fmt) (t l : Nat) (ws : List Val) :
    enc (H :: H :: g) (.int t :: .int l :: ws) = encBE 2 t ++ (encBE 2 l ++ enc g ws) := by
  simp [enc]

theorem fits_HH {g : Fmt} {t l : Nat} {ws : List Val} (h : fits (H :: H :: g) (.int t :: .int l :: ws) = true) :
    t < 65536 ∧ l < 65536 ∧ fits g ws = true := by
  simp [fits] at h; exact ⟨h.1, h.2.1, h.2.2⟩

/-- An action with a fixed layout. -/
theorem action_rt {g : Fmt} {t l : Nat} {ws : List Val} {k : List Val → Option Action} {a : Action}
    (hf : fits (H :: H :: g) (.int t :: .int l :: ws) = true) (he : exact (H :: H :: g) (.int t :: .int l :: ws))
    (hg : 4 ≤ calcsize g) (hp : ∀ m off, parseActionOf t m off = rd (H :: H :: g) m off k)
    (hk : k (.int t :: .int l :: ws) = some a) :
    RT parseAction (enc (H :: H :: g) (.int t :: .int l :: ws)) a := by
  intro pre post n hn
  obtain ⟨ht, hl, hg'⟩ := fits_HH hf
  have h1 := rd_peek 4 t l pre (enc g ws ++ post) n hn ht hl (by simp [enc_length _ _ hg']; omega) (fun a b => (a, b))
  have h2 := rd_enc _ _ pre post n hn hf he k a hk
  rw [enc_length _ _ hf]
  rw [enc_HH, List.append_assoc, List.append_assoc] at h2 ⊢
  rw [parseAction, h1, ok_bind]
  simp only
  rw [hp, h2]

theorem fill8_eq (x : Nat) (b : Bytes) : b ++ nul (align (x + b.length) - (x + b.length)) = fill8 x b := by
  rw [align_eq]; rfl

theorem fill8_length (x : Nat) (b : Bytes) : x + (fill8 x b).length = up8 (x + b.length) := by
  have := up8_ge (x + b.length)
  simp only [fill8, List.length_append, List.length_replicate]; omega

theorem fill8_aligned {x : Nat} {b : Bytes} (h : (x + b.length) % 8 = 0) : fill8 x b = b := by
  simp [fill8, up8_of_mod h]

/-- Actions are parsed as they were built, wherever they stand. -/
theorem rt_action (a : Action) (bs : Bytes) (hp : a.Parseable) (h : buildAction a = .ok bs) :
    RT parseAction bs a.wire ∧ 0 < bs.length ∧ bs.length = a.size := by
  cases a with
  | header t l =>
    simp only [buildAction] at h
    split at h
    · rename_i t l
      obtain ⟨hf, rfl⟩ := pack_eq_ok.1 h
      refine ⟨?_, by simp [enc], by simp [enc, Action.size]⟩
      simp only [Action.Parseable, List.mem_cons, List.not_mem_nil, or_false, ne_eq, Option.some.injEq, forall_eq_or_imp,
        forall_eq] at hp
      obtain ⟨p0, p1, p2, p3, p4, p5, p6, p7, p8, p9, p10⟩ := hp
      refine action_rt (k := two fun t l => .header (some t) (some l)) hf (by simp [exact]) (by simp [calcsize, Item.width]) (fun m off => ?_) rfl
      simp [parseActionOf, p0, p1, p2, p3, p4, p5, p6, p7, p8, p9, p10]
    · simp at h
  | output t l p m =>
    simp only [buildAction, bind_ok, pyAssert_ok, pack_eq_ok, ok_inj, exists_const] at h
    obtain ⟨ht, _, ⟨hf, rfl⟩, hlen, rfl⟩ := h
    rw [ht] at *
    refine ⟨action_rt (k := four fun t l => .output (some t) (some l)) hf (by simp [exact]) (by simp [calcsize, Item.width]) (fun m off => ?_) rfl, by omega, hlen⟩
    simp [parseActionOf]
  | group t l g =>
    simp only [buildAction, bind_ok, pyAssert_ok, pack_eq_ok, ok_inj, exists_const] at h
    obtain ⟨ht, _, ⟨hf, rfl⟩, hlen, rfl⟩ := h
    rw [ht] at *
    refine ⟨action_rt (k := three fun t l => .group (some t) (some l)) hf (by simp [exact]) (by simp [calcsize, Item.width]) (fun m off => ?_) rfl, by omega, hlen⟩
    simp [parseActionOf]
  | setQueue t l g =>
    simp only [buildAction, bind_ok, pyAssert_ok, pack_eq_ok, ok_inj, exists_const] at h
    obtain ⟨ht, _, ⟨hf, rfl⟩, hlen, rfl⟩ := h
    rw [ht] at *
    refine ⟨action_rt (k := three fun t l => .setQueue (some t) (some l)) hf (by simp [exact]) (by simp [calcsize, Item.width]) (fun m off => ?_) rfl, by omega, hlen⟩
    simp [parseActionOf]
  | mplsTtl t l g => exact hp.elim
  | nwTtl t l g =>
    simp only [buildAction, bind_ok, pyAssert_ok, pack_eq_ok, ok_inj, exists_const] at h
    obtain ⟨ht, _, ⟨hf, rfl⟩, hlen, rfl⟩ := h
    rw [ht] at *
    refine ⟨action_rt (k := three fun t l => .nwTtl (some t) (some l)) hf (by simp [exact]) (by simp [calcsize, Item.width]) (fun m off => ?_) rfl, by omega, hlen⟩
    simp [parseActionOf]
  | push t l g =>
    simp only [buildAction] at h
    cases t with
    | none => simp at h
    | some t =>
      simp only [bind_ok, pyAssert_ok, pack_eq_ok, ok_inj, exists_const] at h
      obtain ⟨ht, _, ⟨hf, rfl⟩, hlen, rfl⟩ := h
      refine ⟨action_rt (k := three fun t l => .push (some t) (some l)) hf (by simp [exact]) (by simp [calcsize, Item.width]) (fun m off => ?_) rfl, by omega, hlen⟩
      rcases ht with rfl | rfl | rfl <;> simp [parseActionOf]
  | popMpls t l g =>
    simp only [buildAction, bind_ok, pyAssert_ok, pack_eq_ok, ok_inj, exists_const] at h
    obtain ⟨ht, _, ⟨hf, rfl⟩, hlen, rfl⟩ := h
    rw [ht] at *
    refine ⟨action_rt (k := three fun t l => .popMpls (some t) (some l)) hf (by simp [exact]) (by simp [calcsize, Item.width]) (fun m off => ?_) rfl, by omega, hlen⟩
    simp [parseActionOf]
  | setField t l f =>
    simp only [buildAction, bind_ok, pyAssert_ok, pack_eq_ok, ok_inj, exists_const] at h
    obtain ⟨ht, _, ⟨hf, rfl⟩, rfl⟩ := h
    rw [ht] at *
    have hlen := fill8_length 4 f
    have hge := up8_ge (4 + f.length)
    have hm := up8_mod (4 + f.length)
    rw [List.append_assoc, fill8_eq, align_eq] at *
    have hbl : (enc [H, H] [.int 25, .int (up8 (4 + f.length))] ++ fill8 4 f).length = up8 (4 + f.length) := by
      simp [enc]; omega
    refine ⟨?_, by omega, hbl⟩
    intro pre post n hn
    rw [hbl]
    obtain ⟨h1, h2, _⟩ := fits_HH hf
    have he : enc [] [] = [] := rfl
    rw [enc_HH, he, List.append_nil, List.append_assoc, List.append_assoc]
    have hpeek := rd_peek 4 25 (up8 (4 + f.length)) pre (fill8 4 f ++ post) n hn h1 h2 (by simp; omega) (fun a b => (a, b))
    have hrd := rd_peek0 25 (up8 (4 + f.length)) pre (fill8 4 f ++ post) n hn h1 h2 (fun a b => (a, b))
    rw [parseAction, hpeek, ok_bind]
    simp only [parseActionOf, (by decide : (25 : Nat) ≠ 0), (by decide : (0xffff : Nat) ≠ 0), Nat.reduceEqDiff, or_self, ↓reduceIte, if_false]
    rw [hrd, ok_bind]
    simp only [Action.wire]
    have hs := slice_append (pre ++ (encBE 2 25 ++ encBE 2 (up8 (4 + f.length)))) (fill8 4 f) post (n + 4) (n + up8 (4 + f.length))
      (by simp [hn]) (by omega)
    simp only [List.append_assoc] at hs
    rw [hs]
  | experimenter t l x d =>
    simp only [buildAction, bind_ok, pyAssert_ok, pack_eq_ok, ok_inj, exists_const] at h
    obtain ⟨ht, _, ⟨hf, rfl⟩, rfl⟩ := h
    rw [ht] at *
    have hlen := fill8_length 8 d
    have hge := up8_ge (8 + d.length)
    rw [List.append_assoc, fill8_eq, align_eq] at *
    have hbl : (enc [H, H, I] [.int 0xffff, .int (up8 (8 + d.length)), .int x] ++ fill8 8 d).length = up8 (8 + d.length) := by
      simp [enc]; omega
    refine ⟨?_, by omega, hbl⟩
    intro pre post n hn
    rw [hbl]
    obtain ⟨h1, h2, h3⟩ := fits_HH hf
    have hrd := rd_enc _ _ pre (fill8 8 d ++ post) n hn hf (by simp [exact]) (three fun a b c => (a, b, c)) _ rfl
    rw [List.append_assoc]
    rw [enc_HH, List.append_assoc, List.append_assoc] at hrd ⊢
    have hpeek := rd_peek 4 0xffff (up8 (8 + d.length)) pre (enc [I] [.int x] ++ (fill8 8 d ++ post)) n hn h1 h2
      (by simp [enc]) (fun a b => (a, b))
    rw [parseAction, hpeek, ok_bind]
    simp only [parseActionOf, (by decide : (25 : Nat) ≠ 0), (by decide : (0xffff : Nat) ≠ 0), Nat.reduceEqDiff, or_self, ↓reduceIte, if_false]
    rw [hrd, ok_bind]
    simp only [Action.wire]
    have hs := slice_append (pre ++ (encBE 2 0xffff ++ (encBE 2 (up8 (8 + d.length)) ++ enc [I] [.int x]))) (fill8 8 d) post
      (n + 8) (n + up8 (8 + d.length)) (by simp [hn, enc]) (by omega)
    simp only [List.append_assoc] at hs
    have hc : calcsize [H, H, I] = 8 := rfl
    rw [hc, hs]

theorem seq_actions {s : Seq Action} (hs : s.All Action.Parseable) {bs : Bytes} (h : seqBytes buildAction s = .ok bs) :
    Parts parseAction bs (s.values.map Action.wire) ∧ bs.length = actionsSize s :=
  seq_parts rt_action hs h

end Twink.Of13
