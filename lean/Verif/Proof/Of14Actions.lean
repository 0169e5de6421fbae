import Verif.Model.Of14Parse
import Verif.Spec.Of14
import Verif.Proof.Of13Records

/-! Actions, instructions, buckets and properties of the OpenFlow 1.4 codec are parsed as they were built. -/

namespace Twink.Of14
open Fmt Of13 Spec

/-- The parser that looks at type and length, then calls what parses that type. -/
def peeked (pOf : Nat → Bytes → Nat → Py (α × Nat)) (m : Bytes) (off : Nat) : Py (α × Nat) := do
  let ((t, _), _) ← rd [H, H] m off (two fun a b => (a, b))
  pOf t m off

/-- Something with a fixed layout that begins with type and length. -/
theorem peeked_rt {pOf : Nat → Bytes → Nat → Py (α × Nat)} {g : Fmt} {t l : Nat} {ws : List Val}
    {k : List Val → Option α} {a : α}
    (hf : fits (H :: H :: g) (.int t :: .int l :: ws) = true) (he : exact (H :: H :: g) (.int t :: .int l :: ws))
    (hp : ∀ m off, pOf t m off = rd (H :: H :: g) m off k) (hk : k (.int t :: .int l :: ws) = some a) :
    RT (peeked pOf) (enc (H :: H :: g) (.int t :: .int l :: ws)) a := by
  refine RT.of_at fun m n hm => ?_
  rw [peeked, peek_at hm hf (fun a b => (a, b)), ok_bind]
  simp only
  rw [hp, rd_at hm hf he k a hk, enc_length _ _ hf]

theorem parseAction_eq : parseAction = peeked parseActionOf := rfl
theorem parseInstr_eq : parseInstr = peeked parseInstrOf := rfl

/-- Actions are parsed as they were built, wherever they stand. -/
theorem rt_action (a : Action) (bs : Bytes) (hp : a.Parseable) (h : buildAction a = .ok bs) :
    RT parseAction bs a.wire ∧ 0 < bs.length ∧ bs.length = a.size := by
  rw [parseAction_eq]
  cases a with
  | header t l => exact hp.elim
  | expHeader t l => exact hp.elim
  | mplsTtl t l g => exact hp.elim
  | output t l p m =>
    simp only [buildAction, bind_ok, pyAssert_ok, pack_eq_ok, ok_inj, exists_const] at h
    obtain ⟨ht, _, ⟨hf, rfl⟩, hlen, rfl⟩ := h
    rw [ht] at *
    refine ⟨peeked_rt (k := four fun t l => .output (some t) (some l)) hf (by simp [exact]) (fun m off => ?_) rfl, by omega, hlen⟩
    simp [parseActionOf]
  | group t l g =>
    simp only [buildAction, bind_ok, pyAssert_ok, pack_eq_ok, ok_inj, exists_const] at h
    obtain ⟨ht, _, ⟨hf, rfl⟩, hlen, rfl⟩ := h
    rw [ht] at *
    refine ⟨peeked_rt (k := three fun t l => .group (some t) (some l)) hf (by simp [exact]) (fun m off => ?_) rfl, by omega, hlen⟩
    simp [parseActionOf]
  | setQueue t l g =>
    simp only [buildAction, bind_ok, pyAssert_ok, pack_eq_ok, ok_inj, exists_const] at h
    obtain ⟨ht, _, ⟨hf, rfl⟩, hlen, rfl⟩ := h
    rw [ht] at *
    refine ⟨peeked_rt (k := three fun t l => .setQueue (some t) (some l)) hf (by simp [exact]) (fun m off => ?_) rfl, by omega, hlen⟩
    simp [parseActionOf]
  | generic t l =>
    simp only [buildAction] at h
    cases t with
    | none => simp at h
    | some t =>
      simp only [bind_ok, pyAssert_ok, pack_eq_ok, exists_const] at h
      obtain ⟨ht, hf, rfl⟩ := h
      have hlen : (enc [H, H, X 4] [.int t, .int 8]).length = 8 := by simp [enc]
      refine ⟨peeked_rt (k := two fun t l => .generic (some t) (some l)) hf (by simp [exact]) (fun m off => ?_) rfl, by omega, hlen⟩
      rcases ht with rfl | rfl | rfl | rfl | rfl | rfl <;> simp [parseActionOf]
  | nwTtl t l g =>
    simp only [buildAction, bind_ok, pyAssert_ok, pack_eq_ok, ok_inj, exists_const] at h
    obtain ⟨ht, _, ⟨hf, rfl⟩, hlen, rfl⟩ := h
    rw [ht] at *
    refine ⟨peeked_rt (k := three fun t l => .nwTtl (some t) (some l)) hf (by simp [exact]) (fun m off => ?_) rfl, by omega, hlen⟩
    simp [parseActionOf]
  | push t l g =>
    simp only [buildAction] at h
    cases t with
    | none => simp at h
    | some t =>
      simp only [bind_ok, pyAssert_ok, pack_eq_ok, ok_inj, exists_const] at h
      obtain ⟨ht, _, ⟨hf, rfl⟩, hlen, rfl⟩ := h
      refine ⟨peeked_rt (k := three fun t l => .push (some t) (some l)) hf (by simp [exact]) (fun m off => ?_) rfl, by omega, hlen⟩
      rcases ht with rfl | rfl | rfl <;> simp [parseActionOf]
  | popMpls t l g =>
    simp only [buildAction, bind_ok, pyAssert_ok, pack_eq_ok, ok_inj, exists_const] at h
    obtain ⟨ht, _, ⟨hf, rfl⟩, hlen, rfl⟩ := h
    rw [ht] at *
    refine ⟨peeked_rt (k := three fun t l => .popMpls (some t) (some l)) hf (by simp [exact]) (fun m off => ?_) rfl, by omega, hlen⟩
    simp [parseActionOf]
  | setField t l f =>
    simp only [buildAction, bind_ok, pyAssert_ok, pack_eq_ok, ok_inj, exists_const] at h
    obtain ⟨ht, _, ⟨hf, rfl⟩, rfl⟩ := h
    rw [ht] at *
    have hlen := fill8_length 4 f
    have hge := up8_ge (4 + f.length)
    rw [List.append_assoc, fill8_eq, align_eq] at *
    have hbl : (enc [H, H] [.int 25, .int (up8 (4 + f.length))] ++ fill8 4 f).length = up8 (4 + f.length) := by
      simp [enc]; omega
    refine ⟨RT.of_at fun m n hm => ?_, by omega, hbl⟩
    rw [hbl, peeked, peek_at hm.left hf (fun a b => (a, b)), ok_bind]
    simp only [parseActionOf, Nat.reduceEqDiff, or_self, ↓reduceIte, if_false]
    rw [peek_at hm.left hf (fun a b => (a, b)), ok_bind]
    simp only [Action.wire]
    rw [(hm.right (n + 4) (by simp [enc])).slice _ (by omega)]
  | experimenter t l x d =>
    simp only [buildAction, bind_ok, pyAssert_ok, pack_eq_ok, ok_inj, exists_const] at h
    obtain ⟨ht, _, ⟨hf, rfl⟩, rfl⟩ := h
    rw [ht] at *
    have hlen := fill8_length 8 d
    have hge := up8_ge (8 + d.length)
    rw [List.append_assoc, fill8_eq, align_eq] at *
    have hbl : (enc [H, H, I] [.int 0xffff, .int (up8 (8 + d.length)), .int x] ++ fill8 8 d).length = up8 (8 + d.length) := by
      simp [enc]; omega
    refine ⟨RT.of_at fun m n hm => ?_, by omega, hbl⟩
    rw [hbl, peeked, peek_at hm.left hf (fun a b => (a, b)), ok_bind]
    simp only [parseActionOf, Nat.reduceEqDiff, or_self, ↓reduceIte, if_false]
    rw [rd_at hm.left hf (by simp [exact]) (three fun a b c => (a, b, c)) _ rfl, ok_bind]
    have hc : calcsize [H, H, I] = 8 := rfl
    simp only [Action.wire, hc]
    rw [(hm.right (n + 8) (by simp [enc])).slice _ (by omega)]

theorem seq_actions {s : Seq Action} (hs : s.All Action.Parseable) {bs : Bytes} (h : seqBytes buildAction s = .ok bs) :
    Parts parseAction bs (s.values.map Action.wire) ∧ bs.length = actionsSize s :=
  seq_parts rt_action hs h

theorem actionsSize_mod {s : Seq Action} (hs : s.All Action.Parseable) : actionsSize s % 8 = 0 := by
  have key : ∀ l : List Action, (∀ a ∈ l, a.Parseable) → (l.map Action.size).sum % 8 = 0 := by
    intro l hl
    induction l with
    | nil => rfl
    | cons a l ih =>
      have h1 := ih fun a ha => hl a (by simp [ha])
      have h2 : a.size % 8 = 0 := by
        have := hl a (by simp)
        cases a <;> simp [Action.size, up8_mod]
        exact this.elim
      simp only [List.map_cons, List.sum_cons]; omega
  refine key _ fun a ha => ?_
  cases s with
  | raw b => exact hs.elim
  | bad => exact hs.elim
  | none => simp [Seq.values] at ha
  | items l =>
    simp only [Seq.values, List.mem_filterMap] at ha
    obtain ⟨e, he, h1⟩ := ha
    obtain ⟨a', rfl, ha'⟩ := hs e he
    simp at h1; subst h1; exact ha'

theorem rt_instr (a : Instr) (bs : Bytes) (hp : a.Parseable) (h : buildInstr a = .ok bs) :
    RT parseInstr bs a.wire ∧ 0 < bs.length ∧ bs.length = a.size := by
  rw [parseInstr_eq]
  cases a with
  | header t l => exact hp.elim
  | gotoTable t l x =>
    simp only [buildInstr, bind_ok, pyAssert_ok, pack_eq_ok, ok_inj, exists_const] at h
    obtain ⟨ht, _, ⟨hf, rfl⟩, hlen, rfl⟩ := h
    rw [ht] at *
    refine ⟨peeked_rt (k := three fun t l => .gotoTable (some t) (some l)) hf (by simp [exact]) (fun m off => ?_) rfl, by omega, hlen⟩
    simp [parseInstrOf]
  | writeMetadata t l x y =>
    simp only [buildInstr, bind_ok, pyAssert_ok, pack_eq_ok, ok_inj, exists_const] at h
    obtain ⟨ht, _, ⟨hf, rfl⟩, hlen, rfl⟩ := h
    rw [ht] at *
    refine ⟨peeked_rt (k := four fun t l => .writeMetadata (some t) (some l)) hf (by simp [exact]) (fun m off => ?_) rfl, by omega, hlen⟩
    simp [parseInstrOf]
  | meter t l x =>
    simp only [buildInstr, bind_ok, pyAssert_ok, pack_eq_ok, exists_const] at h
    obtain ⟨ht, hf, rfl⟩ := h
    rw [ht] at *
    have hlen : (enc [H, H, I] [.int 6, .int 8, .int x]).length = 8 := by simp [enc]
    refine ⟨peeked_rt (k := three fun t l => .meter (some t) (some l)) hf (by simp [exact]) (fun m off => ?_) rfl, by omega, hlen⟩
    simp [parseInstrOf]
  | experimenter t l x d =>
    simp only [buildInstr, bind_ok, pyAssert_ok, pack_eq_ok, ok_inj, exists_const] at h
    obtain ⟨ht, _, ⟨hf, rfl⟩, rfl⟩ := h
    rw [ht] at *
    have hlen : (enc [H, H, I] [.int 0xffff, .int (8 + d.length), .int x] ++ d).length = 8 + d.length := by
      simp [enc]; omega
    refine ⟨RT.of_at fun m n hm => ?_, by omega, hlen⟩
    rw [hlen, peeked, peek_at hm.left hf (fun a b => (a, b)), ok_bind]
    simp only [parseInstrOf]
    simp only [Nat.reduceEqDiff, or_self, ↓reduceIte]
    rw [rd_at hm.left hf (by simp [exact]) (three fun a b c => (a, b, c)) _ rfl, ok_bind]
    have hc : calcsize [H, H, I] = 8 := rfl
    simp only [hc, Instr.wire]
    rw [(hm.right (n + 8) (by simp [enc])).slice _ (by omega)]
  | actions t l s =>
    simp only [buildInstr, bind_ok] at h
    obtain ⟨acts, h1, h⟩ := h
    cases t with
    | none => simp at h
    | some t =>
      simp only [bind_ok, pyAssert_ok, pack_eq_ok, ok_inj, exists_const] at h
      obtain ⟨ht, _, ⟨hf, rfl⟩, rfl⟩ := h
      obtain ⟨hparts, hsz⟩ := seq_actions hp h1
      have hmod := actionsSize_mod hp
      have hal : align (8 + acts.length) = 8 + acts.length := by rw [align_eq, up8_of_mod]; omega
      rw [hal] at hf ⊢
      have hlen : (enc [H, H, X 4] [.int t, .int (8 + acts.length)] ++ acts).length = 8 + acts.length := by simp [enc]; omega
      refine ⟨RT.of_at fun m n hm => ?_, by omega, by rw [hlen, hsz]; rfl⟩
      rw [hlen, peeked, peek_at hm.left hf (fun a b => (a, b)), ok_bind]
      have hdisp : parseInstrOf t m n = (do
          let ((type, len), o) ← rd [H, H, X 4] m n (two fun a b => (a, b))
          let (acts, o) ← whileFetch (parseAction m) (n + len) o
          pyAssert (o = n + len)
          .ok (.actions (some type) (some len) (tups acts), o)) := by
        rcases ht with rfl | rfl | rfl <;> rfl
      simp only
      rw [hdisp, rd_at hm.left hf (by simp [exact]) (two fun a b => (a, b)) _ rfl, ok_bind]
      have hc : calcsize [H, H, X 4] = 8 := rfl
      simp only [hc]
      rw [whileFetch_at hparts (hm.right (n + 8) (by simp [enc])) _ (by omega), ok_bind]
      simp only [pyAssert_true, ok_bind, Instr.wire, wireActions, hsz]

theorem seq_instrs {s : Seq Instr} (hs : s.All Instr.Parseable) {bs : Bytes} (h : seqBytes buildInstr s = .ok bs) :
    Parts parseInstr bs (s.values.map Instr.wire) ∧ bs.length = instrsSize s :=
  seq_parts rt_instr hs h

theorem rt_bucket (b : Bucket) (bs : Bytes) (hp : b.Parseable) (h : buildBucket b = .ok bs) :
    RT parseBucket bs b.wire ∧ 0 < bs.length ∧ bs.length = b.size := by
  simp only [buildBucket, bind_ok, pack_eq_ok, ok_inj] at h
  obtain ⟨acts, h1, _, ⟨hf, rfl⟩, rfl⟩ := h
  obtain ⟨hparts, hsz⟩ := seq_actions hp h1
  have hmod := actionsSize_mod hp
  have hal : align (16 + acts.length) = 16 + acts.length := by rw [align_eq, up8_of_mod]; omega
  rw [hal] at hf
  simp only [hal]
  have h0 : nul (16 + acts.length - (16 + acts.length)) = [] := by simp [nul]
  rw [h0, List.append_nil]
  have hlen : (enc [H, H, I, I, X 4] [.int (16 + acts.length), .int b.weight, .int b.watchPort, .int b.watchGroup] ++ acts).length
      = 16 + acts.length := by simp [enc]; omega
  refine ⟨RT.of_at fun m n hm => ?_, by omega, by rw [hlen, hsz]; rfl⟩
  rw [hlen, parseBucket, rd_at hm.left hf (by simp [exact]) (four fun a b c d => (a, b, c, d)) _ rfl, ok_bind]
  have hc : calcsize [H, H, I, I, X 4] = 16 := rfl
  simp only [hc]
  rw [whileFetch_at hparts (hm.right (n + 16) (by simp [enc])) _ (by omega), ok_bind]
  simp only [Bucket.wire, wireActions, hsz]

theorem seq_buckets {s : Seq Bucket} (hs : s.All Bucket.Parseable) {bs : Bytes} (h : seqBytes buildBucket s = .ok bs) :
    Parts parseBucket bs (s.values.map Bucket.wire) ∧ bs.length = (s.values.map Bucket.size).sum :=
  seq_parts rt_bucket hs h

/-! ### properties -/

/-- Experimenter properties. -/
theorem exp_rt {pOf : Nat → Bytes → Nat → Py (Pr × Nat)} {x y : Nat} {d bs : Bytes}
    {k : Option Nat → Option Nat → Nat → Nat → Option Bytes → Pr}
    (hp : ∀ m off, pOf 0xffff m off = parseExp k align m off) (h : packExp 0xffff x y d = .ok bs) :
    RT (peeked pOf) bs (k (some 0xffff) (some (12 + d.length)) x y (some d)) ∧ 0 < bs.length ∧ bs.length = up8 (12 + d.length) := by
  simp only [packExp, bind_ok, pack_eq_ok, ok_inj] at h
  obtain ⟨_, ⟨hf, rfl⟩, rfl⟩ := h
  have hge := up8_ge (12 + d.length)
  rw [align_eq]
  have hl : (enc [H, H, I, I] [.int 0xffff, .int (12 + d.length), .int x, .int y]).length = 12 := by simp [enc]
  have hlen : (enc [H, H, I, I] [.int 0xffff, .int (12 + d.length), .int x, .int y] ++ d ++
      nul (up8 (12 + d.length) - (12 + d.length))).length = up8 (12 + d.length) := by
    rw [List.length_append, List.length_append, hl, nul_length]; omega
  refine ⟨RT.of_at fun m n hm => ?_, by rw [hlen]; omega, hlen⟩
  rw [hlen, peeked, peek_at hm.left.left hf (fun a b => (a, b)), ok_bind]
  simp only
  rw [hp, parseExp, rd_at hm.left.left hf (by simp [exact]) (four fun a b c d => (a, b, c, d)) _ rfl, ok_bind]
  have hc : calcsize [H, H, I, I] = 12 := rfl
  simp only [hc, align_eq]
  rw [(hm.left.right (n + 12) (by rw [hl])).slice _ (by omega)]

theorem parseTmProp_eq : parseTmProp = peeked parseTmPropOf := rfl
theorem parseQdProp_eq : parseQdProp = peeked parseQdPropOf := rfl
theorem parsePmProp_eq : parsePmProp = peeked parsePmPropOf := rfl
theorem parsePsProp_eq : parsePsProp = peeked parsePsPropOf := rfl

/-- what `parseAsyncProp` does after looking at the type -/
def asyncOf (t : Nat) (m : Bytes) (off : Nat) : Py (Pr × Nat) :=
  if t ∈ [0, 1, 2, 3, 4, 5, 6, 7, 10, 11] then rd [H, H, I] m off (three fun t l => .reasons (some t) (some l))
  else .error .nameError

theorem parseAsyncProp_eq : parseAsyncProp = peeked asyncOf := rfl

/-- what `parseQsProp` does after looking at the type -/
def qsOf (t : Nat) (m : Bytes) (off : Nat) : Py (Pr × Nat) :=
  if t = 0xffff then parseExp .qsExp align m off else .error .valueError

theorem parseQsProp_eq : parseQsProp = peeked qsOf := rfl

theorem rt_tmProp (p : Pr) (bs : Bytes) (hp : p.ForTable) (h : buildPr p = .ok bs) :
    RT parseTmProp bs p.wire ∧ 0 < bs.length ∧ bs.length = p.size := by
  rw [parseTmProp_eq]
  cases p <;> first | exact hp.elim | skip
  case eviction t l f =>
    simp only [buildPr, packOpt_ok, pack_eq_ok] at h
    obtain ⟨l, rfl, hf, rfl⟩ := h
    have hlen : (enc [H, H, I] [.int 2, .int l, .int f]).length = 8 := by simp [enc]
    exact ⟨peeked_rt (k := three fun t l => .eviction (some t) (some l)) hf (by simp [exact])
      (fun m off => by simp [parseTmPropOf]) rfl, by omega, hlen⟩
  case vacancy t l a b c =>
    obtain ⟨hf, rfl⟩ := pack_eq_ok.1 h
    have hlen : (enc [H, H, B, B, B, X 1] [.int 3, .int 8, .int a, .int b, .int c]).length = 8 := by simp [enc]
    exact ⟨peeked_rt (k := five fun t l => .vacancy (some t) (some l)) hf (by simp [exact])
      (fun m off => by simp [parseTmPropOf]) rfl, by omega, hlen⟩
  case tableExp t l x y d =>
    cases d with
    | none => cases h
    | some d => exact exp_rt (fun m off => by simp [parseTmPropOf]) h

theorem rt_qdProp (p : Pr) (bs : Bytes) (hp : p.ForQueue) (h : buildPr p = .ok bs) :
    RT parseQdProp bs p.wire ∧ 0 < bs.length ∧ bs.length = p.size := by
  rw [parseQdProp_eq]
  cases p <;> first | exact hp.elim | skip
  case minRate t l r =>
    obtain ⟨hf, rfl⟩ := pack_eq_ok.1 h
    have hlen : (enc [H, H, H, X 2] [.int 1, .int 8, .int r]).length = 8 := by simp [enc]
    exact ⟨peeked_rt (k := three fun t l => .minRate (some t) (some l)) hf (by simp [exact])
      (fun m off => by simp [parseQdPropOf]) rfl, by omega, hlen⟩
  case maxRate t l r =>
    obtain ⟨hf, rfl⟩ := pack_eq_ok.1 h
    have hlen : (enc [H, H, H, X 2] [.int 2, .int 8, .int r]).length = 8 := by simp [enc]
    exact ⟨peeked_rt (k := three fun t l => .maxRate (some t) (some l)) hf (by simp [exact])
      (fun m off => by simp [parseQdPropOf]) rfl, by omega, hlen⟩

theorem rt_asyncProp (p : Pr) (bs : Bytes) (hp : p.ForAsync) (h : buildPr p = .ok bs) :
    RT parseAsyncProp bs p.wire ∧ 0 < bs.length ∧ bs.length = p.size := by
  rw [parseAsyncProp_eq]
  cases p <;> first | exact hp.elim | skip
  case reasons t l r =>
    cases t with
    | none => cases h
    | some t =>
      simp only [buildPr, bind_ok, pyAssert_ok, pack_eq_ok, exists_const] at h
      obtain ⟨ht, hf, rfl⟩ := h
      have hlen : (enc [H, H, I] [.int t, .int 8, .int r]).length = 8 := by simp [enc]
      refine ⟨peeked_rt (k := three fun t l => .reasons (some t) (some l)) hf (by simp [exact])
        (fun m off => ?_) rfl, by omega, hlen⟩
      obtain ⟨h8, h9⟩ : t ≠ 8 ∧ t ≠ 9 := ⟨fun e => hp.1 (by rw [e]), fun e => hp.2 (by rw [e])⟩
      have : t ∈ [0, 1, 2, 3, 4, 5, 6, 7, 10, 11] := by simp; omega
      rw [asyncOf, if_pos this]

theorem signed_ok {n : Int} {k : Nat} (h : signed n = .ok k) : unsigned k = n := by
  unfold signed at h
  split at h
  · rename_i hr
    injection h with h
    unfold unsigned
    split <;> omega
  · cases h

theorem rt_pmProp (p : Pr) (bs : Bytes) (hp : p.ForPortMod) (h : buildPr p = .ok bs) :
    RT parsePmProp bs p.wire ∧ 0 < bs.length ∧ bs.length = p.size := by
  rw [parsePmProp_eq]
  cases p <;> first | exact hp.elim | skip
  case pmEthernet t l a =>
    obtain ⟨hf, rfl⟩ := pack_eq_ok.1 h
    have hlen : (enc [H, H, I] [.int 0, .int 8, .int a]).length = 8 := by simp [enc]
    exact ⟨peeked_rt (k := three fun t l => .pmEthernet (some t) (some l)) hf (by simp [exact])
      (fun m off => by simp [parsePmPropOf]) rfl, by omega, hlen⟩
  case pmOptical t l a b c d e =>
    simp only [buildPr, bind_ok, pack_eq_ok] at h
    obtain ⟨k, hk, hf, rfl⟩ := h
    have hlen := enc_length _ _ hf
    have hc : calcsize pmOpticalFmt = 24 := rfl
    rw [hc] at hlen
    exact ⟨peeked_rt (k := pmOpticalOf) hf (by simp [exact])
      (fun m off => by simp [parsePmPropOf, pmOpticalFmt]) (by simp [pmOpticalOf, signed_ok hk, Pr.wire]), by omega, hlen⟩

theorem rt_psProp (p : Pr) (bs : Bytes) (hp : p.ForPortStats) (h : buildPr p = .ok bs) :
    RT parsePsProp bs p.wire ∧ 0 < bs.length ∧ bs.length = p.size := by
  rw [parsePsProp_eq]
  cases p <;> first | exact hp.elim | skip
  case psEthernet t l a b c d =>
    obtain ⟨hf, rfl⟩ := pack_eq_ok.1 h
    have hlen := enc_length _ _ hf
    have hc : calcsize psEthernetFmt = 40 := rfl
    rw [hc] at hlen
    exact ⟨peeked_rt (k := psEthernetOf) hf (by simp [exact])
      (fun m off => by simp [parsePsPropOf, psEthernetFmt]) rfl, by omega, hlen⟩
  case psOptical t l a b c d e f g i j k o =>
    obtain ⟨hf, rfl⟩ := pack_eq_ok.1 h
    have hlen := enc_length _ _ hf
    have hc : calcsize psOpticalFmt = 44 := rfl
    rw [hc] at hlen
    exact ⟨peeked_rt (k := psOpticalOf) hf (by simp [exact])
      (fun m off => by simp [parsePsPropOf, psOpticalFmt]) rfl, by omega, hlen⟩
  case psExp t l x y d =>
    have h' : packExp 0xffff x y (d.getD []) = .ok bs := by
      simp only [buildPr, bind_ok, pack_eq_ok, ok_inj] at h
      obtain ⟨_, ⟨hf, rfl⟩, rfl⟩ := h
      have hp : (12 + (d.getD []).length) % 8 = 0 := hp
      have hal : align (12 + (d.getD []).length) = 12 + (d.getD []).length := by rw [align_eq, up8_of_mod hp]
      simp only [packExp, hal, pack, hf, if_true, ok_bind, Nat.sub_self]
      simp [nul]
    exact exp_rt (fun m off => by simp [parsePsPropOf]) h'

theorem rt_qsProp (p : Pr) (bs : Bytes) (hp : p.ForQueueStats) (h : buildPr p = .ok bs) :
    RT parseQsProp bs p.wire ∧ 0 < bs.length ∧ bs.length = p.size := by
  rw [parseQsProp_eq]
  cases p <;> first | exact hp.elim | skip
  case qsExp t l x y d =>
    cases d with
    | none => cases h
    | some d => exact exp_rt (fun m off => by simp [qsOf]) h

theorem rt_portProp (p : Pr) (bs : Bytes) (hp : p.ForPort) (h : buildPr p = .ok bs) :
    RT (peeked parsePortPropOf) bs p.wire ∧ 0 < bs.length ∧ bs.length = p.size := by
  cases p <;> first | exact hp.elim | skip
  case portEthernet t l a b c d e f =>
    simp only [buildPr, bind_ok, pyAssert_ok, pack_eq_ok, exists_const] at h
    obtain ⟨ht, hf, rfl⟩ := h
    rw [ht] at *
    have hlen := enc_length _ _ hf
    have hc : calcsize portEthernetFmt = 32 := rfl
    rw [hc] at hlen
    exact ⟨peeked_rt (k := portEthernetOf) hf (by simp [exact])
      (fun m off => by simp [parsePortPropOf, portEthernetFmt]) rfl, by omega, hlen⟩
  case portOptical t l a b c d e f g i j =>
    simp only [buildPr, bind_ok, pyAssert_ok, pack_eq_ok, exists_const] at h
    obtain ⟨ht, hf, rfl⟩ := h
    rw [ht] at *
    have hlen := enc_length _ _ hf
    have hc : calcsize portOpticalFmt = 40 := rfl
    rw [hc] at hlen
    exact ⟨peeked_rt (k := portOpticalOf) hf (by simp [exact])
      (fun m off => by simp [parsePortPropOf, portOpticalFmt]) rfl, by omega, hlen⟩

end Twink.Of14
