import Mathlib.Data.Nat.Bitwise
import Mathlib.Data.List.Perm.Subperm
import Verif.Proof.Framing
import Verif.Model.Hello

/-! Helper lemmas about hello messages. -/

namespace Twink
open Fmt

theorem le_maxL {l : List Nat} {v : Nat} (h : v ∈ l) : v ≤ maxL l := by
  induction l with
  | nil => cases h
  | cons a l ih =>
    simp only [maxL, List.foldr_cons] at *
    rcases List.mem_cons.1 h with rfl | h
    · omega
    · have := ih h; omega

theorem maxL_mem {l : List Nat} (h : l ≠ []) : maxL l ∈ l := by
  induction l with
  | nil => exact absurd rfl h
  | cons a l ih =>
    simp only [maxL, List.foldr_cons] at *
    by_cases hl : l = []
    · subst hl; simp
    · have := ih hl
      rcases Nat.le_total a (l.foldr max 0) with h1 | h1
      · rw [Nat.max_eq_right h1]; exact List.mem_cons_of_mem _ this
      · rw [Nat.max_eq_left h1]; simp

theorem maxL_unique {l : List Nat} {v : Nat} (h : v ∈ l) (hm : ∀ u ∈ l, u ≤ v) : maxL l = v := by
  have h1 := le_maxL h
  have h2 := hm _ (maxL_mem (by intro e; subst e; cases h))
  omega

theorem maxL_congr {l l' : List Nat} (h : ∀ v, v ∈ l ↔ v ∈ l') : maxL l = maxL l' := by
  by_cases hl : l = []
  · subst hl
    have : l' = [] := by
      cases l' with
      | nil => rfl
      | cons a _ => exact absurd ((h a).2 (by simp)) (by simp)
    subst this; rfl
  · exact maxL_unique ((h _).2 (maxL_mem (by
      intro e; subst e
      cases l with
      | nil => exact hl rfl
      | cons a _ => exact absurd ((h a).1 (by simp)) (by simp)))) (fun u hu => le_maxL ((h u).1 hu))

theorem and_one_shift (u s : Nat) : (u &&& (1 <<< s) ≠ 0) ↔ u.testBit s = true := by
  rw [Nat.shiftLeft_eq, Nat.one_mul, Nat.and_two_pow]
  cases h : u.testBit s <;> simp

theorem bitmapUnits_foldl (vs us : List Nat) (i s : Nat) :
    let r := vs.foldl (fun us v => us.modify (v / 32) (fun u => u ||| (1 <<< (v % 32)))) us
    r.length = us.length ∧
    (i < us.length → ((r.getD i 0).testBit s = true ↔ (us.getD i 0).testBit s = true ∨ ∃ v ∈ vs, v / 32 = i ∧ v % 32 = s)) := by
  induction vs generalizing us with
  | nil => simp
  | cons v vs ih =>
    obtain ⟨h1, h2⟩ := ih (us.modify (v / 32) (fun u => u ||| (1 <<< (v % 32))))
    refine ⟨by simpa using h1, fun hi => ?_⟩
    rw [List.foldl_cons, h2 (by simpa using hi)]
    have : ((us.modify (v / 32) (fun u => u ||| (1 <<< (v % 32)))).getD i 0).testBit s = true ↔
        (us.getD i 0).testBit s = true ∨ (v / 32 = i ∧ v % 32 = s) := by
      simp only [List.getD_eq_getElem?_getD, List.getElem?_modify, List.getElem?_eq_getElem hi]
      by_cases hv : v / 32 = i
      · simp [hv, Nat.testBit_or, Nat.shiftLeft_eq, Nat.testBit_two_pow]
      · simp [hv]
    rw [this]
    simp only [List.mem_cons]
    constructor
    · rintro ((h | h) | ⟨w, hw, h⟩)
      · exact .inl h
      · exact .inr ⟨v, .inl rfl, h⟩
      · exact .inr ⟨w, .inr hw, h⟩
    · rintro (h | ⟨w, rfl | hw, h⟩)
      · exact .inl (.inl h)
      · exact .inl (.inr h)
      · exact .inr ⟨w, hw, h⟩

theorem bitmapUnits_length (vset : List Nat) : (bitmapUnits vset).length = 1 + maxL vset / 32 := by
  have := (bitmapUnits_foldl vset (List.replicate (1 + maxL vset / 32) 0) 0 0).1
  simpa [bitmapUnits] using this

theorem bitmapUnits_testBit (vset : List Nat) (i s : Nat) (hi : i < (bitmapUnits vset).length) :
    ((bitmapUnits vset).getD i 0).testBit s = true ↔ ∃ v ∈ vset, v / 32 = i ∧ v % 32 = s := by
  rw [bitmapUnits_length] at hi
  have := (bitmapUnits_foldl vset (List.replicate (1 + maxL vset / 32) 0) i s).2 (by simpa using hi)
  rw [bitmapUnits, this]
  simp [List.getD_eq_getElem?_getD, hi]

theorem bitmapUnits_lt (vset : List Nat) : ∀ u ∈ bitmapUnits vset, u < 256 ^ 4 := by
  have key : ∀ (vs us : List Nat), (∀ u ∈ us, u < 2 ^ 32) →
      ∀ u ∈ vs.foldl (fun us v => us.modify (v / 32) (fun u => u ||| (1 <<< (v % 32)))) us, u < 2 ^ 32 := by
    intro vs
    induction vs with
    | nil => intro us h; simpa using h
    | cons v vs ih =>
      intro us h
      rw [List.foldl_cons]
      apply ih
      intro u hu
      obtain ⟨j, hj, hju⟩ := List.getElem_of_mem hu
      have hj' : j < us.length := by simpa using hj
      rw [List.getElem_modify] at hju
      split at hju
      · subst hju
        refine Nat.or_lt_two_pow (h _ (List.getElem_mem hj')) ?_
        rw [Nat.shiftLeft_eq, Nat.one_mul]
        exact Nat.pow_lt_pow_right (by decide) (Nat.mod_lt _ (by decide))
      · subst hju; exact h _ (List.getElem_mem hj')
  intro u hu
  have := key vset _ (by intro u hu; simp [List.mem_replicate] at hu; omega) u hu
  calc u < 2 ^ 32 := this
    _ = 256 ^ 4 := by decide

theorem mem_unitVersions (idx u v : Nat) : v ∈ unitVersions idx u ↔ v / 32 = idx ∧ u.testBit (v % 32) = true := by
  simp only [unitVersions, List.mem_map, List.mem_filter, List.mem_range, decide_eq_true_eq, and_one_shift]
  constructor
  · rintro ⟨s, ⟨h1, h2⟩, rfl⟩
    have e1 : (idx * 32 + s) / 32 = idx := by omega
    have e2 : (idx * 32 + s) % 32 = s := by omega
    exact ⟨e1, by rw [e2]; exact h2⟩
  · rintro ⟨rfl, h⟩
    exact ⟨v % 32, ⟨Nat.mod_lt _ (by decide), h⟩, by omega⟩

theorem mem_bitmapVersions (idx : Nat) (us : List Nat) (v : Nat) :
    v ∈ bitmapVersions idx us ↔ ∃ i, i < us.length ∧ v / 32 = idx + i ∧ (us.getD i 0).testBit (v % 32) = true := by
  induction us generalizing idx with
  | nil => simp [bitmapVersions]
  | cons u us ih =>
    simp only [bitmapVersions, List.mem_append, mem_unitVersions, ih]
    constructor
    · rintro (⟨h1, h2⟩ | ⟨i, h1, h2, h3⟩)
      · exact ⟨0, by simp, by simpa using h1, by simpa using h2⟩
      · exact ⟨i + 1, by simpa using h1, by omega, by simpa using h3⟩
    · rintro ⟨i, h1, h2, h3⟩
      cases i with
      | zero => exact .inl ⟨by simpa using h2, by simpa using h3⟩
      | succ i => exact .inr ⟨i, by simpa using h1, by omega, by simpa using h3⟩

/-- The bitmap written for a set and read back contains exactly the members of the set. -/
theorem bitmap_roundtrip (vset : List Nat) (v : Nat) : v ∈ bitmapVersions 0 (bitmapUnits vset) ↔ v ∈ vset := by
  rw [mem_bitmapVersions]
  constructor
  · rintro ⟨i, h1, h2, h3⟩
    obtain ⟨w, hw, h4, h5⟩ := (bitmapUnits_testBit vset i _ h1).1 h3
    have : w = v := by omega
    exact this ▸ hw
  · intro h
    have hi : v / 32 < (bitmapUnits vset).length := by
      rw [bitmapUnits_length]
      have := le_maxL h
      have := Nat.div_le_div_right (c := 32) this
      omega
    exact ⟨v / 32, hi, by omega, (bitmapUnits_testBit vset _ _ hi).2 ⟨v, h, rfl, rfl⟩⟩

@[simp] theorem ints_map (l : List Nat) : ints (l.map .int) = l := by
  induction l with
  | nil => rfl
  | cons a l ih => simp [ints, ih]

theorem fits_replicate (l : List Nat) (h : ∀ u ∈ l, u < 256 ^ 4) : fits (List.replicate l.length I) (l.map .int) = true := by
  induction l with
  | nil => rfl
  | cons a l ih =>
    simp only [List.length_cons, List.replicate_succ, List.map_cons, fits, Bool.and_eq_true, decide_eq_true_eq]
    exact ⟨h a (by simp), ih (fun u hu => h u (by simp [hu]))⟩

theorem exact_replicate (l : List Nat) : exact (List.replicate l.length I) (l.map .int) := by
  induction l with
  | nil => simp [exact]
  | cons a l ih => simpa [List.replicate_succ, exact] using ih

@[simp] theorem calcsize_append (f g : Fmt) : calcsize (f ++ g) = calcsize f + calcsize g := by
  induction f with
  | nil => simp [calcsize]
  | cons i f ih => simp [calcsize, ih]; omega

theorem calcsize_replicate (k : Nat) (i : Item) : calcsize (List.replicate k i) = k * i.width := by
  induction k with
  | zero => simp [calcsize]
  | succ k ih => simp [List.replicate_succ, calcsize, ih, Nat.succ_mul]; omega

theorem fits_append (f g : Fmt) (vs ws : List Val) (h : fits f vs = true) : fits (f ++ g) (vs ++ ws) = fits g ws := by
  induction f generalizing vs with
  | nil => cases vs <;> simp_all [fits]
  | cons i f ih =>
    cases i with
    | x n => simp only [fits] at h; simpa [fits] using ih vs h
    | u w =>
      cases vs with
      | nil => simp [fits] at h
      | cons v vs =>
        cases v with
        | str b => simp [fits] at h
        | int n => simp [fits] at h; simp [fits, h.1, ih vs h.2]
    | s n =>
      cases vs with
      | nil => simp [fits] at h
      | cons v vs =>
        cases v with
        | int n => simp [fits] at h
        | str b => simp [fits] at h; simp [fits, ih vs h]

theorem enc_append (f g : Fmt) (vs ws : List Val) (h : fits f vs = true) : enc (f ++ g) (vs ++ ws) = enc f vs ++ enc g ws := by
  induction f generalizing vs with
  | nil => cases vs <;> simp_all [fits, enc]
  | cons i f ih =>
    cases i with
    | x n => simp only [fits] at h; simp [enc, ih vs h]
    | u w =>
      cases vs with
      | nil => simp [fits] at h
      | cons v vs =>
        cases v with
        | str b => simp [fits] at h
        | int n => simp [fits] at h; simp [enc, ih vs h.2]
    | s n =>
      cases vs with
      | nil => simp [fits] at h
      | cons v vs =>
        cases v with
        | int n => simp [fits] at h
        | str b => simp [fits] at h; simp [enc, ih vs h]

theorem helloFmt_size (k : Nat) : calcsize (helloFmt k) = 12 + 4 * k + 8 * ((k - 1) % 2) := by
  simp [helloFmt, calcsize_append, calcsize_replicate, calcsize, Item.width]; omega

theorem parseHeader_pack (v t l x : Nat) (post : Bytes) (h : fits hdrFmt [.int v, .int t, .int l, .int x] = true) :
    parseHeader (enc hdrFmt [.int v, .int t, .int l, .int x] ++ post) = .ok (v, t, l, x) := by
  have := unpackFrom_enc' hdrFmt _ [] post 0 rfl h (by simp [hdrFmt, exact])
  simp only [List.nil_append] at this
  simp [parseHeader, this, bind, Except.bind]

/-- The explicit bytes of a hello message with bitmap. -/
theorem hello_bitmap_bytes (vs : PyVers) (vset : List Nat) (xid : Nat) (hs : helloSet vs = .ok vset)
    (h4 : 4 ≤ maxL vset) (hx : xid < 2 ^ 32) (hv : maxL vset < 256) :
    hello vs xid = .ok (enc hdrFmt [.int (maxL vset), .int 0, .int (calcsize (helloFmt (bitmapUnits vset).length)), .int xid] ++
      (enc [H, H] [.int 1, .int (4 + (bitmapUnits vset).length * 4)] ++
        (enc (List.replicate (bitmapUnits vset).length I) ((bitmapUnits vset).map .int) ++
          List.replicate (8 * (((bitmapUnits vset).length - 1) % 2)) 0))) := by
  have hl := bitmapUnits_length vset
  have hk : (bitmapUnits vset).length ≤ 8 := by omega
  have hsz := helloFmt_size (bitmapUnits vset).length
  have hszlt : calcsize (helloFmt (bitmapUnits vset).length) < 65536 := by omega
  have hfmt : helloFmt (bitmapUnits vset).length = [B, B, H, I, H, H] ++ (List.replicate (bitmapUnits vset).length I ++
      [X (8 * (((bitmapUnits vset).length - 1) % 2))]) := by rw [helloFmt, List.append_assoc]
  have hnlt : ¬ maxL vset < 4 := by omega
  simp only [hello, hs, bind, Except.bind, if_neg hnlt]
  generalize calcsize (helloFmt (bitmapUnits vset).length) = sz at hszlt
  have f1 : fits [B, B, H, I, H, H] [.int (maxL vset), .int 0, .int sz,
      .int xid, .int 1, .int (4 + (bitmapUnits vset).length * 4)] = true := by
    simp [fits]; omega
  have f2 := fits_replicate _ (bitmapUnits_lt vset)
  have f3 : fits (helloFmt (bitmapUnits vset).length) ([.int (maxL vset), .int 0,
      .int sz, .int xid, .int 1, .int (4 + (bitmapUnits vset).length * 4)] ++
      (bitmapUnits vset).map .int) = true := by
    rw [hfmt, fits_append _ _ _ _ f1]
    have := fits_append (List.replicate (bitmapUnits vset).length I) [X (8 * (((bitmapUnits vset).length - 1) % 2))] _ [] f2
    rw [List.append_nil] at this
    rw [this]; rfl
  rw [pack, if_pos f3]
  congr 1
  rw [hfmt, enc_append _ _ _ _ f1]
  have := enc_append (List.replicate (bitmapUnits vset).length I) [X (8 * (((bitmapUnits vset).length - 1) % 2))] _ [] f2
  rw [List.append_nil] at this
  rw [this]
  simp [enc, hdrFmt]

theorem hello_small_bytes (vs : PyVers) (vset : List Nat) (xid : Nat) (hs : helloSet vs = .ok vset)
    (h4 : maxL vset < 4) (hx : xid < 2 ^ 32) :
    hello vs xid = .ok (enc hdrFmt [.int (maxL vset), .int 0, .int 8, .int xid]) := by
  simp only [hello, hs, bind, Except.bind, if_pos h4]
  rw [pack, if_pos (by simp [hdrFmt, fits]; omega)]

/-- `hello` succeeds exactly for maxima below 256 and ids below 2^32. -/
theorem hello_ok_bounds (vs : PyVers) (vset : List Nat) (xid : Nat) (m : Bytes) (hs : helloSet vs = .ok vset)
    (h : hello vs xid = .ok m) : maxL vset < 256 ∧ xid < 2 ^ 32 := by
  simp only [hello, hs, bind, Except.bind] at h
  split at h
  · obtain ⟨h1, _⟩ := pack_eq_ok.1 h
    simp [hdrFmt, fits] at h1; omega
  · obtain ⟨h1, _⟩ := pack_eq_ok.1 h
    simp [helloFmt, fits] at h1; omega

theorem parseHello_bitmap (vset : List Nat) (xid : Nat) (h4 : 4 ≤ maxL vset) (hx : xid < 2 ^ 32) (hv : maxL vset < 256) :
    parseHello (enc hdrFmt [.int (maxL vset), .int 0, .int (calcsize (helloFmt (bitmapUnits vset).length)), .int xid] ++
      (enc [H, H] [.int 1, .int (4 + (bitmapUnits vset).length * 4)] ++
        (enc (List.replicate (bitmapUnits vset).length I) ((bitmapUnits vset).map .int) ++
          List.replicate (8 * (((bitmapUnits vset).length - 1) % 2)) 0))) =
      .ok (bitmapVersions 0 (bitmapUnits vset)) := by
  have hl := bitmapUnits_length vset
  have hk : (bitmapUnits vset).length ≤ 8 := by omega
  have hsz := helloFmt_size (bitmapUnits vset).length
  have f1 : fits hdrFmt [.int (maxL vset), .int 0, .int (calcsize (helloFmt (bitmapUnits vset).length)), .int xid] = true := by
    simp [fits, hdrFmt]; omega
  have f2 : fits [H, H] [.int 1, .int (4 + (bitmapUnits vset).length * 4)] = true := by simp [fits]; omega
  have f3 := fits_replicate _ (bitmapUnits_lt vset)
  have l1 := enc_length _ _ f1
  have l2 := enc_length _ _ f2
  unfold parseHello
  rw [parseHeader_pack _ _ _ _ _ f1]
  have hne : ¬ calcsize (helloFmt (bitmapUnits vset).length) = 8 := by omega
  simp only [bind, Except.bind, ne_eq, not_true_eq_false, if_false, hne]
  rw [unpackFrom_enc' [H, H] _ _ _ 8 (by rw [l1]; rfl) f2 (by simp [exact])]
  have e1 : (4 + (bitmapUnits vset).length * 4) / 4 = (bitmapUnits vset).length + 1 := by omega
  simp only [e1, Nat.add_sub_cancel]
  have hz : ¬ (bitmapUnits vset).length + 1 = 0 := by omega
  simp only [hz, if_false, not_true_eq_false]
  rw [← List.append_assoc, unpackFrom_enc' _ _ _ _ 12 (by rw [List.length_append, l1, l2]; rfl) f3 (exact_replicate _)]
  simp

theorem parseHello_small (v xid : Nat) (hv : v < 256) (hx : xid < 2 ^ 32) :
    parseHello (enc hdrFmt [.int v, .int 0, .int 8, .int xid]) = .ok [v] := by
  have f1 : fits hdrFmt [.int v, .int 0, .int 8, .int xid] = true := by simp [fits, hdrFmt]; omega
  have := parseHeader_pack _ _ _ _ [] f1
  rw [List.append_nil] at this
  simp [parseHello, this, bind, Except.bind]

theorem normLoop_ints (l vset : List Nat) : ∃ r, normLoop (l.map .int) vset = .ok r ∧ ∀ v, v ∈ r ↔ v ∈ vset ∨ v ∈ l := by
  induction l generalizing vset with
  | nil => exact ⟨vset, rfl, by simp⟩
  | cons a l ih =>
    obtain ⟨r, h1, h2⟩ := ih (setAdd vset a)
    refine ⟨r, by simpa [normLoop, normOne, bind, Except.bind] using h1, fun v => ?_⟩
    rw [h2]
    simp only [setAdd, List.mem_cons]
    split
    · rename_i h
      constructor
      · rintro (h | h)
        · exact .inl h
        · exact .inr (.inr h)
      · rintro (h' | rfl | h')
        · exact .inl h'
        · exact .inl h
        · exact .inr h'
    · simp only [List.mem_append, List.mem_singleton]
      constructor
      · rintro ((h | rfl) | h)
        · exact .inl h
        · exact .inr (.inl rfl)
        · exact .inr (.inr h)
      · rintro (h | rfl | h)
        · exact .inl (.inl h)
        · exact .inl (.inr rfl)
        · exact .inr h

theorem normalize_ints (l : List Nat) : ∃ r, normalize (.seq (l.map .int)) = .ok r ∧ ∀ v, v ∈ r ↔ v ∈ l := by
  obtain ⟨r, h1, h2⟩ := normLoop_ints l []
  exact ⟨r, h1, by simpa using h2⟩

theorem helloSet_ints (l : List Nat) (hl : l ≠ []) : helloSet (.seq (l.map .int)) = normalize (.seq (l.map .int)) := by
  cases l with
  | nil => exact absurd rfl hl
  | cons a l => rfl

theorem versionText_ok {v : Nat} (h : v ≤ 5) : ∃ t, versionText v = .ok t ∧ t.length ≤ 3 := by
  match v, h with
  | 0, _ => exact ⟨_, rfl, by simp⟩
  | 1, _ => exact ⟨_, rfl, by simp⟩
  | 2, _ => exact ⟨_, rfl, by simp⟩
  | 3, _ => exact ⟨_, rfl, by simp⟩
  | 4, _ => exact ⟨_, rfl, by simp⟩
  | 5, _ => exact ⟨_, rfl, by simp⟩

theorem reprItems_length (ts : List Bytes) (h : ∀ t ∈ ts, t.length ≤ 3) : (reprItems ts).length ≤ 7 * ts.length := by
  induction ts with
  | nil => simp [reprItems]
  | cons a ts ih =>
    have ha := h a (by simp)
    have ih' := ih (fun l hl => h l (by simp [hl]))
    cases ts with
    | nil => simp [reprItems] at *; omega
    | cons b ts => simp [reprItems] at *; omega

theorem versionTexts_ok (l : List Nat) (h : ∀ v ∈ l, v ≤ 5) :
    ∃ ts, versionTexts l = .ok ts ∧ ts.length = l.length ∧ ∀ t ∈ ts, t.length ≤ 3 := by
  induction l with
  | nil => exact ⟨[], rfl, rfl, by simp⟩
  | cons a l ih =>
    obtain ⟨ts, h1, h2, h3⟩ := ih (fun v hv => h v (by simp [hv]))
    obtain ⟨t, k1, k2⟩ := versionText_ok (h a (by simp))
    exact ⟨t :: ts, by simp [versionTexts, h1, k1, bind, Except.bind], by simp [h2], by
      intro x hx; rcases List.mem_cons.1 hx with rfl | hx
      · exact k2
      · exact h3 x hx⟩

theorem setAdd_nodup {s : List Nat} (v : Nat) (h : s.Nodup) : (setAdd s v).Nodup := by
  unfold setAdd; split
  · exact h
  · rename_i hv
    rw [List.nodup_append]
    exact ⟨h, by simp, by intro a ha b hb; simp at hb; subst hb; exact fun e => hv (e ▸ ha)⟩

theorem normLoop_nodup (l : List PyVer) (s r : List Nat) (hs : s.Nodup) (h : normLoop l s = .ok r) : r.Nodup := by
  induction l generalizing s with
  | nil => simp [normLoop] at h; subst h; exact hs
  | cons a l ih =>
    simp only [normLoop, bind, Except.bind] at h
    split at h
    · cases h
    · exact ih _ (setAdd_nodup _ hs) h

theorem normalize_nodup (vs : PyVers) (r : List Nat) (h : normalize vs = .ok r) : r.Nodup := by
  cases vs with
  | none => simp [normalize] at h; subst h; simp
  | other => simp [normalize] at h
  | seq l => exact normLoop_nodup l [] r (by simp) h

theorem nodup_le5_length (l : List Nat) (hn : l.Nodup) (h : ∀ v ∈ l, v ≤ 5) : l.length ≤ 6 := by
  have : l ⊆ List.range 6 := by intro v hv; simp; have := h v hv; omega
  simpa using (hn.subperm this).length_le

end Twink
