import Verif.Proof.HelloSpec

/-! # Properties C06–C09: hello messages and version negotiation -/

namespace Twink
open Spec Fmt

/-- **C06.** With a version ≥ 4 among the given ones, parsing the hello message gives exactly the given set. -/
theorem C06_bitmap_survives (vs : PyVers) (xid : Nat) (m : Bytes) (hv : Valid vs) (h : hello vs xid = .ok m)
    (h4 : ∃ v, Accepts vs v ∧ 4 ≤ v) : ∃ S, parseHello m = .ok S ∧ ∀ v, v ∈ S ↔ Accepts vs v := by
  obtain ⟨r, h1, h2, h3⟩ := helloSet_spec vs hv
  obtain ⟨v, hv1, hv4⟩ := h4
  have hmax : 4 ≤ maxL r := Nat.le_trans hv4 (le_maxL ((h3 v).2 hv1))
  obtain ⟨b1, b2⟩ := hello_ok_bounds vs r xid m h1 h
  rw [hello_bitmap_bytes vs r xid h1 hmax b2 b1] at h
  injection h with h
  subst h
  exact ⟨_, parseHello_bitmap r xid hmax b2 b1, fun v => by rw [bitmap_roundtrip, h3]⟩

/-- **C06**, only old versions: the peer learns exactly the highest one. -/
theorem C06_old_versions (vs : PyVers) (xid mx : Nat) (m : Bytes) (hv : Valid vs) (h : hello vs xid = .ok m)
    (hmx : Highest vs mx) (h4 : mx < 4) : parseHello m = .ok [mx] := by
  obtain ⟨r, h1, h2, h3⟩ := helloSet_spec vs hv
  have : maxL r = mx := highest_unique (highest_maxL h2 h3) hmx
  obtain ⟨b1, b2⟩ := hello_ok_bounds vs r xid m h1 h
  rw [hello_small_bytes vs r xid h1 (by omega) b2] at h
  injection h with h
  subst h
  rw [this]
  exact parseHello_small mx xid (by omega) b2

/-- **C06**, no versions given: the peer learns `{1}`. -/
theorem C06_default (xid : Nat) (m : Bytes) (h : hello .none xid = .ok m ∨ hello (.seq []) xid = .ok m) :
    parseHello m = .ok [1] := by
  have hm : Highest .none 1 := ⟨rfl, fun v hv => Nat.le_of_eq hv⟩
  rcases h with h | h
  · exact C06_old_versions .none xid 1 m trivial h hm (by decide)
  · exact C06_old_versions (.seq []) xid 1 m (by simp [Valid]) h ⟨rfl, fun v hv => Nat.le_of_eq hv⟩ (by decide)

/-- **C06**, domain: building the hello succeeds for exactly the version numbers that fit a byte and ids that fit 32 bits. -/
theorem C06_hello_domain (vs : PyVers) (xid : Nat) (hv : Valid vs) :
    (∃ m, hello vs xid = .ok m) ↔ (∀ v, Accepts vs v → v < 256) ∧ xid < 2 ^ 32 := by
  obtain ⟨r, h1, h2, h3⟩ := helloSet_spec vs hv
  constructor
  · rintro ⟨m, h⟩
    obtain ⟨b1, b2⟩ := hello_ok_bounds vs r xid m h1 h
    exact ⟨fun v hv => Nat.lt_of_le_of_lt (le_maxL ((h3 v).2 hv)) b1, b2⟩
  · rintro ⟨hb, hx⟩
    have hm := hb _ ((h3 _).1 (maxL_mem h2))
    by_cases h4 : maxL r < 4
    · exact ⟨_, hello_small_bytes vs r xid h1 h4 hx⟩
    · exact ⟨_, hello_bitmap_bytes vs r xid h1 (by omega) hx hm⟩

/-- Non-vacuity of C06: `accept_versions = [1.0, 4, 5, 33]`. -/
example : ∃ m, hello (.seq [.float (some 0), .int 4, .int 5, .int 33]) 7 = .ok m ∧ parseHello m = .ok [1, 4, 5, 33] :=
  ⟨_, rfl, by decide⟩

/-- **C07.** Hello messages are well-formed: type 0, version = highest accepted, right id, right length; the bitmap element has
type 1 and length 4 plus 4 per word, with `highest / 32 + 1` words. -/
theorem C07_hello_well_formed (vs : PyVers) (xid mx : Nat) (m : Bytes) (hv : Valid vs) (hmx : Highest vs mx)
    (h : hello vs xid = .ok m) :
    WellFormed m ∧ u8 m 0 = mx ∧ u8 m 1 = 0 ∧ u32 m 4 = xid ∧
    (mx < 4 → m.length = 8) ∧
    (4 ≤ mx → u16 m 8 = 1 ∧ u16 m 10 = 4 + 4 * (mx / 32 + 1) ∧ 8 + u16 m 10 ≤ m.length) := by
  obtain ⟨r, h1, h2, h3⟩ := helloSet_spec vs hv
  have hr : maxL r = mx := highest_unique (highest_maxL h2 h3) hmx
  obtain ⟨b1, b2⟩ := hello_ok_bounds vs r xid m h1 h
  by_cases h4 : maxL r < 4
  · rw [hello_small_bytes vs r xid h1 h4 b2] at h
    injection h with h
    have f1 : fits hdrFmt [.int (maxL r), .int 0, .int 8, .int xid] = true := by simp [fits, hdrFmt]; omega
    have hl : m.length = 8 := by rw [← h, enc_length _ _ f1]; rfl
    have hp := parseHeader_pack _ _ _ _ [] f1
    rw [List.append_nil, h, parseHeader_fields m (by omega)] at hp
    simp only [Except.ok.injEq, Prod.mk.injEq] at hp
    obtain ⟨p1, p2, p3, p4⟩ := hp
    exact ⟨⟨by omega, by rw [announced_eq_u16 _ (by omega), p3, hl]⟩, by omega, p2, p4, fun _ => hl, fun h => by omega⟩
  · rw [hello_bitmap_bytes vs r xid h1 (by omega) b2 b1] at h
    injection h with h
    have hu := bitmapUnits_length r
    have hsz := helloFmt_size (bitmapUnits r).length
    have f1 : fits hdrFmt [.int (maxL r), .int 0, .int (calcsize (helloFmt (bitmapUnits r).length)), .int xid] = true := by
      simp [fits, hdrFmt]; omega
    have f2 : fits [H, H] [.int 1, .int (4 + (bitmapUnits r).length * 4)] = true := by simp [fits]; omega
    have f3 := fits_replicate _ (bitmapUnits_lt r)
    have l1 := enc_length _ _ f1
    have l2 := enc_length _ _ f2
    have l3 := enc_length _ _ f3
    have hl : m.length = calcsize (helloFmt (bitmapUnits r).length) := by
      rw [← h, hsz]; simp only [List.length_append, enc_hdr_length, l2, l3, calcsize_replicate, List.length_replicate]
      simp [calcsize, Item.width]; omega
    have hp := parseHeader_pack _ _ _ _ (enc [H, H] [.int 1, .int (4 + (bitmapUnits r).length * 4)] ++
        (enc (List.replicate (bitmapUnits r).length I) ((bitmapUnits r).map .int) ++
          List.replicate (8 * (((bitmapUnits r).length - 1) % 2)) 0)) f1
    rw [h, parseHeader_fields m (by omega)] at hp
    simp only [Except.ok.injEq, Prod.mk.injEq] at hp
    obtain ⟨p1, p2, p3, p4⟩ := hp
    have q1 : u16 m 8 = 1 := by
      rw [← h]
      simp only [enc, List.append_assoc, List.append_nil]
      exact u16_eq_decBE (enc hdrFmt _) _ 8 (by rw [l1]; rfl) 1 (by decide)
    have q2 : u16 m 10 = 4 + (bitmapUnits r).length * 4 := by
      rw [← h]
      simp only [enc, List.append_assoc, List.append_nil]
      rw [← List.append_assoc]
      exact u16_eq_decBE _ _ 10 (by rw [List.length_append, l1]; rfl) _ (by omega)
    exact ⟨⟨by omega, by rw [announced_eq_u16 _ (by omega), p3, hl]⟩, by omega, p2, p4, fun h => by omega,
      fun _ => ⟨q1, by omega, by omega⟩⟩

example : Highest (.seq [.int 1, .int 4]) 4 ∧ ∃ m, hello (.seq [.int 1, .int 4]) 7 = .ok m := by
  refine ⟨⟨⟨.int 4, by simp, rfl⟩, ?_⟩, _, rfl⟩
  rintro v ⟨x, hx, hv⟩
  simp at hx
  rcases hx with rfl | rfl <;> simp [verOf] at hv <;> omega

/-- **C07, alignment, provable part**: the message is a multiple of 8 bytes whenever the number of bitmap words is odd; in
particular for all versions below 32. Missing for the full claim: even numbers of words (`C07_alignment_refuted`). -/
theorem C07_alignment_partial (vs : PyVers) (xid mx : Nat) (m : Bytes) (hv : Valid vs) (hmx : Highest vs mx)
    (h : hello vs xid = .ok m) (hodd : (mx / 32) % 2 = 0) : m.length % 8 = 0 := by
  obtain ⟨r, h1, h2, h3⟩ := helloSet_spec vs hv
  have hr : maxL r = mx := highest_unique (highest_maxL h2 h3) hmx
  obtain ⟨b1, b2⟩ := hello_ok_bounds vs r xid m h1 h
  have hwf := C07_hello_well_formed vs xid mx m hv hmx h
  by_cases h4 : mx < 4
  · rw [hwf.2.2.2.2.1 h4]
  · rw [hello_bitmap_bytes vs r xid h1 (by omega) b2 b1] at h
    injection h with h
    have hu := bitmapUnits_length r
    rw [← h]
    simp only [List.length_append, List.length_replicate]
    rw [enc_length _ _ (fits_replicate _ (bitmapUnits_lt r)), calcsize_replicate]
    simp [enc, hdrFmt, Item.width]
    omega

/-- **C07, alignment, exactly**: four bytes are missing if the number of bitmap words is even, and only then. -/
theorem C07_alignment_exact (vs : PyVers) (xid mx : Nat) (m : Bytes) (hv : Valid vs) (hmx : Highest vs mx) (h : hello vs xid = .ok m) :
    m.length % 8 = if (mx / 32) % 2 = 0 then 0 else 4 := by
  split
  · rename_i hodd
    exact C07_alignment_partial vs xid mx m hv hmx h hodd
  · rename_i hodd
    obtain ⟨r, h1, h2, h3⟩ := helloSet_spec vs hv
    have hr : maxL r = mx := highest_unique (highest_maxL h2 h3) hmx
    obtain ⟨b1, b2⟩ := hello_ok_bounds vs r xid m h1 h
    have h4 : ¬ mx < 4 := by omega
    rw [hello_bitmap_bytes vs r xid h1 (by omega) b2 b1] at h
    injection h with h
    have hu := bitmapUnits_length r
    rw [← h]
    simp only [List.length_append, List.length_replicate]
    rw [enc_length _ _ (fits_replicate _ (bitmapUnits_lt r)), calcsize_replicate]
    simp [enc, hdrFmt, Item.width]
    omega

/-- **C07's alignment claim is false of the code** for an even number of bitmap words: 8 pad bytes are added where 4 are needed. -/
theorem C07_alignment_refuted :
    ∃ (vs : PyVers) (m : Bytes), Valid vs ∧ hello vs 1 = .ok m ∧ m.length % 8 = 4 :=
  ⟨.seq [.int 32], _, by simp [Valid, verOf], rfl, by decide⟩

/-- **C08.** On receiving a hello that announces the set `P`, the channel selects the highest common version, or — if there is
none — sends one well-formed ERROR(HELLO_FAILED = 0, INCOMPATIBLE = 0) message and raises the channel-close signal. -/
theorem C08_negotiation (accept : PyVers) (xid : Nat) (st : HsState) (m : Bytes) (P : List Nat)
    (hv : Valid accept) (h5 : ∀ v, Accepts accept v → v ≤ 5) (hx : xid < 2 ^ 32)
    (hlen : 8 ≤ m.length) (htype : u8 m 1 = 0) (hP : parseHello m = .ok P) :
    (∃ v, v ∈ P ∧ Accepts accept v ∧ (∀ u ∈ P, Accepts accept u → u ≤ v) ∧
      ofRecv accept xid st m = (⟨some v, st.sent⟩, .ok m)) ∨
    ((∀ v ∈ P, ¬ Accepts accept v) ∧
      ∃ e, ofRecv accept xid st m = (⟨st.version, st.sent ++ [e]⟩, .error .channelClose) ∧
        WellFormed e ∧ Highest accept (u8 e 0) ∧ u8 e 1 = 1 ∧ u32 e 4 = xid ∧ u16 e 8 = 0 ∧ u16 e 10 = 0) := by
  obtain ⟨r, h1, h2, hnd, h3⟩ := normalize_spec accept hv
  have hm : m ≠ [] := by intro e; subst e; simp at hlen
  have hof : ofRecv accept xid st m = negotiate accept xid st m := by
    simp [ofRecv, hm, parseHeader_fields m hlen, htype]
  rw [hof]
  simp only [negotiate, h1, hP]
  by_cases hc : P.filter (· ∈ (if r = [] then [1] else r)) = []
  · right
    have hnone : ∀ v ∈ P, ¬ Accepts accept v := by
      intro v hvP ha
      have : v ∈ P.filter (· ∈ (if r = [] then [1] else r)) := by
        rw [List.mem_filter]; exact ⟨hvP, by simpa using (h3 v).2 ha⟩
      rw [hc] at this; cases this
    refine ⟨hnone, ?_⟩
    simp only [hc, ne_eq, not_true_eq_false, if_false]
    generalize hacc : (if r = [] then [1] else r) = acc at *
    have hacc5 : ∀ v ∈ acc, v ≤ 5 := fun v hv => h5 v ((h3 v).1 hv)
    have haccn : acc.Nodup := by rw [← hacc]; split <;> first | exact hnd | simp
    have hl6 := nodup_le5_length acc haccn hacc5
    obtain ⟨ts, t1, t2, t3⟩ := versionTexts_ok acc hacc5
    have tl := reprItems_length ts t3
    have tlen : (acceptPrefix ++ reprStrings ts).length ≤ 61 := by
      simp [acceptPrefix, reprStrings] at *; omega
    have hmax : maxL acc ≤ 5 := hacc5 _ (maxL_mem h2)
    simp only [t1]
    generalize hT : (acceptPrefix ++ reprStrings ts) = T at *
    have f1 : fits hdrFmt [.int (maxL acc), .int 1, .int (calcsize errFmt + T.length), .int xid] = true := by
      simp [fits, hdrFmt, errFmt, calcsize, Item.width]; omega
    have f2 : fits errFmt [.int (maxL acc), .int 1, .int (calcsize errFmt + T.length), .int xid, .int 0, .int 0] = true := by
      have := fits_append hdrFmt [H, H] _ [.int 0, .int 0] f1
      simpa [fits, hdrFmt, errFmt] using this
    have l2 := enc_length _ _ f2
    have l1 := enc_length _ _ f1
    rw [pack, if_pos f2]
    refine ⟨_, rfl, ?_⟩
    have he : enc errFmt [.int (maxL acc), .int 1, .int (calcsize errFmt + T.length), .int xid, .int 0, .int 0] ++ T =
        enc hdrFmt [.int (maxL acc), .int 1, .int (calcsize errFmt + T.length), .int xid] ++ (encBE 2 0 ++ (encBE 2 0 ++ T)) := by
      simp [enc, errFmt, hdrFmt]
    rw [he]
    generalize hE : enc hdrFmt [.int (maxL acc), .int 1, .int (calcsize errFmt + T.length), .int xid] ++
      (encBE 2 0 ++ (encBE 2 0 ++ T)) = E
    have hEl : E.length = calcsize errFmt + T.length := by
      rw [← hE]; simp only [List.length_append, enc_hdr_length, encBE_length]; simp [errFmt, calcsize, Item.width]; omega
    have hE8 : 8 ≤ E.length := by rw [hEl]; simp [errFmt, calcsize, Item.width]; omega
    have hp := parseHeader_pack _ _ _ _ (encBE 2 0 ++ (encBE 2 0 ++ T)) f1
    rw [hE, parseHeader_fields E hE8] at hp
    simp only [Except.ok.injEq, Prod.mk.injEq] at hp
    obtain ⟨p1, p2, p3, p4⟩ := hp
    refine ⟨⟨hE8, by rw [announced_eq_u16 _ (by omega), p3, hEl]⟩, by rw [p1]; exact highest_maxL h2 h3, p2, p4, ?_, ?_⟩
    · rw [← hE]; exact u16_eq_decBE _ _ 8 (by rw [l1]; rfl) 0 (by decide)
    · rw [← hE, ← List.append_assoc]; exact u16_eq_decBE _ _ 10 (by simp only [List.length_append, enc_hdr_length, encBE_length]) 0 (by decide)
  · left
    simp only [ne_eq, hc, not_false_eq_true, if_true]
    have hmem := maxL_mem hc
    have hle := fun u hu => le_maxL (l := P.filter (· ∈ (if r = [] then [1] else r))) (v := u) hu
    generalize hmx : maxL (P.filter (· ∈ (if r = [] then [1] else r))) = mx at *
    rw [List.mem_filter] at hmem
    refine ⟨mx, hmem.1, (h3 _).1 (by simpa using hmem.2), fun u hu ha => hle u ?_, rfl⟩
    rw [List.mem_filter]; exact ⟨hu, by simpa using (h3 u).2 ha⟩

/-- Non-vacuity of C08 (both outcomes). -/
example : ∃ m P, hello (.seq [.int 1, .int 4]) 7 = .ok m ∧ 8 ≤ m.length ∧ u8 m 1 = 0 ∧ parseHello m = .ok P ∧
    (ofRecv (.seq [.int 4, .int 5]) 9 ⟨none, []⟩ m).1.version = some 4 ∧
    (ofRecv (.seq [.int 2, .int 5]) 9 ⟨none, []⟩ m).2 = .error .channelClose :=
  ⟨_, [1, 4], rfl, by decide, by decide, by decide, by decide, by decide⟩

/-- The bytes of an ASCII text. -/
def asciiBytes (s : String) : Bytes := s.toList.map fun c => UInt8.ofNat c.toNat

/-- The name of a version, in quotes. -/
def quotedVersion : Nat → String
  | 0 => "'-'"
  | 1 => "'1.0'"
  | 2 => "'1.1'"
  | 3 => "'1.2'"
  | 4 => "'1.3'"
  | _ => "'1.4'"

/-- The names of versions, separated by a comma and a blank. -/
def versionList : List Nat → Bytes
  | [] => []
  | v :: vs => asciiBytes (quotedVersion v) ++ vs.flatMap fun u => asciiBytes ", " ++ asciiBytes (quotedVersion u)

theorem versionList_repr (l : List Nat) (h : ∀ v ∈ l, v ≤ 5) (ts : List Bytes) (ht : versionTexts l = .ok ts) :
    reprItems ts = versionList l := by
  have one : ∀ v ≤ 5, ∀ t, versionText v = .ok t → [39] ++ t ++ [39] = asciiBytes (quotedVersion v) := by
    intro v hv t ht
    match v, hv with
    | 0, _ => injection ht with ht; subst ht; decide
    | 1, _ => injection ht with ht; subst ht; decide
    | 2, _ => injection ht with ht; subst ht; decide
    | 3, _ => injection ht with ht; subst ht; decide
    | 4, _ => injection ht with ht; subst ht; decide
    | 5, _ => injection ht with ht; subst ht; decide
  induction l generalizing ts with
  | nil => injection ht with ht; subst ht; rfl
  | cons v l ih =>
    obtain ⟨t, k1, _⟩ := versionText_ok (h v (by simp))
    obtain ⟨ts', k2, _, _⟩ := versionTexts_ok l (fun v hv => h v (by simp [hv]))
    have ih := ih (fun v hv => h v (by simp [hv])) ts' k2
    have ho := one v (h v (by simp)) t k1
    simp only [versionTexts, k1, k2, bind, Except.bind, Except.ok.injEq] at ht
    subst ht
    cases l with
    | nil =>
      injection k2 with k2; subst k2
      simpa [reprItems, versionList] using ho
    | cons u l =>
      cases ts' with
      | nil =>
        obtain ⟨_, k3, k4, _⟩ := versionTexts_ok (u :: l) (fun v hv => h v (by simp [hv]))
        rw [k2] at k3; injection k3 with k3; subst k3; simp at k4
      | cons t' ts' =>
        rw [reprItems, ih, ho]
        have : ([44, 32] : Bytes) = asciiBytes ", " := by decide
        rw [this]
        simp [versionList]
        exact fun h => absurd h (by simp)

/-- **C08, the text of the error.** Behind the twelve bytes of the error message stands `Accept versions: [...]` with the accepted versions,
each once. -/
theorem C08_error_text (accept : PyVers) (xid : Nat) (st : HsState) (m : Bytes) (P : List Nat)
    (hv : Valid accept) (h5 : ∀ v, Accepts accept v → v ≤ 5) (hx : xid < 2 ^ 32)
    (hlen : 8 ≤ m.length) (htype : u8 m 1 = 0) (hP : parseHello m = .ok P) (hno : ∀ v ∈ P, ¬ Accepts accept v) :
    ∃ hdr l, hdr.length = 12 ∧ l.Nodup ∧ (∀ v, v ∈ l ↔ Accepts accept v) ∧
      (ofRecv accept xid st m).1.sent = st.sent ++ [hdr ++ (asciiBytes "Accept versions: [" ++ versionList l ++ asciiBytes "]")] := by
  obtain ⟨r, h1, h2, hnd, h3⟩ := normalize_spec accept hv
  have hm : m ≠ [] := by intro e; subst e; simp at hlen
  have hof : ofRecv accept xid st m = negotiate accept xid st m := by
    simp [ofRecv, hm, parseHeader_fields m hlen, htype]
  rw [hof]
  simp only [negotiate, h1, hP]
  have hc : P.filter (· ∈ (if r = [] then [1] else r)) = [] := by
    rw [List.filter_eq_nil_iff]
    intro v hvP hin
    exact hno v hvP ((h3 v).1 (by simpa using hin))
  simp only [hc, ne_eq, not_true_eq_false, if_false]
  generalize hacc : (if r = [] then [1] else r) = acc at *
  have hacc5 : ∀ v ∈ acc, v ≤ 5 := fun v hv => h5 v ((h3 v).1 hv)
  have haccn : acc.Nodup := by rw [← hacc]; split <;> first | exact hnd | simp
  have hl6 := nodup_le5_length acc haccn hacc5
  obtain ⟨ts, t1, t2, t3⟩ := versionTexts_ok acc hacc5
  have tl := reprItems_length ts t3
  have tlen : (acceptPrefix ++ reprStrings ts).length ≤ 61 := by
    simp [acceptPrefix, reprStrings] at *; omega
  have hmax : maxL acc ≤ 5 := hacc5 _ (maxL_mem h2)
  have htxt : acceptPrefix ++ reprStrings ts = asciiBytes "Accept versions: [" ++ versionList acc ++ asciiBytes "]" := by
    have e1 : acceptPrefix ++ [91] = asciiBytes "Accept versions: [" := by decide
    have e2 : ([93] : Bytes) = asciiBytes "]" := by decide
    rw [reprStrings, versionList_repr acc hacc5 ts t1, ← e1, ← e2]
    simp
  simp only [t1]
  generalize hT : (acceptPrefix ++ reprStrings ts) = T at *
  have f2 : fits errFmt [.int (maxL acc), .int 1, .int (calcsize errFmt + T.length), .int xid, .int 0, .int 0] = true := by
    simp [fits, errFmt, calcsize, Item.width]; omega
  rw [pack, if_pos f2]
  exact ⟨_, acc, by rw [enc_length _ _ f2]; rfl, haccn, h3, by rw [htxt]⟩

/-- Non-vacuity: the text itself. -/
example : ∃ m, hello (.seq [.int 1, .int 4]) 7 = .ok m ∧ (ofRecv (.seq [.int 2, .int 5]) 9 ⟨none, []⟩ m).1.sent =
    [[5, 1, 0, 43, 0, 0, 0, 9, 0, 0, 0, 0] ++ asciiBytes "Accept versions: ['1.1', '1.4']"] :=
  ⟨_, rfl, by decide +kernel⟩

/-- Messages that are not hellos leave the negotiation state alone. -/
theorem C08_other_messages (accept : PyVers) (xid : Nat) (st : HsState) (m : Bytes) (hlen : 8 ≤ m.length)
    (htype : u8 m 1 ≠ 0) : ofRecv accept xid st m = (st, .ok m) := by
  have hm : m ≠ [] := by intro e; subst e; simp at hlen
  simp [ofRecv, hm, parseHeader_fields m hlen, htype]

/-- Outside the range of C08: a channel that accepts a version above 5 and finds no common version raises IndexError and sends
no error message (the text table ends at 1.4). -/
theorem C08_unknown_version_note : ∃ m, hello (.seq [.int 4]) 7 = .ok m ∧
    ofRecv (.seq [.int 6]) 9 ⟨none, []⟩ m = (⟨none, []⟩, .error .indexError) := ⟨_, rfl, by decide⟩

/-- What the peer of a channel accepting `vs` learns from its hello. -/
theorem parse_own_hello (vs : PyVers) (xid : Nat) (m : Bytes) (hv : Valid vs) (h : hello vs xid = .ok m) :
    8 ≤ m.length ∧ u8 m 1 = 0 ∧ ∃ S mx, Highest vs mx ∧ parseHello m = .ok S ∧
      ((4 ≤ mx ∧ ∀ v, v ∈ S ↔ Accepts vs v) ∨ (mx < 4 ∧ S = [mx])) := by
  obtain ⟨r, h1, h2, h3⟩ := helloSet_spec vs hv
  have hmx := highest_maxL h2 h3
  have wf := C07_hello_well_formed vs xid _ m hv hmx h
  refine ⟨wf.1.1, wf.2.2.1, ?_⟩
  by_cases h4 : maxL r < 4
  · exact ⟨[maxL r], maxL r, hmx, C06_old_versions vs xid _ m hv h hmx h4, .inr ⟨h4, rfl⟩⟩
  · obtain ⟨S, s1, s2⟩ := C06_bitmap_survives vs xid m hv h ⟨maxL r, hmx.1, by omega⟩
    exact ⟨S, maxL r, hmx, s1, .inl ⟨by omega, s2⟩⟩

/-- **C09, provable part.** (1) If both ends select a version, they select the same one, and it is the highest version
accepted by both. (2) If both ends accept some version ≥ 4 (so both send a bitmap), either both select or both fail.
Missing for the full claim: one end may fail while the other goes on, if an end's versions are all below 4
(`C09_refuted`). -/
theorem C09_agreement_partial (a b : PyVers) (xa xb ya yb : Nat) (sa sb : HsState) (ma mb : Bytes)
    (hva : Valid a) (hvb : Valid b) (ha5 : ∀ v, Accepts a v → v ≤ 5) (hb5 : ∀ v, Accepts b v → v ≤ 5)
    (hya : ya < 2 ^ 32) (hyb : yb < 2 ^ 32)
    (hma : hello a xa = .ok ma) (hmb : hello b xb = .ok mb) :
    let ra := ofRecv a ya sa mb
    let rb := ofRecv b yb sb ma
    ((∃ x, ra.2 = .ok x) → (∃ x, rb.2 = .ok x) →
      ∃ v, ra.1.version = some v ∧ rb.1.version = some v ∧ Accepts a v ∧ Accepts b v ∧
        ∀ u, Accepts a u → Accepts b u → u ≤ v) ∧
    ((∃ v, Accepts a v ∧ 4 ≤ v) → (∃ v, Accepts b v ∧ 4 ≤ v) →
      (∃ x y, ra.2 = .ok x ∧ rb.2 = .ok y) ∨ (ra.2 = .error .channelClose ∧ rb.2 = .error .channelClose)) := by
  intro ra rb
  obtain ⟨la, ta, SA, mxa, hha, pa, ca⟩ := parse_own_hello a xa ma hva hma
  obtain ⟨lb, tb, SB, mxb, hhb, pb, cb⟩ := parse_own_hello b xb mb hvb hmb
  have na := C08_negotiation a ya sa mb SB hva ha5 hya lb tb pb
  have nb := C08_negotiation b yb sb ma SA hvb hb5 hyb la ta pa
  constructor
  · rintro ⟨x, hx⟩ ⟨y, hy⟩
    rcases na with ⟨v, v1, v2, v3, v4⟩ | ⟨_, e, he, _⟩
    swap
    · simp only [ra, he] at hx; cases hx
    rcases nb with ⟨w, w1, w2, w3, w4⟩ | ⟨_, e, he, _⟩
    swap
    · simp only [rb, he] at hy; cases hy
    -- v ∈ SB, a accepts v, maximal; w ∈ SA, b accepts w, maximal
    have hSA : ∀ u, u ∈ SA → Accepts a u := by
      intro u hu
      rcases ca with ⟨_, c⟩ | ⟨_, rfl⟩
      · exact (c u).1 hu
      · simp at hu; subst hu; exact hha.1
    have hSB : ∀ u, u ∈ SB → Accepts b u := by
      intro u hu
      rcases cb with ⟨_, c⟩ | ⟨_, rfl⟩
      · exact (c u).1 hu
      · simp at hu; subst hu; exact hhb.1
    have haw := hSA w w1
    have hbv := hSB v v1
    have maxv : ∀ u, Accepts a u → Accepts b u → u ≤ v := by
      intro u ua ub
      rcases cb with ⟨_, c⟩ | ⟨_, rfl⟩
      · exact v3 u ((c u).2 ub) ua
      · simp at v1; subst v1; exact hhb.2 u ub
    have maxw : ∀ u, Accepts a u → Accepts b u → u ≤ w := by
      intro u ua ub
      rcases ca with ⟨_, c⟩ | ⟨_, rfl⟩
      · exact w3 u ((c u).2 ua) ub
      · simp at w1; subst w1; exact hha.2 u ua
    have hvw : v = w := Nat.le_antisymm (maxw v v2 hbv) (maxv w haw w2)
    subst hvw
    exact ⟨v, by simp [ra, v4], by simp [rb, w4], v2, hbv, maxv⟩
  · rintro ⟨u, ua, u4⟩ ⟨w, wb, w4⟩
    have ca' : ∀ v, v ∈ SA ↔ Accepts a v := by
      rcases ca with ⟨_, c⟩ | ⟨c, _⟩
      · exact c
      · have := hha.2 u ua; omega
    have cb' : ∀ v, v ∈ SB ↔ Accepts b v := by
      rcases cb with ⟨_, c⟩ | ⟨c, _⟩
      · exact c
      · have := hhb.2 w wb; omega
    rcases na with ⟨v, v1, v2, v3, v4⟩ | ⟨nv, e, he, _⟩ <;> rcases nb with ⟨w, w1, w2, w3, w4⟩ | ⟨nw, e', he', _⟩
    · left; exact ⟨mb, ma, by simp only [ra, v4], by simp only [rb, w4]⟩
    · exact absurd ((cb' v).1 v1) (nw v ((ca' v).2 v2))
    · exact absurd ((ca' w).1 w1) (nv w ((cb' w).2 w2))
    · right; simp only [ra, rb, he, he']; exact ⟨trivial, trivial⟩

/-- Non-vacuity of C09. -/
example : ∃ ma mb, hello (.seq [.int 1, .int 4, .int 5]) 1 = .ok ma ∧ hello (.seq [.int 4, .int 3]) 2 = .ok mb ∧
    (ofRecv (.seq [.int 1, .int 4, .int 5]) 3 ⟨none, []⟩ mb).1.version = some 4 ∧
    (ofRecv (.seq [.int 4, .int 3]) 3 ⟨none, []⟩ ma).1.version = some 4 :=
  ⟨_, _, rfl, rfl, by decide, by decide⟩

/-- The versions that a channel's greeting tells: all if one of them is 1.3 or higher, else the highest only. -/
def Told (x : PyVers) (v : Nat) : Prop := Accepts x v ∧ ((∃ u, Accepts x u ∧ 4 ≤ u) ∨ ∀ u, Accepts x u → u ≤ v)

/-- **C09, exactly**: an end selects a version just if it accepts one that the other end's greeting tells, and otherwise fails; so both select
or both fail just if that is so on both sides or on neither. -/
theorem C09_exact (a b : PyVers) (xa xb ya yb : Nat) (sa sb : HsState) (ma mb : Bytes)
    (hva : Valid a) (hvb : Valid b) (ha5 : ∀ v, Accepts a v → v ≤ 5) (hb5 : ∀ v, Accepts b v → v ≤ 5)
    (hya : ya < 2 ^ 32) (hyb : yb < 2 ^ 32) (hma : hello a xa = .ok ma) (hmb : hello b xb = .ok mb) :
    let ra := ofRecv a ya sa mb
    let rb := ofRecv b yb sb ma
    ((ra.2 = .ok mb ↔ ∃ v, Accepts a v ∧ Told b v) ∧ (ra.2 = .error .channelClose ↔ ¬ ∃ v, Accepts a v ∧ Told b v)) ∧
    (((ra.2 = .ok mb ∧ rb.2 = .ok ma) ∨ (ra.2 = .error .channelClose ∧ rb.2 = .error .channelClose)) ↔
      ((∃ v, Accepts a v ∧ Told b v) ↔ ∃ v, Accepts b v ∧ Told a v)) := by
  have one : ∀ (a b : PyVers) (xb ya : Nat) (sa : HsState) (mb : Bytes), Valid a → Valid b → (∀ v, Accepts a v → v ≤ 5) → ya < 2 ^ 32 →
      hello b xb = .ok mb → ((ofRecv a ya sa mb).2 = .ok mb ∧ ∃ v, Accepts a v ∧ Told b v) ∨
        ((ofRecv a ya sa mb).2 = .error .channelClose ∧ ¬ ∃ v, Accepts a v ∧ Told b v) := by
    intro a b xb ya sa mb hva hvb ha5 hya hmb
    obtain ⟨lb, tb, SB, mxb, hhb, pb, cb⟩ := parse_own_hello b xb mb hvb hmb
    have hS : ∀ v, v ∈ SB ↔ Told b v := by
      intro v
      rcases cb with ⟨c4, c⟩ | ⟨c4, rfl⟩
      · rw [c v]
        exact ⟨fun h => ⟨h, .inl ⟨mxb, hhb.1, c4⟩⟩, fun h => h.1⟩
      · rw [List.mem_singleton]
        constructor
        · rintro rfl; exact ⟨hhb.1, .inr hhb.2⟩
        · rintro ⟨h1, ⟨u, h2, h3⟩ | h2⟩
          · have := hhb.2 u h2; omega
          · exact Nat.le_antisymm (hhb.2 v h1) (h2 mxb hhb.1)
    rcases C08_negotiation a ya sa mb SB hva ha5 hya lb tb pb with ⟨v, v1, v2, _, v4⟩ | ⟨nv, e, he, _⟩
    · exact .inl ⟨by rw [v4], v, v2, (hS v).1 v1⟩
    · exact .inr ⟨by rw [he], fun ⟨v, h1, h2⟩ => nv v ((hS v).2 h2) h1⟩
  intro ra rb
  rcases one a b xb ya sa mb hva hvb ha5 hya hmb with ⟨h1, h2⟩ | ⟨h1, h2⟩ <;>
    rcases one b a xa yb sb ma hvb hva hb5 hyb hma with ⟨h3, h4⟩ | ⟨h3, h4⟩ <;> simp only [ra, rb, h1, h2, h3, h4] <;> simp

/-- **C09 is false of the code** in general: `{1.0, 1.3}` against `{1.0, 1.2}` — the second channel's hello only tells its highest
version 3, so the first one fails, while the second one selects version 1 and carries on. -/
theorem C09_refuted :
    ∃ (a b : PyVers) (ma mb : Bytes), Valid a ∧ Valid b ∧ hello a 1 = .ok ma ∧ hello b 2 = .ok mb ∧
      (ofRecv a 3 ⟨none, []⟩ mb).2 = .error .channelClose ∧
      (ofRecv b 4 ⟨none, []⟩ ma).2 = .ok ma ∧ (ofRecv b 4 ⟨none, []⟩ ma).1.version = some 1 :=
  ⟨.seq [.int 1, .int 4], .seq [.int 1, .int 3], _, _, by simp [Valid, verOf], by simp [Valid, verOf], rfl, rfl,
    by decide, by decide, by decide⟩

end Twink
