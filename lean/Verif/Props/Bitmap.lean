import Verif.Model.Bitmap
import Verif.Props.Hello
import Verif.Proof.Of13Messages
import Verif.Proof.Of14Refute

/-! # Property C104: all parts of the package read and write greetings alike -/

namespace Twink.Bitmap
open Twink Spec Fmt

/-! ## Specification -/

/-- The words of a hello element. -/
def words : Of13.HelloElem → List Nat
  | .versionBitmap _ _ (.list ws) => ws
  | _ => []

/-- The versions that the elements of a hello message of version `v` announce, in ascending order: those of the first bitmap, if there is one. -/
def meant (v : Nat) : List Of13.HelloElem → List Nat
  | [] => [v]
  | e :: _ => fromBitmap (words e)

/-! ## Proofs -/

theorem zip_versions (k : Nat) (us : List Nat) :
    ((List.range' k us.length).zip us).flatMap (fun p => ((List.range 32).filter fun s => p.2 &&& (1 <<< s) ≠ 0).map fun s => 32 * p.1 + s) =
      bitmapVersions k us := by
  induction us generalizing k with
  | nil => rfl
  | cons u us ih =>
    rw [List.length_cons, List.range'_succ, List.zip_cons_cons, List.flatMap_cons, ih, bitmapVersions]
    congr 1
    unfold unitVersions
    simp only [Nat.mul_comm]

theorem from_versions (us : List Nat) : fromBitmap us = bitmapVersions 0 us := by
  unfold fromBitmap; rw [List.range_eq_range' (n := us.length)]; exact zip_versions 0 us

theorem versions_sorted (k : Nat) (us : List Nat) : (bitmapVersions k us).Pairwise (· < ·) ∧ ∀ v ∈ bitmapVersions k us, 32 * k ≤ v := by
  induction us generalizing k with
  | nil => exact ⟨.nil, by simp [bitmapVersions]⟩
  | cons u us ih =>
    obtain ⟨h1, h2⟩ := ih (k + 1)
    have hu : ∀ v ∈ unitVersions k u, 32 * k ≤ v ∧ v < 32 * (k + 1) := by
      intro v hv
      have := (mem_unitVersions k u v).1 hv
      omega
    refine ⟨List.pairwise_append.2 ⟨?_, h1, fun a ha b hb => ?_⟩, fun v hv => ?_⟩
    · unfold unitVersions
      refine List.Pairwise.map _ (fun a b h => ?_) (List.Pairwise.filter _ List.pairwise_lt_range)
      omega
    · have := hu a ha; have := h2 b hb; omega
    · rcases List.mem_append.1 hv with h | h
      · exact (hu v h).1
      · have := h2 v h; omega

theorem mem_from (us : List Nat) (v : Nat) : v ∈ fromBitmap us ↔ ∃ w, us[v / 32]? = some w ∧ w.testBit (v % 32) = true := by
  rw [from_versions, mem_bitmapVersions]
  constructor
  · rintro ⟨i, h1, h2, h3⟩
    rw [Nat.zero_add] at h2; subst h2
    refine ⟨us[v / 32], List.getElem?_eq_getElem h1, ?_⟩
    rwa [List.getD_eq_getElem _ _ h1] at h3
  · rintro ⟨w, h1, h2⟩
    obtain ⟨h, e⟩ := List.getElem?_eq_some_iff.1 h1
    refine ⟨v / 32, h, by omega, ?_⟩
    rwa [List.getD_eq_getElem _ _ h, e]

theorem allInts_ints : ∀ {vs : List Val} {l : List Nat}, Of13.allInts vs = some l → ints vs = l
  | [], _, h => by cases h; rfl
  | .int n :: vs, l, h => by
    simp only [Of13.allInts, Option.map_eq_some_iff] at h
    obtain ⟨k, hk, rfl⟩ := h
    rw [ints, allInts_ints hk]
  | .str _ :: _, _, h => by cases h

theorem rd_unpack {f : Fmt} {m : Bytes} {off : Nat} {k : List Val → Option α} {r : α × Nat} (h : Of13.rd f m off k = .ok r) :
    ∃ vs, unpackFrom f m off = .ok vs ∧ k vs = some r.1 ∧ r.2 = off + calcsize f := by
  unfold Of13.rd at h
  split at h
  · cases h
  · rename_i vs hv
    split at h
    · rename_i a ha
      cases h
      exact ⟨vs, hv, ha, rfl⟩
    · cases h

theorem two_unpack {k : Nat → Nat → α} {vs : List Val} {a : α} (h : Of13.two k vs = some a) : ∃ x y, vs = [.int x, .int y] ∧ a = k x y := by
  unfold Of13.two at h
  split at h
  · cases h; exact ⟨_, _, rfl, rfl⟩
  · cases h

theorem four_unpack {k : Nat → Nat → Nat → Nat → α} {vs : List Val} {a : α} (h : Of13.four k vs = some a) :
    ∃ x y z w, vs = [.int x, .int y, .int z, .int w] ∧ a = k x y z w := by
  unfold Of13.four at h
  split at h
  · cases h; exact ⟨_, _, _, _, rfl, rfl⟩
  · cases h

/-- One element. -/
theorem elem_words {m : Bytes} {off o : Nat} {e : Of13.HelloElem} (h : Of13.parseHelloElem m off = .ok (e, o)) :
    ∃ l ws vals, e = .versionBitmap (some 1) (some l) (.list ws) ∧ unpackFrom [H, H] m off = .ok [.int 1, .int l] ∧ 4 ≤ l ∧
      unpackFrom (List.replicate ((l - 4) / 4) I) m (off + 4) = .ok vals ∧ ints vals = ws := by
  simp only [Of13.parseHelloElem, Of13.bind_ok] at h
  obtain ⟨⟨⟨t, l0⟩, o0⟩, _, h⟩ := h
  simp only at h
  split at h
  · simp only [Of13.parseVersionBitmap, Of13.bind_ok, Of13.pyAssert_ok] at h
    obtain ⟨⟨⟨t, l⟩, o1⟩, h1, h⟩ := h
    simp only at h
    obtain ⟨_, rfl, h⟩ := h
    split at h
    · cases h
    · rename_i hl
      simp only [Of13.bind_ok, Of13.ok_inj] at h
      obtain ⟨⟨ws, o2⟩, h2, h⟩ := h
      obtain ⟨vs, u1, u2, u5⟩ := rd_unpack h1
      obtain ⟨x, y, rfl, u6⟩ := two_unpack u2
      simp only [Prod.mk.injEq] at u6 h u5
      obtain ⟨rfl, rfl⟩ := u6
      obtain ⟨vals, u3, u4, _⟩ := rd_unpack h2
      rw [u5] at u3
      exact ⟨l, ws, vals, h.1.symm, u1, by omega, u3, allInts_ints u4⟩
  · cases h

/-- Both parsers on the elements. -/
theorem agree_elems {m : Bytes} {h : Of13.Hdr} {es : List Of13.HelloElem} (hh : parseHeader m = .ok (h.version, 0, h.length, h.xid))
    (hw : Of13.whileFetch (Of13.parseHelloElem m) (0 + h.length) 8 = .ok (es, 0 + h.length)) :
    parseHello m = .ok (meant h.version es) ∧
    ∀ e ∈ es, ∃ l ws, e = .versionBitmap (some 1) (some l) (.list ws) := by
  constructor
  · rw [Nat.zero_add] at hw
    unfold Of13.whileFetch at hw
    simp only [parseHello, hh, Of13.ok_bind, ne_eq, not_true_eq_false, if_false]
    split at hw
    · rename_i hlt
      rw [if_neg (by omega)]
      split at hw
      · cases hw
      · rename_i e o he
        obtain ⟨l, ws, vals, rfl, u1, u2, u3, u4⟩ := elem_words he
        have hes : ∃ r, es = .versionBitmap (some 1) (some l) (.list ws) :: r := by
          split at hw
          · split at hw
            · cases hw
            · rename_i r _ _
              cases hw; exact ⟨r, rfl⟩
          · cases hw
        obtain ⟨r, rfl⟩ := hes
        have hz : ¬ l / 4 = 0 := by omega
        have hk : l / 4 - 1 = (l - 4) / 4 := by omega
        rw [u1]
        simp only [Of13.ok_bind, not_true_eq_false, if_false, hz, hk]
        rw [u3]
        simp only [Of13.ok_bind, u4, meant, words, from_versions]
    · rename_i hge
      injection hw with hw
      obtain ⟨rfl, h8⟩ := Prod.mk.inj hw
      rw [if_pos h8.symm]; rfl
  · have key : ∀ (n lim off : Nat) (es : List Of13.HelloElem) (o : Nat), lim - off ≤ n →
        Of13.whileFetch (Of13.parseHelloElem m) lim off = .ok (es, o) →
        ∀ e ∈ es, ∃ l ws, e = .versionBitmap (some 1) (some l) (.list ws) := by
      intro n
      induction n with
      | zero =>
        intro lim off es o hn hw
        unfold Of13.whileFetch at hw
        rw [if_neg (by omega)] at hw
        cases hw; simp
      | succ n ih =>
        intro lim off es o hn hw
        unfold Of13.whileFetch at hw
        split at hw
        · split at hw
          · cases hw
          · rename_i e o' he
            split at hw
            · rename_i hlt
              split at hw
              · cases hw
              · rename_i r o'' hr
                cases hw
                intro x hx
                rcases List.mem_cons.1 hx with rfl | hx
                · obtain ⟨l, ws, _, rfl, _⟩ := elem_words he
                  exact ⟨l, ws, rfl⟩
                · exact ih lim o' r o (by omega) hr x hx
            · cases hw
        · cases hw; simp
    exact key _ _ _ _ _ (Nat.le_refl _) hw

theorem hdr13 {m : Bytes} {h : Of13.Hdr} {o : Nat} (hp : Of13.parseHdr m 0 = .ok (h, o)) :
    parseHeader m = .ok (h.version, h.type, h.length, h.xid) ∧ h.version = 4 ∧ o = 8 := by
  simp only [Of13.parseHdr, Of13.bind_ok, Of13.pyAssert_ok, Of13.ok_inj, exists_const] at hp
  obtain ⟨r, h1, h2, rfl⟩ := hp
  obtain ⟨vs, u1, u2, u3⟩ := rd_unpack h1
  obtain ⟨x, y, z, w, rfl, u4⟩ := four_unpack u2
  simp only at u4 u3 h2
  subst u4
  exact ⟨by simp [parseHeader, u1, Of13.ok_bind], h2, u3⟩

theorem hdr14 {m : Bytes} {h : Of13.Hdr} {o : Nat} (hp : Of14.parseHdr m 0 = .ok (h, o)) :
    parseHeader m = .ok (h.version, h.type, h.length, h.xid) ∧ h.version = 5 ∧ o = 8 := by
  simp only [Of14.parseHdr, Of13.bind_ok, Of13.pyAssert_ok, Of13.ok_inj, exists_const] at hp
  obtain ⟨r, h1, h2, rfl⟩ := hp
  obtain ⟨vs, u1, u2, u3⟩ := rd_unpack h1
  obtain ⟨x, y, z, w, rfl, u4⟩ := four_unpack u2
  simp only at u4 u3 h2
  subst u4
  exact ⟨by simp [parseHeader, u1, Of13.ok_bind], h2, u3⟩

theorem type_of_header {m : Bytes} {v t l x : Nat} (h : parseHeader m = .ok (v, t, l, x)) : t = u8 m 1 := by
  by_cases hm : 8 ≤ m.length
  · rw [parseHeader_fields m hm] at h
    simp only [Except.ok.injEq, Prod.mk.injEq] at h
    exact h.2.1.symm
  · rw [parseHeader_short m (by omega)] at h; cases h

/-- The bytes of a greeting whose highest version `mx` is between 4 and 31. -/
theorem greeting_bytes {vs : PyVers} {xid mx : Nat} {m : Bytes} (hv : Valid vs) (hmx : Highest vs mx) (h4 : 4 ≤ mx) (h32 : mx < 32)
    (h : hello vs xid = .ok m) : ∃ w, w < 256 ^ 4 ∧ xid < 2 ^ 32 ∧ (∀ v, v ∈ fromBitmap [w] ↔ Accepts vs v) ∧
      m = enc hdrFmt [.int mx, .int 0, .int 16, .int xid] ++ (enc [H, H] [.int 1, .int 8] ++ enc [I] [.int w]) := by
  obtain ⟨r, h1, h2, h3⟩ := helloSet_spec vs hv
  have hr : maxL r = mx := highest_unique (highest_maxL h2 h3) hmx
  obtain ⟨b1, b2⟩ := hello_ok_bounds vs r xid m h1 h
  rw [hello_bitmap_bytes vs r xid h1 (by omega) b2 b1] at h
  injection h with h
  have hl := bitmapUnits_length r
  rw [hr, Nat.div_eq_of_lt h32] at hl
  have hlt := bitmapUnits_lt r
  have hbr := bitmap_roundtrip r
  generalize bitmapUnits r = us at *
  obtain ⟨w, rfl⟩ := List.length_eq_one_iff.1 hl
  refine ⟨w, hlt w (List.mem_singleton_self w), b2, fun v => by rw [from_versions, hbr, h3], ?_⟩
  rw [← h, hr]
  rfl

theorem other_version13 {m : Bytes} (hm : 8 ≤ m.length) (hv : u8 m 0 ≠ 4) : Of13.parse m 0 = .error .assertion := by
  have hh := parseHeader_fields m hm
  unfold parseHeader at hh
  cases hu : unpackFrom hdrFmt m 0 with
  | error e => rw [hu] at hh; cases hh
  | ok vals =>
    rw [hu] at hh
    simp only [Of13.ok_bind] at hh
    split at hh
    · simp only [Except.ok.injEq, Prod.mk.injEq] at hh
      obtain ⟨rfl, _⟩ := hh
      simp [Of13.parse, Of13.parseHdr, Of13.rd, hu, Of13.four, Of13.ok_bind, Of13.pyAssert, hv, bind, Except.bind]
    · cases hh

theorem other_version14 {m : Bytes} (hm : 8 ≤ m.length) (hv : u8 m 0 ≠ 5) : Of14.parse m 0 = .error .assertion := by
  have hh := parseHeader_fields m hm
  unfold parseHeader at hh
  cases hu : unpackFrom hdrFmt m 0 with
  | error e => rw [hu] at hh; cases hh
  | ok vals =>
    rw [hu] at hh
    simp only [Of13.ok_bind] at hh
    split at hh
    · simp only [Except.ok.injEq, Prod.mk.injEq] at hh
      obtain ⟨rfl, _⟩ := hh
      have : Of14.parseHdr m 0 = .error .assertion := by
        simp [Of14.parseHdr, Of13.rd, hu, Of13.four, Of13.ok_bind, Of13.pyAssert, hv, bind, Except.bind]
      unfold Of14.parse Of14.parseAt
      split
      · rename_i e he; rw [this] at he; cases he; rfl
      · rename_i he; rw [this] at he; cases he
    · cases hh

theorem built13 {w xid : Nat} (hw : w < 256 ^ 4) (hx : xid < 2 ^ 32) :
    Of13.buildHello 0 (.tup none none none (some xid)) (.items [.tup (.versionBitmap none none (.list [w]))]) =
      .ok (enc hdrFmt [.int 4, .int 0, .int 16, .int xid] ++ (enc [H, H] [.int 1, .int 8] ++ enc [I] [.int w])) := by
  have f1 : fits [I] [.int w] = true := by simp [fits]; omega
  have f2 : fits hdrFmt [.int 4, .int 0, .int 16, .int xid] = true := by simp [fits, hdrFmt]; omega
  have f3 : fits [H, H] [.int 1, .int 8] = true := rfl
  have l1 : (enc [I] [.int w]).length = 4 := enc_length _ _ f1
  have l3 : (enc [H, H] [.int 1, .int 8]).length = 4 := rfl
  have p1 : pack [I] [.int w] = .ok (enc [I] [.int w]) := by rw [pack, if_pos f1]
  have p2 := pack_eq_ok.2 ⟨f2, rfl⟩
  have p3 := pack_eq_ok.2 ⟨f3, rfl⟩
  simp [Of13.buildHello, Of13.seqBytes, Of13.join, Of13.obj, Of13.buildHelloElem, Of13.pyAssert, Of13.bitmapBytes, Of13.bitmapList, p1, l1,
    Of13.ofp_, Of13.hdrFields, Of13.ofpHeader, Of13.packOpt, p2, p3, l3, bind, Except.bind, Of13.align, Of13.nul]

theorem built14 {w xid : Nat} (hw : w < 256 ^ 4) (hx : xid < 2 ^ 32) :
    Of14.buildHello 0 (.tup none none none (some xid)) (.items [.tup (.versionBitmap none none (.list [w]))]) =
      .ok (enc hdrFmt [.int 5, .int 0, .int 16, .int xid] ++ (enc [H, H] [.int 1, .int 8] ++ enc [I] [.int w])) := by
  have f1 : fits [I] [.int w] = true := by simp [fits]; omega
  have f2 : fits hdrFmt [.int 5, .int 0, .int 16, .int xid] = true := by simp [fits, hdrFmt]; omega
  have f3 : fits [H, H] [.int 1, .int 8] = true := rfl
  have l1 : (enc [I] [.int w]).length = 4 := enc_length _ _ f1
  have l3 : (enc [H, H] [.int 1, .int 8]).length = 4 := rfl
  have p1 : pack [I] [.int w] = .ok (enc [I] [.int w]) := by rw [pack, if_pos f1]
  have p2 := pack_eq_ok.2 ⟨f2, rfl⟩
  have p3 := pack_eq_ok.2 ⟨f3, rfl⟩
  simp [Of14.buildHello, Of13.seqBytes, Of13.join, Of13.obj, Of13.buildHelloElem, Of13.pyAssert, Of13.bitmapBytes, Of13.bitmapList, p1, l1,
    Of14.ofp_, Of14.hdrFields, Of14.ofpHeader, Of13.packOpt, p2, p3, l3, bind, Except.bind, Of13.align, Of13.nul]

theorem len16 (v xid : Nat) {w : Nat} (hw : w < 256 ^ 4) :
    (enc hdrFmt [.int v, .int 0, .int 16, .int xid] ++ (enc [H, H] [.int 1, .int 8] ++ enc [I] [.int w])).length = 16 := by
  have f1 : fits [I] [.int w] = true := by simp [fits]; omega
  have l1 : (enc [I] [.int w]).length = 4 := enc_length _ _ f1
  have l3 : (enc [H, H] [.int 1, .int 8]).length = 4 := rfl
  rw [List.length_append, List.length_append, enc_hdr_length, l1, l3]

theorem at_whole (m : Bytes) : Of13.At m 0 m := ⟨[], [], by simp, rfl⟩

theorem one_bitmap (w : Nat) :
    (Of13.Seq.items [Of13.Elem.tup (Of13.HelloElem.versionBitmap none none (Of13.Ints.list [w]))]).All Of13.HelloElem.Parseable := by
  intro e he
  rw [List.mem_singleton] at he
  exact ⟨_, he, .inr ⟨_, rfl⟩⟩

/-! ## C104 -/

/-- **C104, `from_bitmap`** gives, for any words, the numbers of the bits that are set, each once and in ascending order. -/
theorem C104_from_bitmap (us : List Nat) : (fromBitmap us).Pairwise (· < ·) ∧
    ∀ v, v ∈ fromBitmap us ↔ ∃ w, us[v / 32]? = some w ∧ w.testBit (v % 32) = true :=
  ⟨from_versions us ▸ (versions_sorted 0 us).1, mem_from us⟩

/-- **C104, any peer, 1.3.** Whatever bytes: if `ofp4.parse` accepts a message of type HELLO, the channel reads it too, and takes it to announce
the versions of the first bitmap that `ofp4.parse` finds, or, if it finds none, version 4. -/
theorem C104_agree13 (m : Bytes) (msg : Of13.Msg) (ht : u8 m 1 = 0) (hp : Of13.parse m 0 = .ok msg) :
    ∃ h es, msg = .hello h es ∧ (∀ e ∈ es, ∃ l ws, e = .versionBitmap (some 1) (some l) (.list ws)) ∧
      parseHello m = .ok (meant 4 es) := by
  simp only [Of13.parse, Of13.bind_ok] at hp
  obtain ⟨⟨h, o⟩, h1, hp⟩ := hp
  obtain ⟨e1, e2, rfl⟩ := hdr13 h1
  have h0 : h.type = 0 := by rw [type_of_header e1, ht]
  simp only [h0, Of13.parseOf, if_true, Of13.parseHello, Of13.bind_ok, h1, Of13.ok_inj, Of13.pyAssert_ok] at hp
  obtain ⟨_, rfl, ⟨es, o⟩, hw, hp⟩ := hp
  simp only at hw hp
  obtain ⟨_, rfl, rfl⟩ := hp
  rw [h0] at e1
  obtain ⟨a, b⟩ := agree_elems e1 hw
  exact ⟨h, es, rfl, b, by rw [a, e2]⟩

/-- **C104, any peer, 1.4.** -/
theorem C104_agree14 (m : Bytes) (msg : Of14.Msg) (ht : u8 m 1 = 0) (hp : Of14.parse m 0 = .ok msg) :
    ∃ h es, msg = .hello h es ∧ (∀ e ∈ es, ∃ l ws, e = .versionBitmap (some 1) (some l) (.list ws)) ∧
      parseHello m = .ok (meant 5 es) := by
  simp only [Of14.parse, Of13.bind_ok, Of13.ok_inj] at hp
  obtain ⟨⟨r, ro⟩, hp, rfl⟩ := hp
  unfold Of14.parseAt at hp
  split at hp
  · cases hp
  · rename_i h o h1
    obtain ⟨e1, e2, rfl⟩ := hdr14 h1
    have h0 : h.type = 0 := by rw [type_of_header e1, ht]
    simp only [h0, Nat.reduceEqDiff, if_false, Of14.parseOf, if_true, Of14.parseHello, Of13.bind_ok, h1, Of13.ok_inj, Of13.pyAssert_ok] at hp
    obtain ⟨_, rfl, ⟨es, o⟩, hw, hp⟩ := hp
    simp only at hw hp
    obtain ⟨_, rfl, hp⟩ := hp
    rw [h0] at e1
    obtain ⟨a, b⟩ := agree_elems e1 hw
    cases hp
    exact ⟨h, es, rfl, b, by rw [a, e2]⟩

/-- **C104, own greetings, 1.3.** The greeting of a channel whose highest version is 4 is what `ofp4.build.ofp_hello` builds from a bitmap, and
`ofp4.parse` gives back that bitmap, of which `from_bitmap` makes exactly the accepted versions. -/
theorem C104_greeting13 (vs : PyVers) (xid : Nat) (m : Bytes) (hv : Valid vs) (hmx : Highest vs 4) (h : hello vs xid = .ok m) :
    ∃ w, (∀ v, v ∈ fromBitmap [w] ↔ Accepts vs v) ∧
      Of13.buildHello 0 (.tup none none none (some xid)) (.items [.tup (.versionBitmap none none (.list [w]))]) = .ok m ∧
      Of13.parse m 0 = .ok (.hello ⟨4, 0, 16, xid⟩ [.versionBitmap (some 1) (some 8) (.list [w])]) := by
  obtain ⟨w, hw, hx, ha, rfl⟩ := greeting_bytes hv hmx (by decide) (by decide) h
  have hb := built13 hw hx
  have hp := Of13.hello_at hb (one_bitmap _) (at_whole _)
  rw [len16 4 xid hw] at hp
  exact ⟨w, ha, hb, hp⟩

/-- **C104, own greetings, 1.4.** -/
theorem C104_greeting14 (vs : PyVers) (xid : Nat) (m : Bytes) (hv : Valid vs) (hmx : Highest vs 5) (h : hello vs xid = .ok m) :
    ∃ w, (∀ v, v ∈ fromBitmap [w] ↔ Accepts vs v) ∧
      Of14.buildHello 0 (.tup none none none (some xid)) (.items [.tup (.versionBitmap none none (.list [w]))]) = .ok m ∧
      Of14.parse m 0 = .ok (.hello ⟨5, 0, 16, xid⟩ [.versionBitmap (some 1) (some 8) (.list [w])]) := by
  obtain ⟨w, hw, hx, ha, rfl⟩ := greeting_bytes hv hmx (by decide) (by decide) h
  have hb := built14 hw hx
  have hp := Of14.parse_of ((Of14.hello_ok hb (one_bitmap _)).1 _ _ (at_whole _))
  simp [Of13.HelloElem.size, Of13.Ints.values, Of13.Seq.values, Of13.HdrArg.xid, Of13.HelloElem.wire] at hp
  exact ⟨w, ha, hb, hp⟩

/-- **C104, other greetings.** The greeting of a channel with another highest version is refused with AssertionError by both parsers. -/
theorem C104_other (vs : PyVers) (xid mx : Nat) (m : Bytes) (hv : Valid vs) (hmx : Highest vs mx) (h : hello vs xid = .ok m) :
    (mx ≠ 4 → Of13.parse m 0 = .error .assertion) ∧ (mx ≠ 5 → Of14.parse m 0 = .error .assertion) := by
  obtain ⟨⟨h8, _⟩, h0, _⟩ := C07_hello_well_formed vs xid mx m hv hmx h
  exact ⟨fun hn => other_version13 h8 (by rw [h0]; exact hn), fun hn => other_version14 h8 (by rw [h0]; exact hn)⟩

/-- **C104, built greetings, 1.3.** What `ofp4.build.ofp_hello` builds, of any elements that can be read at all, a channel takes to announce
what `from_bitmap` makes of the first of them. -/
theorem C104_built13 (rnd : Nat) (h : Of13.HdrArg) (es : Of13.Seq Of13.HelloElem) (m : Bytes) (hb : Of13.buildHello rnd h es = .ok m)
    (he : es.All Of13.HelloElem.Parseable) : parseHello m = .ok (meant 4 (es.values.map Of13.HelloElem.wire)) := by
  have hp := Of13.hello_at hb he (at_whole m)
  simp only [Of13.buildHello, Of13.bind_ok] at hb
  obtain ⟨kb, _, hb⟩ := hb
  have ht := type_of_header (hdr13 (Of13.built_one hb (at_whole m)).hdr).1
  obtain ⟨_, _, e, _, a⟩ := C104_agree13 m _ ht.symm hp
  cases e
  exact a

/-- **C104, built greetings, 1.4.** -/
theorem C104_built14 (rnd : Nat) (h : Of13.HdrArg) (es : Of13.Seq Of13.HelloElem) (m : Bytes) (hb : Of14.buildHello rnd h es = .ok m)
    (he : es.All Of13.HelloElem.Parseable) : parseHello m = .ok (meant 5 (es.values.map Of13.HelloElem.wire)) := by
  have hp := Of14.parse_of ((Of14.hello_ok hb he).1 _ _ (at_whole m))
  simp only [Of14.buildHello, Of13.bind_ok] at hb
  obtain ⟨kb, _, hb⟩ := hb
  have ht := type_of_header (hdr14 ((Of14.made_one hb).hdr (at_whole m))).1
  obtain ⟨_, _, e, _, a⟩ := C104_agree14 m _ ht.symm hp
  cases e
  exact a

/-- Non-vacuity. -/
example : ∃ m, hello (.seq [.int 1, .float (some 3)]) 7 = .ok m ∧ Valid (.seq [.int 1, .float (some 3)]) ∧ Highest (.seq [.int 1, .float (some 3)]) 4 ∧
    (Of13.parse m 0).toOption ≠ none ∧ u8 m 1 = 0 := by
  refine ⟨_, rfl, by simp [Valid, verOf], ⟨⟨.float (some 3), by simp, rfl⟩, ?_⟩, by decide +kernel, by decide +kernel⟩
  rintro v ⟨x, hx, hv⟩
  simp at hx
  rcases hx with rfl | rfl <;> simp [verOf] at hv <;> omega

/-- Non-vacuity: a message with two bitmaps, of which the first counts. -/
example : Of13.parse [4, 0, 0, 24, 0, 0, 0, 7, 0, 1, 0, 8, 0, 0, 0, 18, 0, 1, 0, 8, 0, 0, 0, 4] 0 =
      .ok (.hello ⟨4, 0, 24, 7⟩ [.versionBitmap (some 1) (some 8) (.list [18]), .versionBitmap (some 1) (some 8) (.list [4])]) ∧
    parseHello [4, 0, 0, 24, 0, 0, 0, 7, 0, 1, 0, 8, 0, 0, 0, 18, 0, 1, 0, 8, 0, 0, 0, 4] = .ok [1, 4] := by decide +kernel

/-- The other way about it does not hold: the channel looks at nothing behind the first element, where `ofp4.parse` refuses an element of a
type that OpenFlow does not define with ValueError. -/
example : parseHello [4, 0, 0, 24, 0, 0, 0, 7, 0, 1, 0, 8, 0, 0, 0, 18, 0, 2, 0, 8, 0, 0, 0, 4] = .ok [1, 4] ∧
    Of13.parse [4, 0, 0, 24, 0, 0, 0, 7, 0, 1, 0, 8, 0, 0, 0, 18, 0, 2, 0, 8, 0, 0, 0, 4] 0 = .error .valueError := by decide +kernel

end Twink.Bitmap
