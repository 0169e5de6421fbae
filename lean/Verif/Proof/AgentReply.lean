import Verif.Proof.AgentParse
import Verif.Props.Agent

/-!
# Lemmas about the replies of the software switch
-/

namespace Twink.Agent
open Of13 Spec Fmt

/-- The header prepared for a reply can be made whenever type and id fit. -/
theorem replyHdr_make {rnd t x : Nat} (ht : t < 256) (hx : x < 2 ^ 32) : replyHdr rnd t x = .ok (.raw (ofHeader 4 t 0 x)) := by
  have hf : fits hdrFmt [.int 4, .int t, .int 0, .int x] = true := by simp [fits, hdrFmt, ht]; omega
  have he : enc hdrFmt [.int 4, .int t, .int 0, .int x] = ofHeader 4 t 0 x := by
    simp [ofHeader, hdrFmt, enc, encBE_1, encBE_2, encBE_4]
  unfold replyHdr ofpHeader
  simp [packOpt, pack, hf, he, pyAssert, bind, Except.bind]

theorem replyHdr_ok {rnd t x : Nat} {h : HdrArg} (hh : replyHdr rnd t x = .ok h) :
    t < 256 ∧ x < 2 ^ 32 ∧ h = .raw (ofHeader 4 t 0 x) := by
  simp only [replyHdr, bind_ok, ok_inj] at hh
  obtain ⟨b, h1, rfl⟩ := hh
  obtain ⟨h2, h3, rfl⟩ := ofpHeader_bytes h1
  exact ⟨h2, h3, rfl⟩

theorem ofHeader_fields {t l x : Nat} (ht : t < 256) (hl : l < 65536) (hx : x < 2 ^ 32) (rest : Bytes) :
    u8 (ofHeader 4 t l x ++ rest) 0 = 4 ∧ u8 (ofHeader 4 t l x ++ rest) 1 = t ∧ u16 (ofHeader 4 t l x ++ rest) 2 = l ∧
      u32 (ofHeader 4 t l x ++ rest) 4 = x := by
  have hf : fits hdrFmt [.int 4, .int t, .int l, .int x] = true := by simp [fits, hdrFmt, ht]; omega
  have he : enc hdrFmt [.int 4, .int t, .int l, .int x] = ofHeader 4 t l x := by
    simp [ofHeader, hdrFmt, enc, encBE_1, encBE_2, encBE_4]
  have hd := unpackFrom_enc' hdrFmt _ [] rest 0 rfl hf (by simp [exact, hdrFmt])
  have hp := parseHeader_fields (ofHeader 4 t l x ++ rest) (by simp)
  rw [List.nil_append, he] at hd
  rw [parseHeader, hd, ok_bind] at hp
  simp only [ok_inj, Prod.mk.injEq] at hp
  obtain ⟨h1, h2, h3, h4⟩ := hp
  exact ⟨h1.symm, h2.symm, h3.symm, h4.symm⟩

/-- A reply carries the id given to `replyHdr`, and its type. -/
theorem reply_fields {rnd t x : Nat} {h : HdrArg} {c : Call} {r : Bytes} (hh : replyHdr rnd t x = .ok h) (hr : c.run rnd h = .ok r) :
    8 ≤ r.length ∧ u8 r 0 = 4 ∧ u8 r 1 = t ∧ u16 r 2 = r.length ∧ u32 r 4 = x := by
  obtain ⟨ht, hx, rfl⟩ := replyHdr_ok hh
  obtain ⟨h0, _, h1, _, _, _, h2, h3, h4⟩ := C38_header rnd _ c r hr
  have := ofHeader_fields ht (by omega : 0 < 65536) hx []
  rw [List.append_nil] at this
  refine ⟨h0, h1, ?_, h3, ?_⟩
  · rw [← h2]; exact this.2.1
  · rw [h4]; exact this.2.2.2

theorem mpReply_type {rnd : Nat} {h : HdrArg} {type fl : Nat} {b : Body} {r : Bytes} (hr : buildMpReply rnd h type fl b = .ok r) :
    u16 r 8 = type := by
  simp only [buildMpReply, bind_ok, pack_eq_ok] at hr
  obtain ⟨bb, _, d, ⟨hf, rfl⟩, hr⟩ := hr
  obtain ⟨_, rfl⟩ := ofp_one hr
  have ht : type < 65536 := by simp [fits] at hf; omega
  have hl := hdr_length 4 19 (8 + (enc [H, H, X 4] [.int type, .int fl] ++ bb).length) (h.xid rnd)
  have := u16_eq_decBE (enc hdrFmt [.int 4, .int 19, .int (8 + (enc [H, H, X 4] [.int type, .int fl] ++ bb).length), .int (h.xid rnd)])
    (encBE 2 fl ++ (List.replicate 4 0 ++ bb)) 8 hl.symm type ht
  simpa [enc] using this

theorem mpRequest_type {m : Bytes} {hd : Hdr} {type fl : Nat} {b : Body} (h : parse m 0 = .ok (.mpRequest hd type fl b))
    (ht : hd.type = 18) : type = u16 m 8 ∧ fl = u16 m 10 ∧ 16 ≤ m.length := by
  obtain ⟨_, _, h2, h⟩ := parse_hdr h
  have h2 : hd = ⟨u8 m 0, u8 m 1, u16 m 2, u32 m 4⟩ := h2
  rw [h2] at ht
  have ht : u8 m 1 = 18 := ht
  rw [ht] at h
  have : parseOf 18 m 0 = parseMpRequest m 0 := rfl
  rw [this] at h
  unfold parseMpRequest at h
  simp only [bind_ok, Prod.exists, ok_inj, Msg.mpRequest.injEq] at h
  obtain ⟨hd', o, h3, type', fl', o', h4, _, _, _, rfl, rfl, _⟩ := h
  unfold parseHdr at h3
  simp only [bind_ok, ok_inj] at h3
  obtain ⟨r, h5, _, _, rfl⟩ := h3
  have e := (rd_ok h5).1
  simp only [] at e
  subst e
  obtain ⟨_, hl, h6⟩ := rd_ok h4
  simp only [calcsize, hdrFmt, Item.width, List.map_cons, List.map_nil, List.sum_cons, List.sum_nil] at hl h6
  rw [dec_HH _ _ _ (by omega)] at h6
  obtain ⟨x, y, e, e2⟩ := two_some h6
  simp [dec] at e
  simp only [Prod.mk.injEq] at e2
  omega

theorem unpack_ofHeader {t l x : Nat} (ht : t < 256) (hl : l < 65536) (hx : x < 2 ^ 32) (rest : Bytes) :
    unpackFrom hdrFmt (ofHeader 4 t l x ++ rest) 0 = .ok [.int 4, .int t, .int l, .int x] := by
  have hf : fits hdrFmt [.int 4, .int t, .int l, .int x] = true := by simp [fits, hdrFmt, ht]; omega
  have he : enc hdrFmt [.int 4, .int t, .int l, .int x] = ofHeader 4 t l x := by
    simp [ofHeader, hdrFmt, enc, encBE_1, encBE_2, encBE_4]
  have hd := unpackFrom_enc' hdrFmt _ [] rest 0 rfl hf (by simp [exact, hdrFmt])
  rw [List.nil_append, he] at hd
  exact hd

/-- `ofp_` with the header of `replyHdr` makes the message. -/
theorem ofp_make {rnd t x : Nat} (data : Bytes) (ty : TypeArg) (ht : t < 256) (hx : x < 2 ^ 32) (hl : 8 + data.length < 65536)
    (hty : ty = .one t ∨ ∃ ts, ty = .among ts ∧ t ∈ ts) :
    ofp_ rnd (.raw (ofHeader 4 t 0 x)) data ty = .ok (ofHeader 4 t (8 + data.length) x ++ data) := by
  have h1 := unpack_ofHeader ht (by omega : 0 < 65536) hx []
  rw [List.append_nil] at h1
  have hf : fits hdrFmt [.int 4, .int t, .int (8 + data.length), .int x] = true := by simp [fits, hdrFmt, ht]; omega
  have he : enc hdrFmt [.int 4, .int t, .int (8 + data.length), .int x] = ofHeader 4 t (8 + data.length) x := by
    simp [ofHeader, hdrFmt, enc, encBE_1, encBE_2, encBE_4]
  have h2 : ofpHeader rnd (some 4) (some t) (some (8 + data.length)) (some x) = .ok (ofHeader 4 t (8 + data.length) x) := by
    unfold ofpHeader
    simp [packOpt, pack, hf, he, pyAssert, bind, Except.bind]
  have h3 : hdrFields rnd (.raw (ofHeader 4 t 0 x)) ty = .ok (some 4, some t, some x) := by
    unfold hdrFields
    simp only [h1, ok_bind]
    rcases hty with rfl | ⟨ts, rfl, hm⟩
    · simp [pyAssert, bind, Except.bind]
    · simp [pyAssert, hm, bind, Except.bind]
  unfold ofp_
  rw [h3, ok_bind]
  simp only [h2, ok_bind]

theorem rd_make {f : Fmt} {m : Bytes} {off : Nat} {k : List Val → Option α} {a : α} (hl : off + calcsize f ≤ m.length)
    (hk : k (dec f (m.drop off)) = some a) : rd f m off k = .ok (a, off + calcsize f) := by
  unfold rd unpackFrom
  rw [if_pos hl]
  simp only [hk]

theorem parseHdr_make {m : Bytes} (h8 : 8 ≤ m.length) (hv : u8 m 0 = 4) :
    parseHdr m 0 = .ok (⟨4, u8 m 1, u16 m 2, u32 m 4⟩, 8) := by
  have hp := parseHeader_fields m h8
  have hu : unpackFrom hdrFmt m 0 = .ok (dec hdrFmt m) := by
    unfold unpackFrom
    rw [if_pos (by simp [calcsize, hdrFmt, Item.width]; omega), List.drop_zero]
  rw [parseHeader, hu, ok_bind] at hp
  have hd : dec hdrFmt m = [.int 4, .int (u8 m 1), .int (u16 m 2), .int (u32 m 4)] := by
    split at hp
    · rename_i h
      simp only [ok_inj, Prod.mk.injEq] at hp
      rw [h]
      obtain ⟨rfl, rfl, rfl, rfl⟩ := hp
      rw [hv]
    · cases hp
  have hr : rd hdrFmt m 0 (four Hdr.mk) = .ok (⟨4, u8 m 1, u16 m 2, u32 m 4⟩, 8) := by
    have := rd_make (f := hdrFmt) (m := m) (off := 0) (k := four Hdr.mk) (a := ⟨4, u8 m 1, u16 m 2, u32 m 4⟩)
      (by simp [calcsize, hdrFmt, Item.width]; omega) (by rw [List.drop_zero, hd]; rfl)
    rw [this]; rfl
  unfold parseHdr
  rw [hr, ok_bind]
  rfl

end Twink.Agent
