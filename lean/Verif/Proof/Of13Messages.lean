import Verif.Proof.Of13Records
import Verif.Spec.Wire

/-! Whole messages of the OpenFlow 1.3 codec. -/

namespace Twink.Of13
open Fmt Spec

/-- What is known about a built message that stands at offset `n`. -/
structure Built (m : Bytes) (n : Nat) (bs : Bytes) (t x : Nat) (data : Bytes) : Prop where
  parse : parse m n = parseOf t m n
  hdr : parseHdr m n = .ok (⟨4, t, bs.length, x⟩, n + 8)
  body : At m (n + 8) data
  len : bs.length = 8 + data.length

theorem built_of {m n t x data bs} (hf : fits hdrFmt [.int 4, .int t, .int (8 + data.length), .int x] = true)
    (hb : bs = enc hdrFmt [.int 4, .int t, .int (8 + data.length), .int x] ++ data) (hm : At m n bs) :
    Built m n bs t x data := by
  have hl : bs.length = 8 + data.length := by rw [hb, List.length_append, hdr_length]
  rw [hb] at hm
  exact ⟨parse_at hm hf, by rw [hl]; exact parseHdr_at hm hf, data_at hm, hl⟩

theorem built_one {rnd h data ty bs m n} (hb : ofp_ rnd h data (.one ty) = .ok bs) (hm : At m n bs) :
    Built m n bs ty (h.xid rnd) data :=
  built_of (ofp_one hb).1 (ofp_one hb).2 hm

theorem built_among {rnd h data ts bs m n} (hb : ofp_ rnd h data (.among ts) = .ok bs) (hm : At m n bs) (d : Nat) :
    h.type d ∈ ts ∧ Built m n bs (h.type d) (h.xid rnd) data :=
  ⟨(ofp_among hb d).1, built_of (ofp_among hb d).2.1 (ofp_among hb d).2.2 hm⟩

/-- A message that consists of the header and one record. -/
theorem fixed_msg {m n bs t x f vs} (hb : Built m n bs t x (enc f vs)) (hf : fits f vs = true) (he : exact f vs)
    {k : Hdr → List Val → Option Msg} {r : Msg}
    (hp : parseOf t m n = (do let (h, o) ← parseHdr m n; let (r, _) ← rd f m o (k h); .ok r))
    (hk : k ⟨4, t, bs.length, x⟩ vs = some r) : parse m n = .ok r := by
  rw [hb.parse, hp, hb.hdr, ok_bind]
  exact rd_bind hb.body hf he hk

theorem features_at {rnd h d nb nt aux caps bs m n} (hb : buildFeatures rnd h d nb nt aux caps = .ok bs) (hm : At m n bs) :
    parse m n = .ok (.features ⟨4, 6, bs.length, h.xid rnd⟩ d nb nt aux caps) := by
  simp only [buildFeatures, bind_ok, pyAssert_ok, pack_eq_ok, ok_inj, exists_const] at hb
  obtain ⟨_, ⟨hf, rfl⟩, _, hb, _, rfl⟩ := hb
  exact fixed_msg (built_one hb hm) hf (by simp [exact]) (k := fun h => fun
    | [.int d, .int nb, .int nt, .int aux, .int caps, .int _] => some (Msg.features h d nb nt aux caps)
    | _ => none) rfl rfl

theorem config_at {rnd h fl ms bs m n} (hb : buildConfig rnd h fl ms = .ok bs) (hm : At m n bs) :
    (h.type 0 = 9 ∨ h.type 0 = 8) ∧
    parse m n = .ok (.config ⟨4, h.type 0, bs.length, h.xid rnd⟩ fl (ms.getD 0xffff)) := by
  simp only [buildConfig, bind_ok, pyAssert_ok, pack_eq_ok, ok_inj, exists_const] at hb
  obtain ⟨_, ⟨hf, rfl⟩, _, hb, _, rfl⟩ := hb
  obtain ⟨ht, hb⟩ := built_among hb hm 0
  have ht : h.type 0 = 9 ∨ h.type 0 = 8 := by simpa using ht
  refine ⟨ht, fixed_msg hb hf (by simp [exact]) (k := fun h => two (Msg.config h)) ?_ rfl⟩
  rcases ht with ht | ht <;> rw [ht] <;> rfl

theorem tableMod_at {rnd h a b bs m n} (hb : buildTableMod rnd h a b = .ok bs) (hm : At m n bs) :
    parse m n = .ok (.tableMod ⟨4, 17, bs.length, h.xid rnd⟩ a b) := by
  simp only [buildTableMod, bind_ok, pyAssert_ok, pack_eq_ok, ok_inj, exists_const] at hb
  obtain ⟨_, ⟨hf, rfl⟩, _, hb, _, rfl⟩ := hb
  exact fixed_msg (built_one hb hm) hf (by simp [exact]) (k := fun h => two (Msg.tableMod h)) rfl rfl

theorem queueReq_at {rnd h p bs m n} (hb : buildQueueReq rnd h p = .ok bs) (hm : At m n bs) :
    parse m n = .ok (.queueReq ⟨4, 22, bs.length, h.xid rnd⟩ p) := by
  simp only [buildQueueReq, bind_ok, pack_eq_ok] at hb
  obtain ⟨_, ⟨hf, rfl⟩, hb⟩ := hb
  exact fixed_msg (built_one hb hm) hf (by simp [exact]) (k := fun h => fun | [.int p] => some (Msg.queueReq h p) | _ => none) rfl rfl

theorem role_at {rnd h r g bs m n} (hb : buildRole rnd h r g = .ok bs) (hm : At m n bs) (ht : h.type 0 = 24) :
    parse m n = .ok (.role ⟨4, 24, bs.length, h.xid rnd⟩ r g) := by
  simp only [buildRole, bind_ok, pack_eq_ok] at hb
  obtain ⟨_, ⟨hf, rfl⟩, hb⟩ := hb
  have hb := (built_among hb hm 0).2
  rw [ht] at hb
  exact fixed_msg hb hf (by simp [exact]) (k := fun h => two (Msg.role h)) rfl rfl

theorem roleReply_at {rnd h r g bs m n} (hb : buildRole rnd h r g = .ok bs) (hm : At m n bs) (ht : h.type 0 = 25) :
    parse m n = .ok (.other ⟨4, 25, bs.length, h.xid rnd⟩ (be32 r ++ zeros 4 ++ be64 g)) := by
  simp only [buildRole, bind_ok, pack_eq_ok] at hb
  obtain ⟨_, ⟨hf, rfl⟩, hb⟩ := hb
  have hb := (built_among hb hm 0).2
  rw [ht] at hb
  rw [hb.parse]
  show parseOther m n = _
  rw [parseOther, hb.hdr, ok_bind]
  simp only
  rw [hb.body.slice _ (by rw [hb.len]; omega)]
  simp [enc, encBE_4, encBE_8, zeros]

theorem async_at {rnd h a b c bs m n} (hb : buildAsync rnd h a b c = .ok bs) (hm : At m n bs) (ha : a.length = 2)
    (hb2 : b.length = 2) (hc2 : c.length = 2) :
    (h.type 0 = 27 ∨ h.type 0 = 28) ∧
    ∃ a1 a2 b1 b2 c1 c2, a = [a1, a2] ∧ b = [b1, b2] ∧ c = [c1, c2] ∧
      parse m n = .ok (.async ⟨4, h.type 0, bs.length, h.xid rnd⟩ (a1, a2) (b1, b2) (c1, c2)) := by
  match a, b, c, ha, hb2, hc2 with
  | [a1, a2], [b1, b2], [c1, c2], _, _, _ =>
    simp only [buildAsync, bind_ok, pack_eq_ok] at hb
    obtain ⟨_, ⟨hf, rfl⟩, hb⟩ := hb
    obtain ⟨ht, hb⟩ := built_among hb hm 0
    have ht : h.type 0 = 27 ∨ h.type 0 = 28 := by simpa using ht
    refine ⟨ht, a1, a2, b1, b2, c1, c2, rfl, rfl, rfl, ?_⟩
    refine fixed_msg hb hf (by simp [exact]) (k := fun h => fun
      | [.int a, .int b, .int c, .int d, .int e, .int f] => some (Msg.async h (a, b) (c, d) (e, f))
      | _ => none) ?_ rfl
    rcases ht with ht | ht <;> rw [ht] <;> rfl

theorem error_at {rnd h t c d bs m n} (hb : buildError rnd h t c d = .ok bs) (hm : At m n bs) :
    parse m n = .ok (.error ⟨4, 1, bs.length, h.xid rnd⟩ t c (d.getD [])) := by
  simp only [buildError, bind_ok, pack_eq_ok] at hb
  obtain ⟨_, ⟨hf, rfl⟩, hb⟩ := hb
  have hb := built_one hb hm
  rw [hb.parse]
  show parseError m n = _
  rw [parseError, hb.hdr, ok_bind]
  refine (rd_bind hb.body.left hf (by simp [exact]) (by rfl)).trans ?_
  have hl := enc_length _ _ hf
  have hc : calcsize [H, H] = 4 := rfl
  have := hb.len
  rw [List.length_append] at this
  simp only [hc]
  rw [(hb.body.right (n + 8 + 4) (by omega)).slice _ (by omega)]

theorem portStatus_at {rnd h r p bs m n} (hb : buildPortStatus rnd h r (.tup p) = .ok bs) (hm : At m n bs) :
    parse m n = .ok (.portStatus ⟨4, 12, bs.length, h.xid rnd⟩ r p.wire) := by
  simp only [buildPortStatus, bind_ok, pack_eq_ok, obj] at hb
  obtain ⟨_, ⟨hf, rfl⟩, pb, hpb, hb⟩ := hb
  have hb := built_one hb hm
  rw [hb.parse]
  show parsePortStatus m n = _
  rw [parsePortStatus, hb.hdr, ok_bind]
  refine (rd_bind hb.body.left hf (by simp [exact]) (by rfl)).trans ?_
  have hl := enc_length _ _ hf
  simp only
  rw [(rt_port p pb hpb).1.at (hb.body.right _ (by rw [hl])), ok_bind]

theorem flowMod_at {rnd h c cm t cmd i hd p b op og f mt is bs m n}
    (hb : buildFlowMod rnd h c cm t cmd i hd p b op og f (.tup mt) is = .ok bs) (his : is.All Instr.Parseable) (hm : At m n bs) :
    parse m n = .ok (.flowMod ⟨4, 14, bs.length, h.xid rnd⟩ c cm t cmd i hd p (b.getD 0xffffffff) (op.getD 0xffffffff)
      (og.getD 0xffffffff) f (mt.wire mt.fields) (is.values.map Instr.wire)) := by
  simp only [buildFlowMod, bind_ok, pack_eq_ok, obj] at hb
  obtain ⟨ib, hib, _, ⟨hf, rfl⟩, mb, hmb, hb⟩ := hb
  have hb := built_one hb hm
  obtain ⟨hmrt, hml⟩ := rt_match hmb
  obtain ⟨hparts, hil⟩ := seq_instrs his hib
  rw [hb.parse]
  show parseFlowMod m n = _
  rw [parseFlowMod, hb.hdr, ok_bind]
  refine (rd_bind hb.body.left.left hf (by simp [exact, flowModFmt]) (by rfl)).trans ?_
  have hl := enc_length _ _ hf
  have := hb.len
  simp only [List.length_append] at this
  simp only
  rw [hmrt.at (hb.body.left.right _ (by rw [hl])), ok_bind]
  simp only
  rw [listFetch_at hparts (hb.body.right _ (by simp only [List.length_append]; omega)) _ (by omega), ok_bind]

theorem groupMod_at {rnd h c t g bk bs m n} (hb : buildGroupMod rnd h c t g bk = .ok bs) (hbk : bk.All Bucket.Parseable) (hm : At m n bs) :
    parse m n = .ok (.groupMod ⟨4, 15, bs.length, h.xid rnd⟩ c t g (bk.values.map Bucket.wire)) := by
  simp only [buildGroupMod, bind_ok, pack_eq_ok] at hb
  obtain ⟨kb, hkb, _, ⟨hf, rfl⟩, hb⟩ := hb
  have hb := built_one hb hm
  obtain ⟨hparts, hil⟩ := seq_buckets hbk hkb
  rw [hb.parse]
  show parseGroupMod m n = _
  rw [parseGroupMod, hb.hdr, ok_bind]
  refine (rd_bind hb.body.left hf (by simp [exact]) (by rfl)).trans ?_
  have hl := enc_length _ _ hf
  have := hb.len
  simp only [List.length_append] at this
  simp only
  rw [whileFetch_at hparts (hb.body.right _ (by rw [hl])) _ (by omega), ok_bind]

theorem meterMod_at {rnd h c f mt bd bs m n} (hb : buildMeterMod rnd h c f mt bd = .ok bs) (hbk : bd.All Band.Parseable) (hm : At m n bs) :
    parse m n = .ok (.meterMod ⟨4, 29, bs.length, h.xid rnd⟩ c f mt (bd.values.map Band.wire)) := by
  simp only [buildMeterMod, bind_ok, pack_eq_ok] at hb
  obtain ⟨kb, hkb, _, ⟨hf, rfl⟩, hb⟩ := hb
  have hb := built_one hb hm
  obtain ⟨hparts, hil⟩ := seq_bands hbk hkb
  rw [hb.parse]
  show parseMeterMod m n = _
  rw [parseMeterMod, hb.hdr, ok_bind]
  refine (rd_bind hb.body.left hf (by simp [exact]) (by rfl)).trans ?_
  have hl := enc_length _ _ hf
  have := hb.len
  simp only [List.length_append] at this
  simp only
  rw [whileFetch_at hparts (hb.body.right _ (by rw [hl])) _ (by omega), ok_bind]

theorem queueRep_at {rnd h p qs bs m n} (hb : buildQueueRep rnd h p qs = .ok bs) (hq : qs.All Queue.Parseable) (hm : At m n bs) :
    parse m n = .ok (.queueRep ⟨4, 23, bs.length, h.xid rnd⟩ p (qs.values.map Queue.wire)) := by
  simp only [buildQueueRep, bind_ok, pack_eq_ok] at hb
  obtain ⟨kb, hkb, _, ⟨hf, rfl⟩, hb⟩ := hb
  have hb := built_one hb hm
  obtain ⟨hparts, hil⟩ := seq_queues hq hkb
  rw [hb.parse]
  show parseQueueRep m n = _
  rw [parseQueueRep, hb.hdr, ok_bind]
  refine (rd_bind hb.body.left hf (by simp [exact]) (by rfl)).trans ?_
  have hl := enc_length _ _ hf
  have := hb.len
  simp only [List.length_append] at this
  simp only
  rw [listFetch_at hparts (hb.body.right _ (by rw [hl])) _ (by omega), ok_bind]

theorem hello_at {rnd h es bs m n} (hb : buildHello rnd h es = .ok bs) (he : es.All HelloElem.Parseable) (hm : At m n bs) :
    parse m n = .ok (.hello ⟨4, 0, bs.length, h.xid rnd⟩ (es.values.map HelloElem.wire)) := by
  simp only [buildHello, bind_ok] at hb
  obtain ⟨kb, hkb, hb⟩ := hb
  have hb := built_one hb hm
  obtain ⟨hparts, hil⟩ := seq_hello he hkb
  rw [hb.parse]
  show parseHello m n = _
  rw [parseHello, hb.hdr, ok_bind]
  have := hb.len
  simp only
  rw [whileFetch_at hparts hb.body _ (by omega), ok_bind]
  simp only [pyAssert_true, ok_bind]

theorem packetOut_at {rnd h b ip as d bs m n} (hb : buildPacketOut rnd h b ip as d = .ok bs) (ha : as.All Action.Parseable) (hm : At m n bs) :
    parse m n = .ok (.packetOut ⟨4, 13, bs.length, h.xid rnd⟩ (b.getD 0xffffffff) ip (actionsSize as) (as.values.map Action.wire) (d.getD [])) := by
  simp only [buildPacketOut, bind_ok, pack_eq_ok] at hb
  obtain ⟨ab, hab, _, ⟨hf, rfl⟩, hb⟩ := hb
  have hb := built_one hb hm
  obtain ⟨hparts, hil⟩ := seq_actions ha hab
  rw [hb.parse]
  show parsePacketOut m n = _
  rw [parsePacketOut, hb.hdr, ok_bind]
  refine (rd_bind hb.body.left.left hf (by simp [exact]) (by rfl)).trans ?_
  have hl := enc_length _ _ hf
  have hc : calcsize [I, I, H, X 6] = 16 := rfl
  have := hb.len
  simp only [List.length_append] at this
  simp only [hc] at hl ⊢
  rw [whileFetch_at hparts (hb.body.left.right _ (by rw [hl])) _ rfl, ok_bind]
  simp only
  rw [(hb.body.right _ (by simp only [List.length_append, hl]; omega)).slice _ (by omega), ← hil]

theorem packetIn_at {rnd h b tl r t c mt d bs m n} (hb : buildPacketIn rnd h b tl r t c (.tup mt) d = .ok bs) (hm : At m n bs) :
    parse m n = .ok (.packetIn ⟨4, 10, bs.length, h.xid rnd⟩ b tl r t c (mt.wire mt.fields) d) := by
  simp only [buildPacketIn, bind_ok, pack_eq_ok, obj] at hb
  obtain ⟨_, ⟨hf, rfl⟩, mb, hmb, hb⟩ := hb
  have hb := built_one hb hm
  obtain ⟨hmrt, hml⟩ := rt_match hmb
  rw [hb.parse]
  show parsePacketIn m n = _
  rw [parsePacketIn, hb.hdr, ok_bind]
  refine (rd_bind hb.body.left.left.left hf (by simp [exact]) (by rfl)).trans ?_
  have hl := enc_length _ _ hf
  have hc : calcsize [I, H, B, B, Q] = 16 := rfl
  have := hb.len
  simp only [List.length_append, nul_length] at this
  simp only [hc] at hl ⊢
  rw [hmrt.at (hb.body.left.left.right _ (by rw [hl])), ok_bind]
  simp only
  have hx : enc [X 2] [] = nul 2 := rfl
  have hat : At m (n + 8 + 16 + mb.length) (enc [X 2] []) := by
    rw [hx]; exact hb.body.left.right _ (by simp only [List.length_append, hl]; omega)
  refine (rd_bind hat (by rfl) (by simp [exact]) (by rfl)).trans ?_
  have hc : calcsize [X 2] = 2 := rfl
  simp only [hc]
  rw [(hb.body.right _ (by simp only [List.length_append, hl, nul_length]; omega)).slice _ (by omega)]

theorem flowRemoved_at {rnd h c p r t ds dn i hd pc bc mt bs m n}
    (hb : buildFlowRemoved rnd h c p r t ds dn i hd pc bc (.tup mt) = .ok bs) (hm : At m n bs) :
    parse m n = .ok (.flowRemoved ⟨4, 11, bs.length, h.xid rnd⟩ c p r t ds dn i hd pc bc (mt.wire mt.fields)) := by
  simp only [buildFlowRemoved, bind_ok, pack_eq_ok, obj] at hb
  obtain ⟨_, ⟨hf, rfl⟩, mb, hmb, hb⟩ := hb
  have hb := built_one hb hm
  obtain ⟨hmrt, hml⟩ := rt_match hmb
  rw [hb.parse]
  show parseFlowRemoved m n = _
  rw [parseFlowRemoved, hb.hdr, ok_bind]
  refine (rd_bind hb.body.left hf (by simp [exact, flowRemovedFmt]) (by rfl)).trans ?_
  have hl := enc_length _ _ hf
  simp only
  rw [hmrt.at (hb.body.right _ (by rw [hl])), ok_bind]

/-! ### multipart -/

theorem mpRequest_at {rnd h t f body bs m n} (hb : buildMpRequest rnd h t f body = .ok bs) (hm : At m n bs) :
    ∃ b, reqBody t body = .ok b ∧ At m (n + 16) b ∧ n + bs.length = n + 16 + b.length ∧
      parse m n = (do let bd ← parseReqBody t m (n + bs.length) (n + 16); .ok (.mpRequest ⟨4, 18, bs.length, h.xid rnd⟩ t f bd)) := by
  simp only [buildMpRequest, bind_ok, pack_eq_ok] at hb
  obtain ⟨b, hbb, _, ⟨hf, rfl⟩, hb⟩ := hb
  have hb := built_one hb hm
  have hl := enc_length _ _ hf
  have hc : calcsize [H, H, X 4] = 8 := rfl
  rw [hc] at hl
  have := hb.len
  simp only [List.length_append] at this
  refine ⟨b, hbb, hb.body.right _ (by omega), by omega, ?_⟩
  rw [hb.parse]
  show parseMpRequest m n = _
  rw [parseMpRequest, hb.hdr, ok_bind]
  refine (rd_bind hb.body.left hf (by simp [exact]) (by rfl)).trans ?_
  rfl

theorem mpReply_at {rnd h t f body bs m n} (hb : buildMpReply rnd h t f body = .ok bs) (hm : At m n bs) :
    ∃ b, repBody t body = .ok b ∧ At m (n + 16) b ∧ n + bs.length = n + 16 + b.length ∧
      parse m n = (do let bd ← parseRepBody t m (n + bs.length) (n + 16); .ok (.mpReply ⟨4, 19, bs.length, h.xid rnd⟩ t f bd)) := by
  simp only [buildMpReply, bind_ok, pack_eq_ok] at hb
  obtain ⟨b, hbb, _, ⟨hf, rfl⟩, hb⟩ := hb
  have hb := built_one hb hm
  have hl := enc_length _ _ hf
  have hc : calcsize [H, H, X 4] = 8 := rfl
  rw [hc] at hl
  have := hb.len
  simp only [List.length_append] at this
  refine ⟨b, hbb, hb.body.right _ (by omega), by omega, ?_⟩
  rw [hb.parse]
  show parseMpReply m n = _
  rw [parseMpReply, hb.hdr, ok_bind]
  refine (rd_bind hb.body.left hf (by simp [exact]) (by rfl)).trans ?_
  rfl

/-- Requests without a body. -/
theorem mpRequest_empty {rnd h t f body bs m n} (ht : t ∈ [0, 3, 7, 8, 11, 13]) (hb : buildMpRequest rnd h t f body = .ok bs)
    (hm : At m n bs) : bs.length = 16 ∧ parse m n = .ok (.mpRequest ⟨4, 18, bs.length, h.xid rnd⟩ t f (.raw [])) := by
  obtain ⟨b, h1, _, h3, h4⟩ := mpRequest_at hb hm
  have e : reqBody t body = .ok [] := by unfold reqBody; rw [if_pos ht]
  rw [e] at h1
  injection h1 with h1; subst h1
  refine ⟨by simp at h3; omega, ?_⟩
  rw [h4, parseReqBody, if_pos ht]; rfl

theorem reqBody_one {t : Nat} {r : Rec} (ht : t ∈ r.requestTypes) : reqBody t (.one r) = buildRec r := by
  cases r <;> simp only [Rec.requestTypes, List.mem_cons, List.not_mem_nil, or_false] at ht <;>
    first | (subst ht; rfl) | (rcases ht with rfl | rfl <;> rfl)

theorem parseReqBody_one {t : Nat} {r : Rec} (ht : t ∈ r.requestTypes) (m : Bytes) (lim off : Nat) :
    parseReqBody t m lim off = single (recParser r m off) := by
  cases r <;> simp only [Rec.requestTypes, List.mem_cons, List.not_mem_nil, or_false] at ht <;>
    first | (subst ht; rfl) | (rcases ht with rfl | rfl <;> rfl)

/-- Requests with one record. -/
theorem mpRequest_one {rnd h t f r bs m n} (ht : t ∈ r.requestTypes) (hr : r.Parseable)
    (hb : buildMpRequest rnd h t f (.one r) = .ok bs) (hm : At m n bs) :
    parse m n = .ok (.mpRequest ⟨4, 18, bs.length, h.xid rnd⟩ t f (.one r.wire)) := by
  obtain ⟨b, h1, h2, _, h4⟩ := mpRequest_at hb hm
  rw [reqBody_one ht] at h1
  rw [h4, parseReqBody_one ht, single, (rt_rec r b hr h1).1.at h2]; rfl

/-- Experimenter requests. -/
theorem mpRequest_exp {rnd h f d bs m n} (hb : buildMpRequest rnd h 0xffff f (.raw d) = .ok bs) (hm : At m n bs) :
    parse m n = .ok (.mpRequest ⟨4, 18, bs.length, h.xid rnd⟩ 0xffff f (.raw d)) := by
  obtain ⟨b, h1, h2, h3, h4⟩ := mpRequest_at hb hm
  have h1 : (.ok d : Py Bytes) = .ok b := h1
  injection h1 with h1; subst h1
  rw [h4, h3]
  show (do let bd ← (.ok (.raw (slice m (n + 16) (n + 16 + d.length))) : Py Body); _) = _
  rw [h2.slice _ rfl]; rfl

/-- Replies with one record. -/
theorem mpReply_one {rnd h t f r bs m n} (ht : r.replyType = some t) (hs : t ∈ [0, 8, 11]) (hr : r.Parseable)
    (hb : buildMpReply rnd h t f (.one r) = .ok bs) (hm : At m n bs) :
    parse m n = .ok (.mpReply ⟨4, 19, bs.length, h.xid rnd⟩ t f (.one r.wire)) := by
  obtain ⟨b, h1, h2, _, h4⟩ := mpReply_at hb hm
  have e1 : repBody t (.one r) = buildRec r := by
    simp only [List.mem_cons, List.not_mem_nil, or_false] at hs
    rcases hs with rfl | rfl | rfl <;> rfl
  have e2 : parseRepBody t m (n + bs.length) (n + 16) = single (recParser r m (n + 16)) := by
    simp only [List.mem_cons, List.not_mem_nil, or_false] at hs
    rcases hs with rfl | rfl | rfl <;> cases r <;> simp [Rec.replyType] at ht <;> rfl
  rw [e1] at h1
  rw [h4, e2, single, (rt_rec r b hr h1).1.at h2]; rfl

/-- The types of replies that carry a list of records, as far as the library can both build and parse them. -/
def listTypes : List Nat := [1, 3, 5, 6, 7, 9, 10, 13]

/-- The parser for the elements of such lists. -/
def listParser (t : Nat) : Bytes → Nat → Py (Rec × Nat) :=
  if t = 1 then parseFlowStats else if t = 3 then parseTableStats else if t = 5 then parseQueueStats
  else if t = 6 then parseGroupStats else if t = 7 then parseGroupDesc else if t = 9 then parseMeterStats
  else if t = 10 then parseMeterConfig else parsePortRec

theorem listParser_eq {t : Nat} {r : Rec} (ht : r.replyType = some t) (hs : t ∈ listTypes) : recParser r = listParser t := by
  simp only [listTypes, List.mem_cons, List.not_mem_nil, or_false] at hs
  rcases hs with rfl | rfl | rfl | rfl | rfl | rfl | rfl | rfl <;> cases r <;> simp [Rec.replyType] at ht <;> rfl

/-- Replies with a list of records. -/
theorem mpReply_many {rnd h t f bs m n} {l : List Rec} (hs : t ∈ listTypes)
    (hl : ∀ r ∈ l, r.replyType = some t ∧ r.Parseable)
    (hb : buildMpReply rnd h t f (.many (l.map .tup)) = .ok bs) (hm : At m n bs) :
    parse m n = .ok (.mpReply ⟨4, 19, bs.length, h.xid rnd⟩ t f (.many ((l.map Rec.wire).map .tup))) := by
  obtain ⟨b, h1, h2, h3, h4⟩ := mpReply_at hb hm
  have e1 : repBody t (.many (l.map .tup)) = join buildRec (l.map .tup) := by
    simp only [listTypes, List.mem_cons, List.not_mem_nil, or_false] at hs
    rcases hs with rfl | rfl | rfl | rfl | rfl | rfl | rfl | rfl <;> rfl
  have e2 : parseRepBody t m (n + bs.length) (n + 16) = several (listFetch (listParser t m) (n + bs.length) (n + 16)) := by
    simp only [listTypes, List.mem_cons, List.not_mem_nil, or_false] at hs
    rcases hs with rfl | rfl | rfl | rfl | rfl | rfl | rfl | rfl <;> rfl
  rw [e1] at h1
  have hparts : Parts (listParser t) b (l.map Rec.wire) := by
    have h5 : seqBytes buildRec (tups l) = .ok b := h1
    have h6 := seq_parts (size := fun r => (match buildRec r with | .ok b => b.length | _ => 0))
      (w := Rec.wire) (p := listParser t) (P := fun r => r.replyType = some t ∧ r.Parseable)
      (fun r bs hr hbs => by
        obtain ⟨h7, h8⟩ := rt_rec r bs hr.2 hbs
        rw [listParser_eq hr.1 hs] at h7
        exact ⟨h7, h8, by rw [hbs]⟩) (all_tups hl) h5
    simpa using h6.1
  rw [h4, e2, several, listFetch_at hparts h2 _ h3]; rfl

/-- An aggregate reply comes back as a list of one record. -/
theorem mpReply_aggregate {rnd h f a b c bs m n} (hb : buildMpReply rnd h 2 f (.one (.aggregate a b c)) = .ok bs) (hm : At m n bs) :
    parse m n = .ok (.mpReply ⟨4, 19, bs.length, h.xid rnd⟩ 2 f (.many [.tup (.aggregate a b c)])) := by
  obtain ⟨bb, h1, h2, h3, h4⟩ := mpReply_at hb hm
  have h1 : buildRec (.aggregate a b c) = .ok bb := h1
  obtain ⟨h5, h6⟩ := rt_rec (.aggregate a b c) bb trivial h1
  have hparts : Parts parseAggregate bb [.aggregate a b c] := by
    have := Parts.cons (p := parseAggregate) h5 h6 .nil
    rwa [List.append_nil] at this
  rw [h4]
  show (do let bd ← several (listFetch (parseAggregate m) (n + bs.length) (n + 16)); _) = _
  rw [several, listFetch_at hparts h2 _ h3]; rfl

/-- Experimenter replies. -/
theorem mpReply_exp {rnd h f e t d bs m n} (he : e < 2 ^ 32) (ht : t < 2 ^ 32)
    (hb : buildMpReply rnd h 0xffff f (.raw (be32 e ++ be32 t ++ d)) = .ok bs) (hm : At m n bs) :
    parse m n = .ok (.mpReply ⟨4, 19, bs.length, h.xid rnd⟩ 0xffff f (.one (.experimenter e t d))) := by
  obtain ⟨b, h1, h2, h3, h4⟩ := mpReply_at hb hm
  have h1 : (.ok (be32 e ++ be32 t ++ d) : Py Bytes) = .ok b := h1
  injection h1 with h1; subst h1
  have e1 : be32 e ++ be32 t = enc [I, I] [.int e, .int t] := by simp [enc, encBE_4]
  rw [e1] at h2 h3
  have hf : fits [I, I] [.int e, .int t] = true := by simp [fits]; omega
  have hl := enc_length _ _ hf
  have hc : calcsize [I, I] = 8 := rfl
  rw [hc] at hl
  rw [List.length_append] at h3
  rw [h4]
  show (do let bd ← single (parseExperimenterMp (n + bs.length) m (n + 16)); _) = _
  rw [parseExperimenterMp, rd_at h2.left hf (by simp [exact]) (two fun a b => (a, b)) _ rfl, ok_bind]
  simp only [hc]
  rw [(h2.right (n + 16 + 8) (by omega)).slice _ (by omega)]
  rfl

end Twink.Of13
