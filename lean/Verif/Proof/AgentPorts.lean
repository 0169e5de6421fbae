import Verif.Proof.AgentReply

/-!
# Port descriptions sent by the software switch
-/

namespace Twink.Agent
open Of13 Spec Fmt

/-- A built port is what the standard describes. -/
theorem buildPort_ok {p : PortT} {b : Bytes} (h : buildPort p = .ok b) : b = portBytes 4 (asPort p) ∧ (asPort p).Wf 4 := by
  unfold buildPort at h
  simp only [bind_ok, pyAssert_ok, exists_const, pack_eq_ok, ok_inj] at h
  obtain ⟨n, hn, hw, hl, d, ⟨hf, rfl⟩, _, rfl⟩ := h
  have hn' : asPort p = ⟨p.portNo, p.hwAddr, n ++ zeros (16 - n.length),
      [p.config, p.state, p.curr, p.advertised, p.supported, p.peer, p.currSpeed, p.maxSpeed]⟩ := by
    unfold asPort
    unfold encodeName at hn
    split at hn
    · split at hn
      · simp only [ok_inj] at hn; subst hn; simp_all
      · cases hn
    · cases hn
  simp [fits, Of13.portFmt] at hf
  rw [hn']
  refine ⟨?_, hw, by simp; omega, ?_, ?_⟩
  · have e1 : padTo 16 n = n ++ List.replicate (16 - n.length) 0 := by unfold padTo; rw [List.take_of_length_le hl]
    have e2 : padTo 6 p.hwAddr = p.hwAddr := by unfold padTo; rw [List.take_of_length_le (by omega), hw]; simp
    simp [Of13.portFmt, enc, portBytes, encBE_4, e1, e2, zeros]
  · simp; omega
  · simp; omega

/-- A port that can be described. -/
def GoodPort (p : PortT) : Prop :=
  p.hwAddr.length = 6 ∧ (∃ n, p.name = .str n ∧ n.length ≤ 16 ∧ ∀ c ∈ n, c < 128) ∧ p.portNo < 2 ^ 32 ∧ p.config < 2 ^ 32 ∧
    p.state < 2 ^ 32 ∧ p.curr < 2 ^ 32 ∧ p.advertised < 2 ^ 32 ∧ p.supported < 2 ^ 32 ∧ p.peer < 2 ^ 32 ∧ p.currSpeed < 2 ^ 32 ∧
    p.maxSpeed < 2 ^ 32

theorem buildPort_make {p : PortT} (h : GoodPort p) : ∃ b, buildPort p = .ok b := by
  obtain ⟨hw, ⟨n, hn, hl, ha⟩, h⟩ := h
  unfold buildPort
  have h1 : encodeName p.name = .ok n := by
    rw [hn]; unfold encodeName
    have : (n.all fun x => decide (x < 128)) = true := by simpa using ha
    simp only [this, if_true]
  rw [h1, ok_bind]
  have hf : fits Of13.portFmt [.int p.portNo, .str p.hwAddr, .str n, .int p.config, .int p.state, .int p.curr, .int p.advertised,
      .int p.supported, .int p.peer, .int p.currSpeed, .int p.maxSpeed] = true := by
    simp [fits, Of13.portFmt]; omega
  have hlen := enc_length _ _ hf
  have h64 : calcsize Of13.portFmt = 64 := rfl
  rw [h64] at hlen
  simp only [pyAssert, hw, hl, if_true, ok_bind, pack, hf, hlen]
  exact ⟨_, rfl⟩

theorem buildPort_length {p : PortT} {b : Bytes} (h : buildPort p = .ok b) : b.length = 64 := by
  unfold buildPort at h
  simp only [bind_ok, pyAssert_ok, exists_const, ok_inj] at h
  obtain ⟨n, _, _, _, d, _, h, rfl⟩ := h
  exact h

/-- PORT_STATUS as the standard describes it. -/
theorem statusMsg_bytes {rnd reason : Nat} {p : PortT} {m : Bytes} (h : statusMsg rnd reason p = .ok m) :
    m = portStatus 4 0 reason (asPort p) ∧ (asPort p).Wf 4 := by
  simp only [statusMsg, bind_ok] at h
  obtain ⟨hd, h1, d, h2, h⟩ := h
  obtain ⟨h3, h4⟩ := buildPort_ok h2
  refine ⟨?_, h4⟩
  obtain ⟨_, _, rfl⟩ := replyHdr_ok h1
  simp only [buildPortStatus, obj, bind_ok, pack_eq_ok, ok_inj] at h
  obtain ⟨x, ⟨hf, rfl⟩, e, rfl, h⟩ := h
  have hd := buildPort_length h2
  rw [ofp_make _ _ (by omega) (by omega) (by simp [enc, hd, encBE_1]) (.inl rfl)] at h
  simp only [ok_inj] at h
  rw [← h]
  subst h3
  simp [portStatus, enc, encBE_1, hd, zeros, portSize]

theorem statusMsg_make (rnd : Nat) {reason : Nat} {p : PortT} (h : GoodPort p) (hr : reason < 256) : ∃ m, statusMsg rnd reason p = .ok m := by
  obtain ⟨b, hb⟩ := buildPort_make h
  have hl := buildPort_length hb
  have hf : fits [B, X 7] [.int reason] = true := by simp [fits, hr]
  refine ⟨ofHeader 4 12 (8 + (enc [B, X 7] [.int reason] ++ b).length) 0 ++ (enc [B, X 7] [.int reason] ++ b), ?_⟩
  unfold statusMsg
  rw [replyHdr_make (by omega) (by omega), ok_bind, hb, ok_bind]
  unfold buildPortStatus
  simp only [obj, pack, hf, if_true, ok_bind]
  exact ofp_make _ _ (by omega) (by omega) (by simp [enc, hl]) (.inl rfl)

theorem join_ports {l : List PortT} {b : Bytes} (h : join buildPort (l.map .tup) = .ok b) :
    b = ((l.map asPort).map (portBytes 4)).flatten ∧ b.length = 64 * l.length ∧ ∀ p ∈ l.map asPort, p.Wf 4 := by
  refine ⟨?_, join_len (fun a _ b hb => buildPort_length hb) h, ?_⟩
  · induction l generalizing b with
    | nil => simp only [List.map_nil, join_ok_nil] at h; simp [h]
    | cons a l ih =>
      rw [List.map_cons, join_ok_cons] at h
      obtain ⟨x, y, h1, h2, rfl⟩ := h
      rw [ih h2, (buildPort_ok h1).1]
      simp
  · induction l generalizing b with
    | nil => simp
    | cons a l ih =>
      rw [List.map_cons, join_ok_cons] at h
      obtain ⟨x, y, h1, h2, rfl⟩ := h
      intro p hp
      rcases List.mem_cons.1 hp with rfl | hp
      · exact (buildPort_ok h1).2
      · exact ih h2 p hp

theorem join_make {f : α → Py Bytes} {l : List α} (h : ∀ a ∈ l, ∃ b, f a = .ok b) : ∃ b, join f (l.map .tup) = .ok b := by
  induction l with
  | nil => exact ⟨[], rfl⟩
  | cons a l ih =>
    obtain ⟨x, hx⟩ := h a (by simp)
    obtain ⟨y, hy⟩ := ih fun a ha => h a (by simp [ha])
    exact ⟨x ++ y, join_ok_cons.2 ⟨x, y, hx, hy, rfl⟩⟩

/-- The reply to a PORT_DESC request. -/
theorem portDesc_bytes {o : Order} {st : St} {body : Body} {rnd xid : Nat} {h : HdrArg} {r : Bytes}
    (hb : mpBody o st 13 = .ok (some body)) (hh : replyHdr rnd 19 xid = .ok h) (hr : buildMpReply rnd h 13 0 body = .ok r) :
    r = portDescReply 4 xid 0 ((o.items st.ports).map fun e => asPort e.2.desc) ∧
      (∀ p ∈ (o.items st.ports).map fun e => asPort e.2.desc, p.Wf 4) ∧ 16 + 64 * (o.items st.ports).length < 65536 := by
  unfold mpBody at hb
  rw [if_neg (by decide), if_pos rfl] at hb
  simp only [bind_ok, ok_inj, Option.some.injEq] at hb
  obtain ⟨d, hd, rfl⟩ := hb
  have e : (o.items st.ports).map (fun p => (Elem.tup p.2.desc : Elem PortT)) = ((o.items st.ports).map fun p => p.2.desc).map .tup := by
    rw [List.map_map]; rfl
  rw [e] at hd
  obtain ⟨h1, h2, h3⟩ := join_ports hd
  rw [List.map_map] at h1 h3
  rw [List.length_map] at h2
  obtain ⟨_, _, rfl⟩ := replyHdr_ok hh
  simp only [buildMpReply, bind_ok, pack_eq_ok] at hr
  obtain ⟨b, hb, x, ⟨hf, rfl⟩, hr⟩ := hr
  have hb' : b = d := by
    have hb : join buildRec [.raw d] = .ok b := hb
    simp [join, obj, bind, Except.bind] at hb
    exact hb.symm
  subst hb'
  have hl : 16 + b.length < 65536 := by
    obtain ⟨hf2, _⟩ := ofp_one hr
    simp [fits, hdrFmt, enc] at hf2
    omega
  rw [ofp_make _ _ (by omega) (by omega) (by simp [enc]; omega) (.inl rfl)] at hr
  simp only [ok_inj] at hr
  refine ⟨?_, h3, by omega⟩
  rw [← hr]
  have e1 : ((((o.items st.ports).map fun e => asPort e.2.desc).map (portBytes 4)).flatten) = b := by
    rw [h1, List.map_map, List.map_map]; rfl
  simp only [portDescReply, List.length_map, e1]
  have e2 : 8 + (enc [H, H, X 4] [.int 13, .int 0] ++ b).length = 16 + portSize 4 * (o.items st.ports).length := by
    simp [enc, portSize]; omega
  rw [e2]
  simp [enc, encBE_2, zeros]

end Twink.Agent
