import Verif.Proof.AgentPorts
import Verif.Props.Server

/-!
# C50: the replies of the software switch
-/

namespace Twink.Agent
open Of13 Spec Fmt

/-- C50, for messages that the agent handles without an exception: a request is answered by exactly one message, which is a
reply of the right type with the id of the request, and nothing else is done; any other message is not answered.
Missing: requests whose handling raises an exception are not answered at all, see `C50_ghost_refuted`, `C50_many_flows_refuted`. -/
theorem C50_answers_partial (o : Order) (rnd : Nat) (st st' : St) (m : Bytes) (es : List Eff)
    (h : switchProc o rnd st m = .ok (st', es)) :
    (∀ t, replyType m = some t → st' = st ∧ ∃ r, es = [.send r] ∧ Replies m t r) ∧
    (replyType m = none → ∀ r, .send r ∉ es) := by
  simp only [switchProc, bind_ok] at h
  obtain ⟨msg, hp, h⟩ := h
  obtain ⟨_, _, hh, _⟩ := parse_hdr hp
  have ht : (hdrOf msg).type = u8 m 1 := by rw [hh]
  have hx : (hdrOf msg).xid = u32 m 4 := by rw [hh]
  cases does_of h with
  | features _ hd r h5 h6 h7 =>
    rw [ht] at h5
    rw [hx] at h6
    have := reply_fields (c := .features 1 2 3 0 0xf) h6 h7
    refine ⟨fun t e => ?_, fun e => ?_⟩ <;> simp [replyType, h5] at e
    subst e
    exact ⟨rfl, r, rfl, this.1, this.2.1, this.2.2.1, this.2.2.2.1, this.2.2.2.2, by omega⟩
  | config _ hd r h5 h6 h7 =>
    rw [ht] at h5
    rw [hx] at h6
    have := reply_fields (c := .config 0 (some 0xffe5)) h6 h7
    refine ⟨fun t e => ?_, fun e => ?_⟩ <;> simp [replyType, h5] at e
    subst e
    exact ⟨rfl, r, rfl, this.1, this.2.1, this.2.2.1, this.2.2.2.1, this.2.2.2.2, by omega⟩
  | role hd0 a g hd r h5 h6 h7 =>
    simp only [hdrOf] at ht hx
    rw [ht] at h5
    rw [hx] at h6
    have := reply_fields (c := .role a g) h6 h7
    refine ⟨fun t e => ?_, fun e => ?_⟩ <;> simp [replyType, h5] at e
    subst e
    exact ⟨rfl, r, rfl, this.1, this.2.1, this.2.2.1, this.2.2.2.1, this.2.2.2.2, by omega⟩
  | flow hd0 c cm tb cmd i hr p b op og f mt is h5 hc =>
    simp only [hdrOf] at ht
    rw [ht] at h5
    refine ⟨fun t e => ?_, fun e => by simp⟩
    simp [replyType, h5] at e
  | answer hd0 type fl bd body hd r h5 hb h6 h7 =>
    obtain ⟨e1, _, _⟩ := mpRequest_type hp h5
    simp only [hdrOf] at ht hx
    rw [ht] at h5
    rw [hx] at h6
    have := reply_fields (c := .mpReply type 0 body) h6 h7
    have h8 := mpReply_type h7
    have h9 : u16 m 8 = 0 ∨ u16 m 8 = 1 ∨ u16 m 8 = 13 := by
      by_contra hc
      rw [e1] at hb
      unfold mpBody at hb
      rw [if_neg (by omega), if_neg (by omega), if_neg (by omega)] at hb
      simp at hb
    refine ⟨fun t e => ?_, fun e => ?_⟩ <;> simp [replyType, h5, h9] at e
    subst e
    exact ⟨rfl, r, rfl, this.1, this.2.1, this.2.2.1, this.2.2.2.1, this.2.2.2.2, fun _ => h8.trans e1⟩
  | ignore hd0 type fl bd h5 hb =>
    obtain ⟨e1, _, _⟩ := mpRequest_type hp h5
    simp only [hdrOf] at ht
    rw [ht] at h5
    refine ⟨fun t e => ?_, fun e => by simp⟩
    simp only [replyType, h5] at e
    simp at e
    rw [e1] at hb
    unfold mpBody at hb
    rcases e.1 with e | e | e <;> rw [e] at hb <;> simp [bind_ok] at hb
  | packet hd0 b i l as d es h5 hp =>
    simp only [hdrOf] at ht
    rw [ht] at h5
    refine ⟨fun t e => ?_, fun e r => ?_⟩
    · simp [replyType, h5] at e
    · simp only [packetOutStep, bind_ok] at hp
      obtain ⟨n, _, hp⟩ := hp
      split at hp
      · cases hp
      · split at hp <;> simp only [ok_inj] at hp <;> subst hp <;> simp
  | quiet _ h5 =>
    rw [ht] at h5
    refine ⟨fun t e => ?_, fun e => by simp⟩
    rcases h5 with h5 | h5 | h5 <;> simp [replyType, h5] at e

theorem switchProc_of {o : Order} {rnd : Nat} {st : St} {m : Bytes} {msg : Msg} (hp : parse m 0 = .ok msg) :
    switchProc o rnd st m = switchMsg o rnd st msg := by
  unfold switchProc; rw [hp, ok_bind]

theorem parse_make {m : Bytes} {msg : Msg} (h8 : 8 ≤ m.length) (hv : u8 m 0 = 4) (h : parseOf (u8 m 1) m 0 = .ok msg) :
    parse m 0 = .ok msg := by
  unfold parse; rw [parseHdr_make h8 hv, ok_bind]; exact h

theorem parse_mp {m : Bytes} (h16 : 16 ≤ m.length) (hv : u8 m 0 = 4) (ht : u8 m 1 = 18) (hm : u16 m 8 ∈ [0, 3, 7, 8, 11, 13]) :
    parse m 0 = .ok (.mpRequest ⟨4, 18, u16 m 2, u32 m 4⟩ (u16 m 8) (u16 m 10) (.raw [])) := by
  apply parse_make (by omega) hv
  rw [ht]
  show parseMpRequest m 0 = _
  unfold parseMpRequest
  rw [parseHdr_make (by omega) hv, ok_bind, ht]
  have hr : rd [H, H, X 4] m 8 (two fun a b => (a, b)) = .ok ((u16 m 8, u16 m 10), 16) := by
    have := rd_make (f := [H, H, X 4]) (m := m) (off := 8) (k := two fun a b => (a, b)) (a := (u16 m 8, u16 m 10))
      (by simp [calcsize, Item.width]; omega) (by rw [dec_HH _ _ _ (by omega)]; rfl)
    rw [this]; rfl
  simp only [hr, ok_bind]
  unfold parseReqBody
  rw [if_pos hm, ok_bind]

/-- The description of the switch. -/
def descBytes : Bytes := (buildRec descRec).toOption.getD []

theorem desc_ok : buildRec descRec = .ok descBytes ∧ descBytes.length = 1056 := by decide +kernel

theorem features_make (rnd x : Nat) (hx : x < 2 ^ 32) : ∃ r, buildFeatures rnd (.raw (ofHeader 4 6 0 x)) 1 2 3 0 0xf = .ok r := by
  unfold buildFeatures pack
  rw [if_pos (by decide), ok_bind, ofp_make _ _ (by omega) hx (by decide) (.inl rfl), ok_bind]
  unfold pyAssert
  rw [if_pos (by simp [enc]), ok_bind]
  exact ⟨_, rfl⟩

theorem config_make (rnd x : Nat) (hx : x < 2 ^ 32) : ∃ r, buildConfig rnd (.raw (ofHeader 4 8 0 x)) 0 (some 0xffe5) = .ok r := by
  unfold buildConfig pack
  rw [if_pos (by decide), ok_bind, ofp_make _ _ (by omega) hx (by decide) (.inr ⟨_, rfl, by decide⟩), ok_bind]
  unfold pyAssert
  rw [if_pos (by simp [enc]), ok_bind]
  exact ⟨_, rfl⟩

theorem role_make (rnd x a g : Nat) (hx : x < 2 ^ 32) (ha : a < 2 ^ 32) (hg : g < 2 ^ 64) :
    ∃ r, buildRole rnd (.raw (ofHeader 4 25 0 x)) a g = .ok r := by
  unfold buildRole pack
  rw [if_pos (by simp [fits]; omega), ok_bind, ofp_make _ _ (by omega) hx (by simp [enc]) (.inr ⟨_, rfl, by decide⟩)]
  exact ⟨_, rfl⟩

theorem mp_make (rnd x type : Nat) (body : Body) (b : Bytes) (hx : x < 2 ^ 32) (ht : type < 65536)
    (hb : repBody type body = .ok b) (hl : 16 + b.length < 65536) :
    ∃ r, buildMpReply rnd (.raw (ofHeader 4 19 0 x)) type 0 body = .ok r := by
  unfold buildMpReply pack
  rw [hb, ok_bind, if_pos (by simp [fits]; omega), ok_bind, ofp_make _ _ (by omega) hx (by simp [enc]; omega) (.inl rfl)]
  exact ⟨_, rfl⟩

/-- C50. Requests for features, configuration, role and the description of the switch are answered in every state, whatever the
bytes after the fields read. -/
theorem C50_answered (o : Order) (rnd : Nat) (st : St) (m : Bytes) (h8 : 8 ≤ m.length) (hv : u8 m 0 = 4)
    (ht : u8 m 1 = 5 ∨ u8 m 1 = 7 ∨ (u8 m 1 = 24 ∧ 24 ≤ m.length) ∨ (u8 m 1 = 18 ∧ u16 m 8 = 0 ∧ 16 ≤ m.length)) :
    ∃ t r, replyType m = some t ∧ switchProc o rnd st m = .ok (st, [.send r]) ∧ Replies m t r := by
  have hx := u32_lt m 4
  suffices h : ∃ t r, replyType m = some t ∧ switchProc o rnd st m = .ok (st, [.send r]) by
    obtain ⟨t, r, h1, h2⟩ := h
    obtain ⟨_, r', h3, h4⟩ := (C50_answers_partial o rnd st st m _ h2).1 t h1
    simp only [List.cons.injEq, Eff.send.injEq, and_true] at h3
    subst h3
    exact ⟨t, r, h1, h2, h4⟩
  rcases ht with ht | ht | ⟨ht, hl⟩ | ⟨ht, h0, hl⟩
  · have hp : parse m 0 = .ok (.other ⟨4, 5, u16 m 2, u32 m 4⟩ (slice m 8 (0 + u16 m 2))) := by
      apply parse_make h8 hv
      rw [ht]
      show parseOther m 0 = _
      unfold parseOther
      rw [parseHdr_make h8 hv, ok_bind, ht]
    obtain ⟨r, hr⟩ := features_make rnd (u32 m 4) hx
    refine ⟨6, r, by simp [replyType, ht], ?_⟩
    rw [switchProc_of hp]
    unfold switchMsg
    simp only [hdrOf, if_true]
    rw [replyHdr_make (by omega) hx, ok_bind, hr, ok_bind]
  · have hp : parse m 0 = .ok (.other ⟨4, 7, u16 m 2, u32 m 4⟩ (slice m 8 (0 + u16 m 2))) := by
      apply parse_make h8 hv
      rw [ht]
      show parseOther m 0 = _
      unfold parseOther
      rw [parseHdr_make h8 hv, ok_bind, ht]
    obtain ⟨r, hr⟩ := config_make rnd (u32 m 4) hx
    refine ⟨8, r, by simp [replyType, ht], ?_⟩
    rw [switchProc_of hp]
    unfold switchMsg
    simp only [hdrOf, if_true]
    rw [if_neg (by decide), replyHdr_make (by omega) hx, ok_bind, hr, ok_bind]
  · have hp : parse m 0 = .ok (.role ⟨4, 24, u16 m 2, u32 m 4⟩ (decBE ((m.drop 8).take 4)) (decBE ((m.drop 16).take 8))) := by
      apply parse_make h8 hv
      rw [ht]
      show parseRole m 0 = _
      unfold parseRole
      rw [parseHdr_make h8 hv, ok_bind, ht]
      have hr := rd_make (f := [I, X 4, Q]) (m := m) (off := 8) (k := two (Msg.role ⟨4, 24, u16 m 2, u32 m 4⟩))
        (a := .role ⟨4, 24, u16 m 2, u32 m 4⟩ (decBE ((m.drop 8).take 4)) (decBE ((m.drop 16).take 8)))
        (by simp [calcsize, Item.width]; omega) (by simp [dec, two])
      simp only [hr, ok_bind]
    obtain ⟨r, hr⟩ := role_make rnd (u32 m 4) (decBE ((m.drop 8).take 4)) (decBE ((m.drop 16).take 8)) hx
      (by have := decBE_lt ((m.drop 8).take 4); simp at this; rw [show min 4 (m.length - 8) = 4 by omega] at this; omega)
      (by have := decBE_lt ((m.drop 16).take 8); simp at this; rw [show min 8 (m.length - 16) = 8 by omega] at this; omega)
    refine ⟨25, r, by simp [replyType, ht], ?_⟩
    rw [switchProc_of hp]
    unfold switchMsg
    simp only [hdrOf, if_true]
    rw [if_neg (by decide), if_neg (by decide), replyHdr_make (by omega) hx, ok_bind, hr, ok_bind]
  · have hp := parse_mp hl hv ht (by simp [h0])
    rw [h0] at hp
    obtain ⟨r, hr⟩ := mp_make rnd (u32 m 4) 0 (.raw descBytes) descBytes hx (by omega) rfl (by rw [desc_ok.2]; omega)
    refine ⟨19, r, by simp [replyType, ht, h0], ?_⟩
    rw [switchProc_of hp]
    unfold switchMsg
    simp only [hdrOf, if_true]
    rw [if_neg (by decide), if_neg (by decide), if_neg (by decide), if_neg (by decide)]
    have hb : mpBody o st 0 = .ok (some (.raw descBytes)) := by
      unfold mpBody
      rw [if_neg (by decide), if_neg (by decide), if_pos rfl, desc_ok.1, ok_bind]
    rw [hb, ok_bind]
    simp only
    rw [replyHdr_make (by omega) hx, ok_bind, hr, ok_bind]

theorem ports_reply (o : Order) (rnd : Nat) (st : St) (m : Bytes) (h16 : 16 ≤ m.length) (hv : u8 m 0 = 4)
    (ht : u8 m 1 = 18) (hm : u16 m 8 = 13) (hg : ∀ e ∈ st.ports, GoodPort e.2.desc) (hn : st.ports.length < 1024) :
    switchProc o rnd st m = .ok (st, [.send (portDescReply 4 (u32 m 4) 0 ((o.items st.ports).map fun e => asPort e.2.desc))]) := by
  have hx := u32_lt m 4
  have hp := parse_mp h16 hv ht (by simp [hm])
  rw [hm] at hp
  have hperm := o.perm st.ports
  obtain ⟨b, hb⟩ := join_make (f := buildPort) (l := (o.items st.ports).map fun e => e.2.desc) (by
    intro a ha
    obtain ⟨e, he, rfl⟩ := List.mem_map.1 ha
    exact buildPort_make (hg e (hperm.mem_iff.1 he)))
  obtain ⟨_, hl, _⟩ := join_ports hb
  rw [List.length_map, hperm.length_eq] at hl
  rw [List.map_map] at hb
  have hbody : mpBody o st 13 = .ok (some (.many [.raw b])) := by
    unfold mpBody
    rw [if_neg (by decide), if_pos rfl]
    simp only [Function.comp_def] at hb
    rw [hb, ok_bind]
  obtain ⟨r, hr⟩ := mp_make rnd (u32 m 4) 13 (.many [.raw b]) b hx (by omega)
    (by show join buildRec [.raw b] = _; simp [join, obj, bind, Except.bind]) (by omega)
  have hh := replyHdr_make (rnd := rnd) (t := 19) (by omega) hx
  rw [← (portDesc_bytes hbody hh hr).1, switchProc_of hp]
  unfold switchMsg
  simp only [hdrOf, if_true]
  rw [if_neg (by decide), if_neg (by decide), if_neg (by decide), if_neg (by decide), hbody, ok_bind]
  simp only
  rw [hh, ok_bind, hr, ok_bind]

/-- C50. A request for the ports is answered by the description of all ports, in one message as the standard lays it out, as long
as all ports can be described and there are fewer than 1024 of them. -/
theorem C50_ports_answered (o : Order) (rnd : Nat) (st : St) (m : Bytes) (h16 : 16 ≤ m.length) (hv : u8 m 0 = 4)
    (ht : u8 m 1 = 18) (hm : u16 m 8 = 13) (hg : ∀ e ∈ st.ports, GoodPort e.2.desc) (hn : st.ports.length < 1024) :
    ∃ ps, ps.Perm (st.ports.map fun e => asPort e.2.desc) ∧
      switchProc o rnd st m = .ok (st, [.send (portDescReply 4 (u32 m 4) 0 ps)]) :=
  ⟨_, (o.perm st.ports).map _, ports_reply o rnd st m h16 hv ht hm hg hn⟩

/-- What is needed to answer a request for ports. -/
theorem ports_answer {o : Order} {rnd : Nat} {st : St} {m : Bytes} {x : St × List Eff} (ht : u8 m 1 = 18) (hm : u16 m 8 = 13)
    (h : switchProc o rnd st m = .ok x) : (∀ e ∈ st.ports, ∃ b, buildPort e.2.desc = .ok b) ∧ st.ports.length < 1024 := by
  obtain ⟨st', es⟩ := x
  obtain ⟨r, hes, _⟩ := ((C50_answers_partial o rnd st st' m es h).1 19 (by simp [replyType, ht, hm])).2
  simp only [switchProc, bind_ok] at h
  obtain ⟨msg, hp, h⟩ := h
  obtain ⟨_, _, hh, _⟩ := parse_hdr hp
  have ht' : (hdrOf msg).type = 18 := by rw [hh]; exact ht
  cases does_of h with
  | answer hd0 type fl bd body hd r h5 hb h6 h7 =>
    obtain ⟨e1, _, _⟩ := mpRequest_type hp h5
    rw [hm] at e1
    subst e1
    obtain ⟨_, h8, h9⟩ := portDesc_bytes hb h6 h7
    refine ⟨fun e he => ?_, by rw [(o.perm st.ports).length_eq] at h9; omega⟩
    unfold mpBody at hb
    rw [if_neg (by decide), if_pos rfl] at hb
    simp only [bind_ok] at hb
    obtain ⟨d, hd, hbd⟩ := hb
    clear hbd
    have he' := (o.perm st.ports).mem_iff.2 he
    clear h9 h8
    generalize o.items st.ports = l at hd he'
    induction l generalizing d with
    | nil => cases he'
    | cons a l ih =>
      rw [List.map_cons, join_ok_cons] at hd
      obtain ⟨x, y, h1, h2, _⟩ := hd
      rcases List.mem_cons.1 he' with rfl | he'
      · exact ⟨x, h1⟩
      · exact ih y h2 he'
  | features _ _ _ h5 => omega
  | config _ _ _ h5 => omega
  | role hd0 _ _ _ _ h5 => simp only [hdrOf] at ht'; omega
  | flow => cases hes
  | ignore => cases hes
  | packet hd0 _ _ _ _ _ _ h5 => simp only [hdrOf] at ht'; omega
  | quiet _ h5 => omega

/-- C50 is false with many ports: from 1024 ports on, no request for the ports is answered. -/
theorem C50_many_ports_refuted (o : Order) (rnd : Nat) (st : St) (m : Bytes) (ht : u8 m 1 = 18) (hm : u16 m 8 = 13)
    (hn : 1024 ≤ st.ports.length) : ∃ e, switchProc o rnd st m = .error e := by
  cases h : switchProc o rnd st m with
  | error e => exact ⟨e, rfl⟩
  | ok x => have := (ports_answer ht hm h).2; omega

/-- There is a port that cannot be described. -/
def Ghost (st : St) : Prop := ∃ e ∈ st.ports, ∀ b, buildPort e.2.desc ≠ .ok b

theorem statusMsg_port {rnd reason : Nat} {p : PortT} {m : Bytes} (h : statusMsg rnd reason p = .ok m) : ∃ b, buildPort p = .ok b := by
  simp only [statusMsg, bind_ok] at h
  obtain ⟨_, _, b, hb, _⟩ := h
  exact ⟨b, hb⟩

theorem ghost_put {st : St} (ht : Tidy st) (hl : st.lastNo + 1 ≠ 0xfffffffe) (p : OfPort) (hg : Ghost st) :
    Ghost { st with lastNo := st.lastNo + 1, ports := put st.ports (st.lastNo + 1) p } := by
  obtain ⟨e, he, hb⟩ := hg
  refine ⟨e, ?_, hb⟩
  show e ∈ put _ _ _
  rw [put_new (ht.new_no hl)]
  exact List.mem_append_left _ he

theorem ghost_step {st : St} (ht : Tidy st) (hg : Ghost st) (h : Happening) : Ghost (step st h).1 := by
  obtain ⟨o, rnd, ev⟩ := h
  cases ev with
  | msg m =>
    unfold step
    simp only
    split
    · rename_i he
      obtain ⟨h1, _⟩ := switchProc_keeps he
      obtain ⟨e, he, hb⟩ := hg
      exact ⟨e, by rw [h1]; exact he, hb⟩
    · exact hg
  | op a =>
    have key : Ghost (portOp o rnd st a).1 := by
      cases a with
      | add dev mac c s =>
        rcases addPort_cases rnd st dev mac c s with ⟨_, he⟩ | ⟨hl, e, he⟩ | ⟨hl, hw, sk, _, _, _, e, ⟨_, he⟩ | ⟨m, _, he⟩⟩ <;>
          rw [portOp, he]
        · exact hg
        · exact hg
        · exact ghost_put ht hl _ hg
        · exact ghost_put ht hl _ hg
      | del dev d =>
        rcases delPort_cases o rnd st dev d with ⟨_, he⟩ | ⟨e, hmem, _, ⟨_, _, he⟩ | ⟨m, hm, ⟨_, he⟩ | ⟨_, he⟩⟩⟩ <;> rw [portOp, he]
        · exact hg
        · exact hg
        · exact hg
        · obtain ⟨g, hgm, hb⟩ := hg
          refine ⟨g, List.mem_filter.2 ⟨hgm, ?_⟩, hb⟩
          simp only [bne_iff_ne, ne_eq]
          intro hk
          have : g = e := by
            have hinj := List.inj_on_of_nodup_map ht.keys
            exact hinj hgm hmem hk
          subst this
          obtain ⟨b, hb'⟩ := statusMsg_port hm
          exact hb b hb'
    unfold step
    simp only
    split <;> (rename_i he; rw [he] at key; exact key)

theorem ghost_after {st : St} (ht : Tidy st) (hg : Ghost st) (hs : List Happening) : Ghost (after st hs) := by
  induction hs generalizing st with
  | nil => exact hg
  | cons h hs ih => exact ih (step_tidy st ht h) (ghost_step ht hg h)

theorem bad_port {n : Nat} {hw dev : Bytes} {s : Option Nat} (hdev : 16 < dev.length ∨ hw.length ≠ 6) :
    ∀ b, buildPort (newPort n hw dev s).desc ≠ .ok b := by
  intro b hb
  simp only [buildPort, bind_ok, pyAssert_ok, exists_const] at hb
  obtain ⟨n, hn, hh, hlen, _⟩ := hb
  have hn : encodeName (.str dev) = .ok n := hn
  have hh : hw.length = 6 := hh
  unfold encodeName at hn
  split at hn
  · rename_i he
    injection he with he
    subst he
    split at hn
    · simp only [ok_inj] at hn; subst hn; omega
    · cases hn
  · cases hn

/-- An addition with a name that is too long, or an address that is not six bytes. -/
theorem add_fails {st : St} (hst : Tidy st) (hl : st.lastNo + 1 ≠ 0xfffffffe) {dev mac hw : Bytes}
    (hdev : 16 < dev.length ∨ hw.length ≠ 6) (hmac : a2bHex (mac.take 12) = .ok hw) (s : Option Nat) (o : Order) (rnd : Nat) :
    step st (o, rnd, .op (.add dev mac true (some s))) =
      ({ st with lastNo := st.lastNo + 1, ports := st.ports ++ [(st.lastNo + 1, newPort (st.lastNo + 1) hw dev s)] }, [], none) := by
  have hbad := bad_port (n := st.lastNo + 1) (s := s) hdev
  have hput := put_new (v := newPort (st.lastNo + 1) hw dev s) (hst.new_no hl)
  cases hm : statusMsg rnd 0 (newPort (st.lastNo + 1) hw dev s).desc with
  | ok m => obtain ⟨b, hb⟩ := statusMsg_port hm; exact absurd hb (hbad b)
  | error e =>
    have he : addPort rnd st dev mac true (some s) = (
        { st with lastNo := st.lastNo + 1, ports := st.ports ++ [(st.lastNo + 1, newPort (st.lastNo + 1) hw dev s)] }, [], .error e) := by
      unfold addPort
      rw [if_neg hl]
      simp only [Bool.true_eq_false, if_false, hmac, hm, hput]
    simp only [step, portOp, he]

/-- C50 is false after a failed addition: an attempt to add a port with a name of more than 16 bytes, or an address of other than six
bytes, raises an exception, but the port stays in the table, and whatever happens later, no request for the ports is ever answered
again. -/
theorem C50_ghost_refuted (st : St) (hst : Tidy st) (hl : st.lastNo + 1 ≠ 0xfffffffe) (dev mac hw : Bytes)
    (hdev : 16 < dev.length ∨ hw.length ≠ 6) (hmac : a2bHex (mac.take 12) = .ok hw) (s : Option Nat) (o0 : Order) (rnd0 : Nat)
    (hs : List Happening) (o : Order) (rnd : Nat) (m : Bytes) (ht : u8 m 1 = 18) (hm : u16 m 8 = 13) :
    (step st (o0, rnd0, .op (.add dev mac true (some s)))).2 = ([], none) ∧
    ∃ e, switchProc o rnd (after st ((o0, rnd0, .op (.add dev mac true (some s))) :: hs)) m = .error e := by
  have hf := add_fails hst hl hdev hmac s o0 rnd0
  refine ⟨by rw [hf], ?_⟩
  have hg : Ghost (step st (o0, rnd0, .op (.add dev mac true (some s)))).1 := by
    rw [hf]
    exact ⟨(st.lastNo + 1, newPort (st.lastNo + 1) hw dev s), by simp, bad_port hdev⟩
  obtain ⟨g, hgm, hb⟩ := ghost_after (step_tidy st hst _) hg hs
  show ∃ e, switchProc o rnd (after (step st _).1 hs) m = .error e
  cases h : switchProc o rnd (after (step st (o0, rnd0, .op (.add dev mac true (some s)))).1 hs) m with
  | error e => exact ⟨e, rfl⟩
  | ok x =>
    obtain ⟨b, hb'⟩ := (ports_answer ht hm h).1 g hgm
    exact absurd hb' (hb b)

/-- The agent at its start meets the hypotheses: a name of 17 bytes. -/
example : Tidy (start none none) ∧ (start none none).lastNo + 1 ≠ 0xfffffffe ∧
    a2bHex ([48, 48, 49, 49, 50, 50, 97, 97, 98, 98, 70, 70].take 12) = .ok [0, 0x11, 0x22, 0xaa, 0xbb, 0xff] ∧
    16 < (List.replicate 17 (65 : UInt8)).length := ⟨tidy_start _ _, by decide, by decide, by decide⟩

theorem flowRec_length {f : Flow} {b : Bytes} (h : buildRec (flowRec f) = .ok b) : 56 ≤ b.length := by
  simp only [flowRec, buildRec, obj, bind_ok, pyAssert_ok, exists_const, ok_inj] at h
  obtain ⟨is, _, mb, hm, hd, _, hl, rfl⟩ := h
  obtain ⟨_, rfl⟩ := match_ok hm
  rw [hl]
  have : 8 ∣ (enc [H, H] [.int (f.mt.type.getD 1), .int (4 + f.mt.fields.length)] ++ fill8 4 f.mt.fields).length := by
    simp only [buildMatch, bind_ok, pyAssert_ok, pack_eq_ok, ok_inj, exists_const] at hm
    obtain ⟨_, _, _, _, h8, e⟩ := hm
    rw [← e]
    exact Nat.dvd_of_mod_eq_zero h8
  have h4 : 4 ≤ (enc [H, H] [.int (f.mt.type.getD 1), .int (4 + f.mt.fields.length)] ++ fill8 4 f.mt.fields).length := by
    simp [enc]
    omega
  omega

theorem join_flows {l : List (Nat × Flow)} {b : Bytes} (h : join buildRec (l.map fun f => .tup (flowRec f.2)) = .ok b) :
    56 * l.length ≤ b.length := by
  induction l generalizing b with
  | nil => simp
  | cons a l ih =>
    rw [List.map_cons, join_ok_cons] at h
    obtain ⟨x, y, h1, h2, rfl⟩ := h
    have := ih h2
    have := flowRec_length h1
    simp only [List.length_cons, List.length_append]
    omega

/-- C50 is false with many flows: from 1170 flows on, no request for the flows is answered (the reply would have to be split). -/
theorem C50_many_flows_refuted (o : Order) (rnd : Nat) (st : St) (m : Bytes) (ht : u8 m 1 = 18) (hm : u16 m 8 = 1)
    (hn : 1170 ≤ st.flows.length) : ∃ e, switchProc o rnd st m = .error e := by
  cases h : switchProc o rnd st m with
  | error e => exact ⟨e, rfl⟩
  | ok x =>
    exfalso
    obtain ⟨st', es⟩ := x
    obtain ⟨r, hes, hr⟩ := ((C50_answers_partial o rnd st st' m es h).1 19 (by simp [replyType, ht, hm])).2
    simp only [switchProc, bind_ok] at h
    obtain ⟨msg, hp, h⟩ := h
    obtain ⟨_, _, hh, _⟩ := parse_hdr hp
    have ht' : (hdrOf msg).type = 18 := by rw [hh]; exact ht
    cases does_of h with
    | answer hd0 type fl bd body hd r h5 hb h6 h7 =>
      obtain ⟨e1, _, _⟩ := mpRequest_type hp h5
      rw [hm] at e1
      subst e1
      unfold mpBody at hb
      rw [if_pos rfl] at hb
      simp only [bind_ok, ok_inj, Option.some.injEq] at hb
      obtain ⟨d, hd, rfl⟩ := hb
      have := join_flows hd
      rw [(o.perm st.flows).length_eq] at this
      simp only [buildMpReply, bind_ok, pack_eq_ok] at h7
      obtain ⟨b, hb, x, ⟨hf, rfl⟩, h7⟩ := h7
      have hb : join buildRec [.raw d] = .ok b := hb
      simp [join, obj, bind, Except.bind] at hb
      obtain ⟨hf2, _⟩ := ofp_one h7
      simp [fits, hdrFmt, enc] at hf2
      subst hb
      omega
    | features _ _ _ h5 => omega
    | config _ _ _ h5 => omega
    | role hd0 _ _ _ _ h5 => simp only [hdrOf] at ht'; omega
    | flow => cases hes
    | ignore => cases hes
    | packet hd0 _ _ _ _ _ _ h5 => simp only [hdrOf] at ht'; omega
    | quiet _ h5 => omega

end Twink.Agent
