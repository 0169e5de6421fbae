import Verif.Props.AgentReply
import Mathlib.Algebra.BigOperators.Group.List.Basic

/-!
# C50, exactly which messages the software switch handles

`switch_proc` of bess_of_agent.py runs on the thread that reads the connection, and nothing catches its exceptions: a message that is not handled ends the thread.
-/

namespace Twink.Agent
open Of13 Spec Fmt

/-! ## Specification -/

/-- The number of bytes of a flow in a reply, 0 if the reply for it cannot be built. -/
def flowSize (f : Flow) : Nat :=
  match buildRec (flowRec f) with
  | .ok b => b.length
  | .error _ => 0

/-- The flows fit into one reply. -/
def FlowsFit (st : St) : Prop :=
  (∀ f ∈ st.flows, ∃ b, buildRec (flowRec f.2) = .ok b) ∧ 16 + (st.flows.map fun f => flowSize f.2).sum < 65536

/-- The ports fit into one reply. -/
def PortsFit (st : St) : Prop :=
  (∀ e ∈ st.ports, ∃ b, buildPort e.2.desc = .ok b) ∧ 16 + 64 * st.ports.length < 65536

/-- The messages that the switch handles. -/
inductive Served (st : St) : Msg → Prop
  | plain (msg : Msg) (h : (hdrOf msg).type ∈ [0, 5, 7, 9, 20, 24]) : Served st msg
  | flow (hd : Hdr) (c cm tb cmd i hr p b op og f : Nat) (mt : MatchT) (is : List Instr) (ht : hd.type = 14)
      (hc : ∀ f, (c, f) ∉ st.flows) : Served st (.flowMod hd c cm tb cmd i hr p b op og f mt is)
  | packet (hd : Hdr) (b i l : Nat) (ty ln : Option Nat) (port ml : Nat) (as : List Action) (d : Bytes) (ht : hd.type = 13)
      (hp : ∃ p, (port, p) ∈ st.ports) : Served st (.packetOut hd b i l (.output ty ln port ml :: as) d)
  | ask (hd : Hdr) (type fl : Nat) (bd : Body) (ht : hd.type = 18) (hf : type = 1 → FlowsFit st) (hp : type = 13 → PortsFit st) :
      Served st (.mpRequest hd type fl bd)

/-! ## Proof -/

theorem join_flows_iff (l : List (Nat × Flow)) :
    (∀ b, join buildRec (l.map fun f => .tup (flowRec f.2)) = .ok b → b.length = (l.map fun f => flowSize f.2).sum) ∧
    ((∃ b, join buildRec (l.map fun f => .tup (flowRec f.2)) = .ok b) ↔ ∀ f ∈ l, ∃ b, buildRec (flowRec f.2) = .ok b) := by
  induction l with
  | nil => exact ⟨fun b h => by cases h; rfl, by simp [join]⟩
  | cons a l ih =>
    refine ⟨fun b h => ?_, ⟨fun ⟨b, h⟩ => ?_, fun h => ?_⟩⟩
    · rw [List.map_cons, join_ok_cons] at h
      obtain ⟨x, y, h1, h2, rfl⟩ := h
      have h1 : buildRec (flowRec a.2) = .ok x := h1
      have e : flowSize a.2 = x.length := by unfold flowSize; rw [h1]
      rw [List.length_append, ih.1 y h2, List.map_cons, List.sum_cons, e]
    · rw [List.map_cons, join_ok_cons] at h
      obtain ⟨x, y, h1, h2, rfl⟩ := h
      intro f hf
      rcases List.mem_cons.1 hf with rfl | hf
      · exact ⟨x, h1⟩
      · exact ih.2.1 ⟨y, h2⟩ f hf
    · obtain ⟨x, hx⟩ := h a (by simp)
      obtain ⟨y, hy⟩ := ih.2.2 fun f hf => h f (by simp [hf])
      exact ⟨x ++ y, by rw [List.map_cons, join_ok_cons]; exact ⟨x, y, hx, hy, rfl⟩⟩

/-- A reply made of one piece. -/
theorem mpReply_piece {rnd x type : Nat} (hx : x < 2 ^ 32) (ht : type = 1 ∨ type = 13) (d : Bytes) :
    (∃ r, buildMpReply rnd (.raw (ofHeader 4 19 0 x)) type 0 (.many [.raw d]) = .ok r) ↔ 16 + d.length < 65536 := by
  have hb : repBody type (.many [.raw d]) = .ok d := by
    rcases ht with rfl | rfl <;> (show join _ [.raw d] = _; simp [join, obj, bind, Except.bind])
  refine ⟨fun ⟨r, h⟩ => ?_, fun h => mp_make rnd x type _ d hx (by omega) hb h⟩
  simp only [buildMpReply, bind_ok, pack_eq_ok] at h
  obtain ⟨b, hb', _, ⟨hf, rfl⟩, h⟩ := h
  rw [hb, ok_inj] at hb'
  subst hb'
  obtain ⟨hf2, _⟩ := ofp_one h
  simp [fits, hdrFmt, enc] at hf2
  omega

theorem parse_role {m : Bytes} {msg : Msg} (hp : parse m 0 = .ok msg) (ht : (hdrOf msg).type = 24) :
    ∃ hd r g, msg = .role hd r g ∧ r < 2 ^ 32 ∧ g < 2 ^ 64 := by
  obtain ⟨_, _, hh, h⟩ := parse_hdr hp
  rw [hh] at ht
  have ht : u8 m 1 = 24 := ht
  rw [ht] at h
  have h : parseRole m 0 = .ok msg := h
  unfold parseRole at h
  simp only [bind_ok, Prod.exists, ok_inj] at h
  obtain ⟨hd, o, _, r, o', h1, rfl⟩ := h
  obtain ⟨_, hl, h2⟩ := rd_ok h1
  obtain ⟨a, g, e, e2⟩ := two_some h2
  refine ⟨hd, a, g, e2.symm, ?_⟩
  simp [calcsize, Item.width] at hl
  simp [dec] at e
  have h3 := decBE_lt ((m.drop o).take 4)
  have h4 := decBE_lt ((m.drop (o + 8)).take 8)
  simp at h3 h4
  rw [show min 4 (m.length - o) = 4 by omega] at h3
  rw [show min 8 (m.length - (o + 8)) = 8 by omega] at h4
  have e3 := e.1
  have e4 := e.2
  subst e3
  rw [← e4]
  constructor
  · omega
  · simpa using h4

theorem lookup_iff {ports : List (Nat × OfPort)} {k : Nat} : (∃ p, ports.lookup k = some p) ↔ ∃ p, (k, p) ∈ ports := by
  induction ports with
  | nil => simp
  | cons a l ih =>
    obtain ⟨j, q⟩ := a
    by_cases h : k = j
    · subst h; simp
    · rw [List.lookup_cons, show (k == j) = false by simp [h]]
      simp only [List.mem_cons, Prod.mk.injEq, h, false_and, false_or]
      exact ih

theorem packetOutStep_iff {st : St} {as : List Action} {d : Bytes} :
    (∃ es, packetOutStep st as d = .ok es) ↔ ∃ ty ln port ml r, as = .output ty ln port ml :: r ∧ ∃ p, (port, p) ∈ st.ports := by
  constructor
  · rintro ⟨es, h⟩
    unfold packetOutStep at h
    rw [bind_ok] at h
    obtain ⟨n, hn, h⟩ := h
    unfold firstPort at hn
    split at hn
    · cases hn
    · cases hn
      refine ⟨_, _, _, _, _, rfl, lookup_iff.1 ?_⟩
      split at h
      · cases h
      · exact ⟨_, by assumption⟩
    · cases hn
  · rintro ⟨ty, ln, port, ml, r, rfl, h⟩
    obtain ⟨p, hp⟩ := lookup_iff.2 h
    unfold packetOutStep
    simp only [firstPort, ok_bind, hp]
    split <;> exact ⟨_, rfl⟩

/-- What is asked of the tables. -/
theorem mp_iff {o : Order} {rnd x : Nat} {st : St} (hx : x < 2 ^ 32) (type : Nat) :
    (mpBody o st type = .ok none ∨ ∃ body h r, mpBody o st type = .ok (some body) ∧ replyHdr rnd 19 x = .ok h ∧
      buildMpReply rnd h type 0 body = .ok r) ↔ (type = 1 → FlowsFit st) ∧ (type = 13 → PortsFit st) := by
  have hh := replyHdr_make (rnd := rnd) (t := 19) (by omega) hx
  by_cases h1 : type = 1
  · subst h1
    have hj := join_flows_iff (o.items st.flows)
    have hs : ((o.items st.flows).map fun f => flowSize f.2).sum = (st.flows.map fun f => flowSize f.2).sum :=
      ((o.perm st.flows).map _).sum_eq
    have hm : ∀ f, f ∈ o.items st.flows ↔ f ∈ st.flows := fun f => (o.perm st.flows).mem_iff
    have hb : mpBody o st 1 = (join buildRec ((o.items st.flows).map fun f => .tup (flowRec f.2)) >>= fun d => .ok (some (.many [.raw d]))) := rfl
    rw [hb]
    simp only [forall_const, show ¬ (1 = 13) by decide, IsEmpty.forall_iff, and_true]
    constructor
    · rintro (h | ⟨body, h, r, h2, h3, h4⟩)
      · simp only [bind_ok] at h; obtain ⟨d, _, h⟩ := h; cases h
      · simp only [bind_ok, ok_inj, Option.some.injEq] at h2
        obtain ⟨d, hd, rfl⟩ := h2
        rw [hh] at h3
        cases h3
        have := (mpReply_piece hx (.inl rfl) d).1 ⟨r, h4⟩
        rw [hj.1 d hd, hs] at this
        exact ⟨fun f hf => hj.2.1 ⟨d, hd⟩ f ((hm f).2 hf), this⟩
    · rintro ⟨h2, h3⟩
      obtain ⟨d, hd⟩ := hj.2.2 fun f hf => h2 f ((hm f).1 hf)
      obtain ⟨r, hr⟩ := (mpReply_piece (rnd := rnd) hx (.inl rfl) d).2 (by rw [hj.1 d hd, hs]; exact h3)
      exact .inr ⟨_, _, r, by rw [hd, ok_bind], hh, hr⟩
  by_cases h13 : type = 13
  · subst h13
    have hm : ∀ f, f ∈ o.items st.ports ↔ f ∈ st.ports := fun f => (o.perm st.ports).mem_iff
    have hb : mpBody o st 13 = (join buildPort ((o.items st.ports).map fun f => .tup f.2.desc) >>= fun d => .ok (some (.many [.raw d]))) := rfl
    rw [hb]
    simp only [forall_const, show ¬ (13 = 1) by decide, IsEmpty.forall_iff, true_and]
    constructor
    · rintro (h | ⟨body, h, r, h2, h3, h4⟩)
      · simp only [bind_ok] at h; obtain ⟨d, _, h⟩ := h; cases h
      · rw [hb.symm] at h2
        obtain ⟨_, _, h5⟩ := portDesc_bytes h2 h3 h4
        rw [(o.perm st.ports).length_eq] at h5
        refine ⟨fun e he => ?_, h5⟩
        rw [hb] at h2
        simp only [bind_ok, ok_inj, Option.some.injEq] at h2
        obtain ⟨d, hd, rfl⟩ := h2
        have he := (hm e).2 he
        clear h4 h5 hb hm
        generalize o.items st.ports = l at hd he
        induction l generalizing d with
        | nil => cases he
        | cons a l ih =>
          rw [List.map_cons, join_ok_cons] at hd
          obtain ⟨x, y, h1, h2, _⟩ := hd
          rcases List.mem_cons.1 he with rfl | he
          · exact ⟨x, h1⟩
          · exact ih y h2 he
    · rintro ⟨h2, h3⟩
      obtain ⟨d, hd⟩ := join_make (f := buildPort) (l := (o.items st.ports).map fun e => e.2.desc) (by
        intro a ha
        obtain ⟨e, he, rfl⟩ := List.mem_map.1 ha
        exact h2 e ((hm e).1 he))
      obtain ⟨_, hl, _⟩ := join_ports hd
      rw [List.length_map, (o.perm st.ports).length_eq] at hl
      rw [List.map_map] at hd
      simp only [Function.comp_def] at hd
      obtain ⟨r, hr⟩ := (mpReply_piece (rnd := rnd) hx (.inr rfl) d).2 (by rw [hl]; exact h3)
      exact .inr ⟨_, _, r, by rw [hd, ok_bind], hh, hr⟩
  simp only [h1, h13, IsEmpty.forall_iff, and_self, iff_true]
  by_cases h0 : type = 0
  · subst h0
    obtain ⟨r, hr⟩ := mp_make rnd x 0 (.raw descBytes) descBytes hx (by omega) rfl (by rw [desc_ok.2]; omega)
    refine .inr ⟨_, _, r, ?_, hh, hr⟩
    unfold mpBody
    rw [if_neg (by decide), if_neg (by decide), if_pos rfl, desc_ok.1, ok_bind]
  · left
    unfold mpBody
    rw [if_neg h1, if_neg h13, if_neg h0]

/-- **C50, exactly which messages are handled.** The software switch handles a message, and then answers it if it is a request, if and only if the message can be
parsed as one of OpenFlow 1.3, and it is a hello, a request for the features or the configuration, a setting of the configuration, a barrier request, or a request for
a role; or a flow mod whose cookie no flow has; or a packet out whose first action is to output to a port there is; or a multipart request, if the flows or ports that
it asks for fit into one reply.  Every other message raises an exception in the thread that reads the connection. -/
theorem C50_exact (o : Order) (rnd : Nat) (st : St) (m : Bytes) :
    (∃ r, switchProc o rnd st m = .ok r) ↔ ∃ msg, parse m 0 = .ok msg ∧ Served st msg := by
  constructor
  · rintro ⟨⟨st', es⟩, h⟩
    simp only [switchProc, bind_ok] at h
    obtain ⟨msg, hp, h⟩ := h
    refine ⟨msg, hp, ?_⟩
    have hx : (hdrOf msg).xid < 2 ^ 32 := by rw [(parse_hdr hp).2.2.1]; exact u32_lt m 4
    cases does_of h with
    | features _ _ _ h5 => exact .plain _ (by simp [h5])
    | config _ _ _ h5 => exact .plain _ (by simp [h5])
    | role _ _ _ _ _ h5 => exact .plain _ (by simp [hdrOf, h5])
    | flow hd c cm tb cmd i hr p b op og f mt is ht hc =>
      exact .flow hd c cm tb cmd i hr p b op og f mt is ht fun f hf => hc (List.mem_map.2 ⟨_, hf, rfl⟩)
    | answer hd type fl bd body ha r ht hb hh hr =>
      have := (mp_iff (o := o) (rnd := rnd) (st := st) hx type).1 (.inr ⟨body, ha, r, hb, hh, hr⟩)
      exact .ask hd type fl bd ht this.1 this.2
    | ignore hd type fl bd ht hb =>
      have := (mp_iff (o := o) (rnd := rnd) (st := st) hx type).1 (.inl hb)
      exact .ask hd type fl bd ht this.1 this.2
    | packet hd b i l as d es ht hp =>
      obtain ⟨ty, ln, port, ml, r, rfl, hp'⟩ := packetOutStep_iff.1 ⟨es, hp⟩
      exact .packet hd b i l ty ln port ml r d ht hp'
    | quiet _ h5 => exact .plain _ (by rcases h5 with h5 | h5 | h5 <;> simp [h5])
  · rintro ⟨msg, hp, h⟩
    have hx : (hdrOf msg).xid < 2 ^ 32 := by rw [(parse_hdr hp).2.2.1]; exact u32_lt m 4
    rw [switchProc_of hp]
    cases h with
    | plain _ h =>
      unfold switchMsg
      simp only [List.mem_cons, List.not_mem_nil, or_false] at h
      rcases h with h | h | h | h | h | h
      · simp [h]
      · obtain ⟨r, hr⟩ := features_make rnd _ hx
        simp only [h, if_true]
        exact ⟨_, by rw [replyHdr_make (by omega) hx, ok_bind, hr, ok_bind]⟩
      · obtain ⟨r, hr⟩ := config_make rnd _ hx
        simp only [h, if_true]
        rw [if_neg (by decide)]
        exact ⟨_, by rw [replyHdr_make (by omega) hx, ok_bind, hr, ok_bind]⟩
      · simp [h]
      · simp [h]
      · obtain ⟨hd, a, g, rfl, ha, hg⟩ := parse_role hp h
        obtain ⟨r, hr⟩ := role_make rnd _ a g hx ha hg
        simp only [h, if_true]
        rw [if_neg (by decide), if_neg (by decide)]
        exact ⟨_, by rw [replyHdr_make (by omega) hx, ok_bind, hr, ok_bind]⟩
    | flow hd c cm tb cmd i hr p b op og f mt is ht hc =>
      unfold switchMsg
      simp only [hdrOf, ht, if_true]
      rw [if_neg (by decide), if_neg (by decide), if_neg (by decide)]
      unfold flowModStep
      rw [if_neg (by
        intro h
        obtain ⟨e, he, hk⟩ := List.any_eq_true.1 h
        simp only [beq_iff_eq] at hk
        exact hc e.2 (by rw [← hk]; exact he)), ok_bind]
      exact ⟨_, rfl⟩
    | packet hd b i l ty ln port ml as d ht hp' =>
      obtain ⟨es, he⟩ := (packetOutStep_iff (d := d)).2 ⟨ty, ln, port, ml, as, rfl, hp'⟩
      unfold switchMsg
      simp only [hdrOf, ht, if_true]
      rw [if_neg (by decide), if_neg (by decide), if_neg (by decide), if_neg (by decide), if_neg (by decide), he, ok_bind]
      exact ⟨_, rfl⟩
    | ask hd type fl bd ht hf hp' =>
      have hx' : hd.xid < 2 ^ 32 := hx
      unfold switchMsg
      simp only [hdrOf, ht, if_true]
      rw [if_neg (by decide), if_neg (by decide), if_neg (by decide), if_neg (by decide)]
      rcases (mp_iff (o := o) (rnd := rnd) (st := st) hx' type).2 ⟨hf, hp'⟩ with h | ⟨body, h, r, h1, h2, h3⟩
      · rw [h, ok_bind]; exact ⟨_, rfl⟩
      · rw [h1, ok_bind]
        simp only
        rw [h2, ok_bind, h3, ok_bind]
        exact ⟨_, rfl⟩

/-- At the start the switch describes its ports. -/
example : PortsFit (start none none) ∧ FlowsFit (start none none) := by
  refine ⟨⟨fun e he => ?_, by decide⟩, by simp [FlowsFit, start]⟩
  simp only [start, List.mem_cons, List.not_mem_nil, or_false] at he
  rcases he with rfl | rfl | rfl <;> exact buildPort_make (by simp [GoodPort])

end Twink.Agent
