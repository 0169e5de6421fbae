import Verif.Spec.Agent
import Verif.Props.Of13
import Verif.Props.Ports

/-!
# Properties of the software switch: C50 to C53, C61, C62
-/

namespace Twink.Agent
open Of13 Spec

/-! ## C52: the port table -/

/-- What holds of the port table at all times. -/
structure Tidy (st : St) : Prop where
  keys : (st.ports.map Prod.fst).Nodup
  own : ∀ e ∈ st.ports, e.2.desc.portNo = e.1
  low : ∀ e ∈ st.ports, e.1 ≤ st.lastNo ∨ e.1 = 0xfffffffe
  last : st.lastNo < 0xfffffffe

theorem tidy_start (a b : Option Nat) : Tidy (start a b) := by
  constructor
  · show [0xfffffffe, 1, 2].Nodup
    decide
  · intro e he; simp [start] at he; rcases he with rfl | rfl | rfl <;> rfl
  · intro e he; simp [start] at he; rcases he with rfl | rfl | rfl <;> simp [start]
  · show 2 < 0xfffffffe; decide

theorem put_new {d : List (Nat × α)} {k : Nat} {v : α} (h : k ∉ d.map Prod.fst) : put d k v = d ++ [(k, v)] := by
  unfold put
  rw [if_neg]
  intro h'
  rw [List.any_eq_true] at h'
  obtain ⟨e, he, hk⟩ := h'
  exact h (List.mem_map.2 ⟨e, he, eq_of_beq hk⟩)

theorem Tidy.new_no {st : St} (h : Tidy st) (hl : st.lastNo + 1 ≠ 0xfffffffe) : st.lastNo + 1 ∉ st.ports.map Prod.fst := by
  intro hm
  obtain ⟨e, he, hk⟩ := List.mem_map.1 hm
  have := h.last
  rcases h.low e he with h1 | h1 <;> omega

theorem tidy_bump {st : St} (h : Tidy st) (hl : st.lastNo + 1 ≠ 0xfffffffe) : Tidy { st with lastNo := st.lastNo + 1 } :=
  ⟨h.keys, h.own, fun e he => (h.low e he).imp_left (by intro h; show e.1 ≤ st.lastNo + 1; omega), by
    have := h.last; show st.lastNo + 1 < 0xfffffffe; omega⟩

theorem tidy_add {st : St} (h : Tidy st) (hl : st.lastNo + 1 ≠ 0xfffffffe) (hw dev : Bytes) (s : Option Nat) :
    Tidy { st with lastNo := st.lastNo + 1, ports := put st.ports (st.lastNo + 1) (newPort (st.lastNo + 1) hw dev s) } := by
  have hn := h.new_no hl
  have hb := tidy_bump h hl
  refine ⟨?_, ?_, ?_, hb.last⟩
  · show ((put _ _ _).map Prod.fst).Nodup
    rw [put_new hn, List.map_append, List.nodup_append]
    refine ⟨h.keys, by simp, ?_⟩
    intro a ha b hb e
    simp at hb
    subst hb; subst e
    exact hn ha
  · intro e he
    have he : e ∈ put st.ports (st.lastNo + 1) (newPort (st.lastNo + 1) hw dev s) := he
    rw [put_new hn] at he
    rcases List.mem_append.1 he with he | he
    · exact h.own e he
    · simp at he; subst he; rfl
  · intro e he
    have he : e ∈ put st.ports (st.lastNo + 1) (newPort (st.lastNo + 1) hw dev s) := he
    rw [put_new hn] at he
    rcases List.mem_append.1 he with he | he
    · exact hb.low e he
    · simp at he; subst he; left; exact Nat.le_refl _

theorem tidy_del {st : St} (h : Tidy st) (n : Nat) : Tidy { st with ports := del st.ports n } := by
  refine ⟨?_, ?_, ?_, h.last⟩
  · exact h.keys.sublist ((List.filter_sublist).map _)
  · exact fun e he => h.own e (List.mem_filter.1 he).1
  · exact fun e he => h.low e (List.mem_filter.1 he).1

/-- The cases of adding a port. -/
theorem addPort_cases (rnd : Nat) (st : St) (dev mac : Bytes) (c : Bool) (s : Option (Option Nat)) :
    (st.lastNo + 1 = 0xfffffffe ∧ addPort rnd st dev mac c s = (st, [], .ok .refused)) ∨
    (st.lastNo + 1 ≠ 0xfffffffe ∧ ∃ e, addPort rnd st dev mac c s = ({ st with lastNo := st.lastNo + 1 }, [], .error e)) ∨
    (st.lastNo + 1 ≠ 0xfffffffe ∧ ∃ hw sk, c = true ∧ s = some sk ∧ a2bHex (mac.take 12) = .ok hw ∧
      (∃ e, statusMsg rnd 0 (newPort (st.lastNo + 1) hw dev sk).desc = .error e ∧ addPort rnd st dev mac c s =
        ({ st with lastNo := st.lastNo + 1, ports := put st.ports (st.lastNo + 1) (newPort (st.lastNo + 1) hw dev sk) }, [], .error e) ∨
      ∃ m, statusMsg rnd 0 (newPort (st.lastNo + 1) hw dev sk).desc = .ok m ∧ addPort rnd st dev mac c s =
        ({ st with lastNo := st.lastNo + 1, ports := put st.ports (st.lastNo + 1) (newPort (st.lastNo + 1) hw dev sk) }, [.send m],
          .ok (.added (st.lastNo + 1))))) := by
  unfold addPort
  by_cases hl : st.lastNo + 1 = 0xfffffffe
  · left; exact ⟨hl, if_pos hl⟩
  · right
    rw [if_neg hl]
    cases c with
    | false => left; exact ⟨hl, _, rfl⟩
    | true =>
      cases s with
      | none => left; exact ⟨hl, _, rfl⟩
      | some sk =>
        cases hx : a2bHex (mac.take 12) with
        | error e => left; exact ⟨hl, e, by simp⟩
        | ok hw =>
          right
          refine ⟨hl, hw, sk, rfl, rfl, rfl, ?_⟩
          cases hm : statusMsg rnd 0 (newPort (st.lastNo + 1) hw dev sk).desc with
          | error e => exact ⟨e, Or.inl ⟨rfl, by simp [hm]⟩⟩
          | ok m => exact ⟨.other, Or.inr ⟨m, rfl, by simp [hm]⟩⟩

/-- The cases of deleting a port. -/
theorem delPort_cases (o : Order) (rnd : Nat) (st : St) (dev : Bytes) (d : Bool) :
    ((∀ e ∈ st.ports, e.2.desc.name ≠ .str dev) ∧ delPort o rnd st dev d = (st, [], .ok .notFound)) ∨
    ∃ e ∈ st.ports, e.2.desc.name = .str dev ∧
      ((∃ x, statusMsg rnd 1 e.2.desc = .error x ∧ delPort o rnd st dev d = (st, [], .error x)) ∨
       ∃ m, statusMsg rnd 1 e.2.desc = .ok m ∧
        ((d = false ∧ delPort o rnd st dev d = (st, [.send m], .error .other)) ∨
         (d = true ∧ delPort o rnd st dev d = ({ st with ports := del st.ports e.1 }, [.send m], .ok (.deleted e.1))))) := by
  unfold delPort
  cases hf : (o.items st.ports).find? (fun p => p.2.desc.name = .str dev) with
  | none =>
    left
    rw [List.find?_eq_none] at hf
    refine ⟨fun e he => ?_, rfl⟩
    simpa using hf e ((o.perm st.ports).mem_iff.2 he)
  | some e =>
    right
    have h1 := (o.perm st.ports).mem_iff.1 (List.mem_of_find?_eq_some hf)
    have h2 : e.2.desc.name = .str dev := by simpa using List.find?_some hf
    refine ⟨e, h1, h2, ?_⟩
    cases hm : statusMsg rnd 1 e.2.desc with
    | error x => left; exact ⟨x, rfl, by simp [hm]⟩
    | ok m =>
      right
      refine ⟨m, rfl, ?_⟩
      cases d with
      | false => left; exact ⟨rfl, by simp [hm]⟩
      | true => right; exact ⟨rfl, by simp [hm]⟩

theorem portOp_tidy (o : Order) (rnd : Nat) (st : St) (h : Tidy st) (a : Op) : Tidy (portOp o rnd st a).1 := by
  cases a with
  | add dev mac c s =>
    rcases addPort_cases rnd st dev mac c s with ⟨_, he⟩ | ⟨hl, e, he⟩ | ⟨hl, hw, sk, _, _, _, e, ⟨_, he⟩ | ⟨m, _, he⟩⟩ <;>
      rw [portOp, he]
    · exact h
    · exact tidy_bump h hl
    · exact tidy_add h hl hw dev sk
    · exact tidy_add h hl hw dev sk
  | del dev d =>
    rcases delPort_cases o rnd st dev d with ⟨_, he⟩ | ⟨e, _, _, ⟨_, _, he⟩ | ⟨m, _, ⟨_, he⟩ | ⟨_, he⟩⟩⟩ <;> rw [portOp, he]
    · exact h
    · exact h
    · exact h
    · exact tidy_del h _

theorem flowModStep_ok {st st' : St} {f : Flow} (h : flowModStep st f = .ok st') :
    f.cookie ∉ st.flows.map Prod.fst ∧ st' = { st with flows := st.flows ++ [(f.cookie, f)] } := by
  unfold flowModStep at h
  split at h
  · cases h
  · rename_i hn
    have hc : f.cookie ∉ st.flows.map Prod.fst := by
      intro hm
      obtain ⟨e, he, hk⟩ := List.mem_map.1 hm
      exact hn (List.any_eq_true.2 ⟨e, he, by simp [hk]⟩)
    rw [ok_inj, put_new hc] at h
    exact ⟨hc, h.symm⟩

/-- What a message does. -/
inductive Does (o : Order) (rnd : Nat) (st : St) : Msg → St → List Eff → Prop
  | features (msg : Msg) (h : HdrArg) (r : Bytes) (ht : (hdrOf msg).type = 5) (hh : replyHdr rnd 6 (hdrOf msg).xid = .ok h)
      (hr : buildFeatures rnd h 1 2 3 0 0xf = .ok r) : Does o rnd st msg st [.send r]
  | config (msg : Msg) (h : HdrArg) (r : Bytes) (ht : (hdrOf msg).type = 7) (hh : replyHdr rnd 8 (hdrOf msg).xid = .ok h)
      (hr : buildConfig rnd h 0 (some 0xffe5) = .ok r) : Does o rnd st msg st [.send r]
  | role (hd : Hdr) (a g : Nat) (h : HdrArg) (r : Bytes) (ht : hd.type = 24) (hh : replyHdr rnd 25 hd.xid = .ok h)
      (hr : buildRole rnd h a g = .ok r) : Does o rnd st (.role hd a g) st [.send r]
  | flow (hd : Hdr) (c cm tb cmd i hr p b op og f : Nat) (mt : MatchT) (is : List Instr) (ht : hd.type = 14)
      (hc : c ∉ st.flows.map Prod.fst) : Does o rnd st (.flowMod hd c cm tb cmd i hr p b op og f mt is)
        { st with flows := st.flows ++ [(c, ⟨tb, p, i, hr, f, c, mt, is⟩)] } []
  | answer (hd : Hdr) (type fl : Nat) (bd body : Body) (h : HdrArg) (r : Bytes) (ht : hd.type = 18)
      (hb : mpBody o st type = .ok (some body)) (hh : replyHdr rnd 19 hd.xid = .ok h)
      (hr : buildMpReply rnd h type 0 body = .ok r) : Does o rnd st (.mpRequest hd type fl bd) st [.send r]
  | ignore (hd : Hdr) (type fl : Nat) (bd : Body) (ht : hd.type = 18) (hb : mpBody o st type = .ok none) :
      Does o rnd st (.mpRequest hd type fl bd) st []
  | packet (hd : Hdr) (b i l : Nat) (as : List Action) (d : Bytes) (es : List Eff) (ht : hd.type = 13)
      (hp : packetOutStep st as d = .ok es) : Does o rnd st (.packetOut hd b i l as d) st es
  | quiet (msg : Msg) (ht : (hdrOf msg).type = 0 ∨ (hdrOf msg).type = 9 ∨ (hdrOf msg).type = 20) : Does o rnd st msg st []

theorem does_of {o : Order} {rnd : Nat} {st st' : St} {msg : Msg} {es : List Eff} (h : switchMsg o rnd st msg = .ok (st', es)) :
    Does o rnd st msg st' es := by
  unfold switchMsg at h
  simp only at h
  by_cases h5 : (hdrOf msg).type = 5
  · rw [if_pos h5] at h
    simp only [bind_ok, ok_inj, Prod.mk.injEq] at h
    obtain ⟨a, ha, r, hr, rfl, rfl⟩ := h
    exact .features msg a r h5 ha hr
  rw [if_neg h5] at h
  by_cases h7 : (hdrOf msg).type = 7
  · rw [if_pos h7] at h
    simp only [bind_ok, ok_inj, Prod.mk.injEq] at h
    obtain ⟨a, ha, r, hr, rfl, rfl⟩ := h
    exact .config msg a r h7 ha hr
  rw [if_neg h7] at h
  by_cases h24 : (hdrOf msg).type = 24
  · rw [if_pos h24] at h
    split at h
    · simp only [bind_ok, ok_inj, Prod.mk.injEq] at h
      obtain ⟨a, ha, r, hr, rfl, rfl⟩ := h
      exact .role _ _ _ a r h24 ha hr
    · cases h
  rw [if_neg h24] at h
  by_cases h14 : (hdrOf msg).type = 14
  · rw [if_pos h14] at h
    split at h
    · simp only [bind_ok, ok_inj, Prod.mk.injEq] at h
      obtain ⟨s1, h1, rfl, rfl⟩ := h
      obtain ⟨hc, rfl⟩ := flowModStep_ok h1
      exact .flow _ _ _ _ _ _ _ _ _ _ _ _ _ _ h14 hc
    · cases h
  rw [if_neg h14] at h
  by_cases h18 : (hdrOf msg).type = 18
  · rw [if_pos h18] at h
    split at h
    · simp only [bind_ok] at h
      obtain ⟨b, hb, h⟩ := h
      cases b with
      | none =>
        simp only [ok_inj, Prod.mk.injEq] at h
        obtain ⟨rfl, rfl⟩ := h
        exact .ignore _ _ _ _ h18 hb
      | some body =>
        simp only [bind_ok, ok_inj, Prod.mk.injEq] at h
        obtain ⟨a, ha, r, hr, rfl, rfl⟩ := h
        exact .answer _ _ _ _ body a r h18 hb ha hr
    · cases h
  rw [if_neg h18] at h
  by_cases h13 : (hdrOf msg).type = 13
  · rw [if_pos h13] at h
    split at h
    · simp only [bind_ok, ok_inj, Prod.mk.injEq] at h
      obtain ⟨es', he, rfl, rfl⟩ := h
      exact .packet _ _ _ _ _ _ _ h13 he
    · cases h
  rw [if_neg h13] at h
  split at h
  · simp only [ok_inj, Prod.mk.injEq] at h
    obtain ⟨rfl, rfl⟩ := h
    rename_i hq
    exact .quiet msg hq
  · cases h

/-- Messages change the flow table only. -/
theorem switchProc_keeps {o : Order} {rnd : Nat} {st st' : St} {m : Bytes} {es : List Eff} (h : switchProc o rnd st m = .ok (st', es)) :
    st'.ports = st.ports ∧ st'.lastNo = st.lastNo := by
  simp only [switchProc, bind_ok] at h
  obtain ⟨msg, _, h⟩ := h
  cases does_of h <;> exact ⟨rfl, rfl⟩

theorem step_tidy (st : St) (h : Tidy st) (e : Happening) : Tidy (step st e).1 := by
  obtain ⟨o, rnd, ev⟩ := e
  cases ev with
  | op a =>
    have := portOp_tidy o rnd st h a
    unfold step
    simp only
    split <;> (rename_i he; rw [he] at this; exact this)
  | msg m =>
    unfold step
    simp only
    split
    · rename_i he
      obtain ⟨h1, h2⟩ := switchProc_keeps he
      exact ⟨by rw [h1]; exact h.keys, by rw [h1]; exact h.own, by rw [h1, h2]; exact h.low, by rw [h2]; exact h.last⟩
    · exact h

theorem after_tidy (st : St) (h : Tidy st) (hs : List Happening) : Tidy (after st hs) := by
  induction hs generalizing st with
  | nil => exact h
  | cons e hs ih => exact ih _ (step_tidy st h e)

/-- C52. Whatever happens, messages and calls of the port manager in any order, successful or not: no two entries of the port
table have the same number, and each entry describes the port with this number. -/
theorem C52_table (vxlan dpif : Option Nat) (hs : List Happening) :
    ((after (start vxlan dpif) hs).ports.map Prod.fst).Nodup ∧
    ∀ e ∈ (after (start vxlan dpif) hs).ports, e.2.desc.portNo = e.1 :=
  ⟨(after_tidy _ (tidy_start _ _) hs).keys, (after_tidy _ (tidy_start _ _) hs).own⟩

/-- What a step does to the last number. -/
theorem step_last (st : St) (e : Happening) :
    st.lastNo ≤ (step st e).1.lastNo ∧ ∀ r n, (step st e).2.2 = some r → r.number = some n → n = st.lastNo + 1 ∧ n ≠ 0xfffffffe ∧
      (step st e).1.lastNo = n := by
  obtain ⟨o, rnd, ev⟩ := e
  cases ev with
  | msg m =>
    unfold step
    simp only
    split
    · rename_i he
      obtain ⟨_, h2⟩ := switchProc_keeps he
      exact ⟨by rw [h2], fun r n hr => by cases hr⟩
    · exact ⟨Nat.le_refl _, fun r n hr => by cases hr⟩
  | op a =>
    unfold step
    simp only
    cases a with
    | add dev mac c s =>
      rcases addPort_cases rnd st dev mac c s with ⟨_, he⟩ | ⟨hl, e, he⟩ | ⟨hl, hw, sk, _, _, _, e, ⟨_, he⟩ | ⟨m, _, he⟩⟩ <;>
        simp only [portOp, he]
      · exact ⟨Nat.le_refl _, fun r n hr hn => by injection hr with hr; subst hr; cases hn⟩
      · exact ⟨by omega, fun r n hr => by cases hr⟩
      · exact ⟨by omega, fun r n hr => by cases hr⟩
      · refine ⟨by omega, fun r n hr hn => ?_⟩
        injection hr with hr; subst hr
        injection hn with hn; subst hn
        exact ⟨rfl, hl, rfl⟩
    | del dev d =>
      rcases delPort_cases o rnd st dev d with ⟨_, he⟩ | ⟨e, _, _, ⟨_, _, he⟩ | ⟨m, _, ⟨_, he⟩ | ⟨_, he⟩⟩⟩ <;> simp only [portOp, he]
      · exact ⟨Nat.le_refl _, fun r n hr hn => by injection hr with hr; subst hr; cases hn⟩
      · exact ⟨Nat.le_refl _, fun r n hr => by cases hr⟩
      · exact ⟨Nat.le_refl _, fun r n hr => by cases hr⟩
      · exact ⟨Nat.le_refl _, fun r n hr hn => by injection hr with hr; subst hr; cases hn⟩

theorem numbers_above (st : St) (ht : Tidy st) (hs : List Happening) :
    ((returned st hs).filterMap Ret.number).Pairwise (· < ·) ∧
    ∀ n ∈ (returned st hs).filterMap Ret.number, st.lastNo < n ∧ n < 0xfffffffe := by
  induction hs generalizing st with
  | nil => exact ⟨.nil, fun n hn => by cases hn⟩
  | cons e hs ih =>
    obtain ⟨h1, h2⟩ := ih _ (step_tidy st ht e)
    obtain ⟨h3, h4⟩ := step_last st e
    have hlow : ∀ n ∈ (returned (step st e).1 hs).filterMap Ret.number, st.lastNo < n ∧ n < 0xfffffffe := fun n hn => by
      have := h2 n hn; omega
    rw [returned, List.filterMap_append]
    cases hr : (step st e).2.2 with
    | none => exact ⟨h1, hlow⟩
    | some r =>
      cases hn : r.number with
      | none =>
        simp only [Option.toList_some, List.filterMap_cons, hn, List.filterMap_nil, List.nil_append]
        exact ⟨h1, hlow⟩
      | some n =>
        obtain ⟨e1, e2, e3⟩ := h4 r n hr hn
        have := ht.last
        simp only [Option.toList_some, List.filterMap_cons, hn, List.filterMap_nil, List.cons_append, List.nil_append]
        refine ⟨List.pairwise_cons.2 ⟨fun k hk => ?_, h1⟩, fun k hk => ?_⟩
        · have := h2 k hk; omega
        · rcases List.mem_cons.1 hk with rfl | hk
          · omega
          · exact hlow k hk

/-- C52. The numbers of added ports grow: no number is ever given twice, and none is the number of one of the three initial
ports. -/
theorem C52_fresh (vxlan dpif : Option Nat) (hs : List Happening) :
    ((returned (start vxlan dpif) hs).filterMap Ret.number).Pairwise (· < ·) ∧
    ∀ n ∈ (returned (start vxlan dpif) hs).filterMap Ret.number, 2 < n ∧ n < 0xfffffffe :=
  numbers_above _ (tidy_start _ _) hs

theorem ofpHeader_bytes {rnd t x : Nat} {b : Bytes} (h : ofpHeader rnd (some 4) (some t) (some 0) (some x) = .ok b) :
    t < 256 ∧ x < 2 ^ 32 ∧ b = ofHeader 4 t 0 x := by
  simp only [ofpHeader, bind_ok, pyAssert_ok, packOpt, pack_eq_ok, exists_const] at h
  obtain ⟨_, hf, rfl⟩ := h
  simp [fits, hdrFmt] at hf
  exact ⟨by omega, by omega, by simp [ofHeader, hdrFmt, enc, encBE_1, encBE_2, encBE_4]⟩

/-- The message about a port. -/
theorem statusMsg_parse {rnd reason : Nat} {p : PortT} {m : Bytes} (h : statusMsg rnd reason p = .ok m) :
    parse m 0 = .ok (.portStatus ⟨4, 12, m.length, 0⟩ reason p.wire) := by
  simp only [statusMsg, replyHdr, bind_ok, ok_inj] at h
  obtain ⟨_, ⟨hb, h1, rfl⟩, d, hd, h⟩ := h
  have h : buildPortStatus rnd (.raw hb) reason (.tup p) = .ok m := by
    simpa only [buildPortStatus, obj, hd] using h
  have := C44_port_status_partial rnd (.raw hb) reason p m [] [] h
  simp only [List.append_nil, List.nil_append, List.length_nil] at this
  rw [this]
  have hx : u32 hb 4 = 0 := by rw [(ofpHeader_bytes h1).2.2]; rfl
  simp only [HdrArg.xid, hx]

theorem hexDigit_spec (c v : UInt8) (h : hexDigit c = some v) : digitOf c v.toNat ∧ v.toNat < 16 := by
  unfold hexDigit at h
  unfold digitOf
  split at h
  · rename_i hc
    injection h with h; subst h
    simp only [UInt8.le_iff_toNat_le] at hc
    have h48 : (48 : UInt8).toNat = 48 := rfl
    have h57 : (57 : UInt8).toNat = 57 := rfl
    rw [UInt8.toNat_sub_of_le _ _ (UInt8.le_iff_toNat_le.2 hc.1)]
    omega
  · split at h
    · rename_i hc
      injection h with h; subst h
      simp only [UInt8.le_iff_toNat_le] at hc
      have h97 : (97 : UInt8).toNat = 97 := rfl
      have h102 : (102 : UInt8).toNat = 102 := rfl
      have h87 : (87 : UInt8).toNat = 87 := rfl
      rw [UInt8.toNat_sub_of_le _ _ (UInt8.le_iff_toNat_le.2 (by omega))]
      omega
    · split at h
      · rename_i hc
        injection h with h; subst h
        simp only [UInt8.le_iff_toNat_le] at hc
        have h65 : (65 : UInt8).toNat = 65 := rfl
        have h70 : (70 : UInt8).toNat = 70 := rfl
        have h55 : (55 : UInt8).toNat = 55 := rfl
        rw [UInt8.toNat_sub_of_le _ _ (UInt8.le_iff_toNat_le.2 (by omega))]
        omega
      · cases h

theorem a2bHex_spec (t : Bytes) : ∀ v, a2bHex t = .ok v → HexText t v := by
  induction t using a2bHex.induct with
  | case1 => intro v h; cases h; exact .nil
  | case2 => intro v h; cases h
  | case3 a b r x y hx hy ih =>
    intro v h
    rw [a2bHex] at h
    simp only [hx, hy, bind_ok, ok_inj] at h
    obtain ⟨s, hs, rfl⟩ := h
    obtain ⟨h1, h2⟩ := hexDigit_spec _ _ hx
    obtain ⟨h3, h4⟩ := hexDigit_spec _ _ hy
    refine .cons a b _ _ _ h3 h1 ?_ (ih s hs)
    rw [UInt8.toNat_add, UInt8.toNat_mul]
    show (x.toNat * 16 % 256 + y.toNat) % 256 = _
    omega
  | case4 a b r hn =>
    intro v h
    rw [a2bHex] at h
    split at h
    · rename_i hx hy
      exact (hn _ _ hx hy).elim
    · cases h

/-- C52. A successful addition: a port with the next number, the given name and address is added at the end, nothing else changes, and
exactly one PORT_STATUS message with reason ADD describes it; or all numbers are used up and nothing happens. -/
theorem C52_add (o : Order) (rnd : Nat) (st : St) (ht : Tidy st) (dev mac : Bytes) (c : Bool) (s : Option (Option Nat))
    (st' : St) (es : List Eff) (r : Ret) (h : portOp o rnd st (.add dev mac c s) = (st', es, .ok r)) :
    (r = .refused ∧ st.lastNo = 0xfffffffd ∧ st' = st ∧ es = []) ∨
    ∃ (n : Nat) (hw : Bytes) (p : OfPort) (m : Bytes), r = .added n ∧ n = st.lastNo + 1 ∧ n ∉ st.ports.map Prod.fst ∧
      HexText (mac.take 12) hw ∧ p.desc.portNo = n ∧ p.desc.hwAddr = hw ∧ p.desc.name = .str dev ∧ s = some p.sock ∧
      st' = { st with ports := st.ports ++ [(n, p)], lastNo := n } ∧
      es = [.send m] ∧ parse m 0 = .ok (.portStatus ⟨4, 12, m.length, 0⟩ 0 p.desc.wire) := by
  have h : addPort rnd st dev mac c s = (st', es, .ok r) := h
  rcases addPort_cases rnd st dev mac c s with ⟨hl, he⟩ | ⟨hl, e, he⟩ | ⟨hl, hw, sk, _, hs, hx, e, ⟨_, he⟩ | ⟨m, hm, he⟩⟩ <;>
    rw [he] at h <;> simp only [Prod.mk.injEq, ok_inj, reduceCtorEq, and_false] at h
  · obtain ⟨rfl, rfl, rfl⟩ := h
    left; exact ⟨rfl, by omega, rfl, rfl⟩
  · obtain ⟨rfl, rfl, rfl⟩ := h
    right
    have hn := ht.new_no hl
    refine ⟨st.lastNo + 1, hw, newPort (st.lastNo + 1) hw dev sk, m, rfl, rfl, hn, a2bHex_spec _ _ hx, rfl, rfl, rfl, hs, ?_, rfl,
      statusMsg_parse hm⟩
    rw [put_new hn]

/-- C52. A successful deletion: some port with the given name, and nothing else, is removed, and exactly one PORT_STATUS message with
reason DELETE describes it; or there is no such port and nothing happens. -/
theorem C52_delete (o : Order) (rnd : Nat) (st : St) (ht : Tidy st) (dev : Bytes) (d : Bool)
    (st' : St) (es : List Eff) (r : Ret) (h : portOp o rnd st (.del dev d) = (st', es, .ok r)) :
    (r = .notFound ∧ (∀ e ∈ st.ports, e.2.desc.name ≠ .str dev) ∧ st' = st ∧ es = []) ∨
    ∃ (l1 l2 : List (Nat × OfPort)) (n : Nat) (p : OfPort) (m : Bytes), r = .deleted n ∧ p.desc.name = .str dev ∧ p.desc.portNo = n ∧
      st.ports = l1 ++ (n, p) :: l2 ∧ st' = { st with ports := l1 ++ l2 } ∧
      es = [.send m] ∧ parse m 0 = .ok (.portStatus ⟨4, 12, m.length, 0⟩ 1 p.desc.wire) := by
  have h : delPort o rnd st dev d = (st', es, .ok r) := h
  rcases delPort_cases o rnd st dev d with ⟨hn, he⟩ | ⟨e, hmem, hname, ⟨_, _, he⟩ | ⟨m, hm, ⟨_, he⟩ | ⟨_, he⟩⟩⟩ <;>
    rw [he] at h <;> simp only [Prod.mk.injEq, ok_inj, reduceCtorEq, and_false] at h
  · obtain ⟨rfl, rfl, rfl⟩ := h
    left; exact ⟨rfl, hn, rfl, rfl⟩
  · obtain ⟨rfl, rfl, rfl⟩ := h
    right
    obtain ⟨n, p⟩ := e
    obtain ⟨l1, l2, hl⟩ := List.append_of_mem hmem
    refine ⟨l1, l2, n, p, m, rfl, hname, ht.own _ hmem, hl, ?_, rfl, statusMsg_parse hm⟩
    have hk := ht.keys
    rw [hl, List.map_append, List.map_cons, List.nodup_append] at hk
    obtain ⟨_, k2, k3⟩ := hk
    have e1 : del l1 n = l1 := by
      refine List.filter_eq_self.2 fun a ha => ?_
      have := k3 a.1 (List.mem_map.2 ⟨a, ha, rfl⟩) n (by simp)
      simpa using this
    have e2 : del l2 n = l2 := by
      refine List.filter_eq_self.2 fun a ha => ?_
      have := (List.nodup_cons.1 k2).1
      simp only [bne_iff_ne, ne_eq]
      intro e
      exact this (List.mem_map.2 ⟨a, ha, e⟩)
    have : del st.ports n = l1 ++ l2 := by
      rw [hl]
      unfold del at *
      rw [List.filter_append, List.filter_cons, e1, e2]
      simp
    simp only [this]

/-- An order of iteration: as inserted. -/
def inserted : Order := ⟨fun l => l, fun _ => .refl _⟩

/-- A history: a port is added, then the physical port is deleted. -/
example : returned (start none none) [(inserted, 1, .op (.add [118, 109] [48, 48, 49, 49, 50, 50, 97, 97, 98, 98, 70, 70] true (some (some 7)))),
    (inserted, 1, .op (.del [100, 112, 105, 102] true))] = [.added 3, .deleted 2] := by decide +kernel

end Twink.Agent
