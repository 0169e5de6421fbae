import Verif.Props.AgentOut
import Verif.Proof.Of13Again
import Verif.Spec.AgentFlows

/-!
# C51: the flow table of the software switch
-/

namespace Twink.Agent
open Of13 Spec Fmt

/-- The entry as the agent keeps it. -/
def Entry.kept (e : Entry) : Flow :=
  ⟨e.table, e.priority, e.idle, e.hard, e.flags, e.cookie, e.mt.wire e.mt.fields, e.instrs.values.map Instr.wire⟩

/-- The record for an entry. -/
def Entry.record (e : Entry) : Rec :=
  .flowStats none e.table 1 2 e.priority e.idle e.hard e.flags e.cookie 0 0 (.tup e.mt) e.instrs

theorem modifies_type {m : Bytes} {c : FlowCmd} (h : Modifies m c) : u8 m 1 = 14 := by
  obtain ⟨hp, rnd, h, cm, b, op, og, hb⟩ := h
  have := flowMod_at hb hp (At.intro [] m [] 0 rfl)
  simp only [List.nil_append, List.append_nil] at this
  obtain ⟨_, _, hh, _⟩ := parse_hdr this
  simp only [hdrOf, Hdr.mk.injEq] at hh
  exact hh.2.1.symm

/-- What a FLOW_MOD message does: a new cookie makes a new entry, whatever the command, a known one an exception. -/
theorem modifies_does (o : Order) (rnd : Nat) (st : St) {m : Bytes} {c : FlowCmd} (h : Modifies m c) :
    switchProc o rnd st m = if st.flows.any (·.1 == c.entry.cookie) then .error .typeError
      else .ok ({ st with flows := st.flows ++ [(c.entry.cookie, c.entry.kept)] }, []) := by
  obtain ⟨hp, rnd', h, cm, b, op, og, hb⟩ := h
  have := flowMod_at hb hp (At.intro [] m [] 0 rfl)
  simp only [List.nil_append, List.append_nil] at this
  rw [switchProc_of this]
  unfold switchMsg
  simp only [hdrOf]
  rw [if_neg (by decide), if_neg (by decide), if_neg (by decide), if_pos trivial]
  simp only [flowModStep]
  split
  · rfl
  · rename_i hn
    rw [put_new]
    · rfl
    · intro hm
      obtain ⟨e, he, hk⟩ := List.mem_map.1 hm
      exact hn (List.any_eq_true.2 ⟨e, he, by simp [hk]⟩)

theorem modifies_record {m : Bytes} {c : FlowCmd} (h : Modifies m c) :
    ∃ b, buildRec c.entry.record = .ok b ∧ buildRec (flowRec c.entry.kept) = .ok b := by
  obtain ⟨hp, rnd', h, cm, b, op, og, hb⟩ := h
  simp only [buildFlowMod, bind_ok, pack_eq_ok, obj] at hb
  obtain ⟨is, hi, d, ⟨hf, rfl⟩, mb, hm, hb⟩ := hb
  obtain ⟨hf2, _⟩ := ofp_one hb
  have hl : 48 + mb.length + is.length < 65536 := by
    simp [fits, hdrFmt, enc, flowModFmt] at hf2
    omega
  have hfs : fits flowStatsFmt [.int (48 + mb.length + is.length), .int c.entry.table, .int 1, .int 2, .int c.entry.priority, .int c.entry.idle,
      .int c.entry.hard, .int c.entry.flags, .int c.entry.cookie, .int 0, .int 0] = true := by
    simp [fits, flowModFmt] at hf
    simp [fits, flowStatsFmt]
    omega
  refine ⟨enc flowStatsFmt [.int (48 + mb.length + is.length), .int c.entry.table, .int 1, .int 2, .int c.entry.priority, .int c.entry.idle,
      .int c.entry.hard, .int c.entry.flags, .int c.entry.cookie, .int 0, .int 0] ++ mb ++ is, ?_, ?_⟩
  · simp only [Entry.record, buildRec, hi, ok_bind, obj, hm, pack, hfs, if_true]
    rw [pyAssert_true, ok_bind]
    simp [enc_length _ _ hfs]
    simp [calcsize, flowStatsFmt, Item.width]
    omega
  · have hi' := again_instrs hp hi
    have hm' := again_match hm
    simp only [flowRec, Entry.kept, buildRec, hi', ok_bind, obj, hm', pack, hfs, if_true]
    rw [pyAssert_true, ok_bind]
    simp [enc_length _ _ hfs]
    simp [calcsize, flowStatsFmt, Item.width]
    omega

theorem step_flows (st : St) (e : Happening) (h : flowMods [e] = []) : (step st e).1.flows = st.flows := by
  obtain ⟨o, rnd, ev⟩ := e
  cases ev with
  | op a =>
    unfold step
    simp only
    cases a with
    | add dev mac c s =>
      rcases addPort_cases rnd st dev mac c s with ⟨_, he⟩ | ⟨hl, e, he⟩ | ⟨hl, hw, sk, _, _, _, e, ⟨_, he⟩ | ⟨m, _, he⟩⟩ <;>
        simp only [portOp, he]
    | del dev d =>
      rcases delPort_cases o rnd st dev d with ⟨_, he⟩ | ⟨e, _, _, ⟨_, _, he⟩ | ⟨m, _, ⟨_, he⟩ | ⟨_, he⟩⟩⟩ <;> simp only [portOp, he]
  | msg m =>
    have h14 : u8 m 1 ≠ 14 := by
      intro h14
      simp [flowMods, h14] at h
    unfold step
    simp only
    split
    · rename_i he
      simp only [switchProc, bind_ok] at he
      obtain ⟨msg, hp, he⟩ := he
      obtain ⟨_, _, hh, _⟩ := parse_hdr hp
      have ht : (hdrOf msg).type = u8 m 1 := by rw [hh]
      cases does_of he with
      | flow => simp only [hdrOf] at ht; omega
      | _ => rfl
    · rfl

theorem flowMods_cons (e : Happening) (hs : List Happening) : flowMods (e :: hs) = flowMods [e] ++ flowMods hs := by
  unfold flowMods
  rw [← List.filterMap_append]
  rfl

/-- The flow table after FLOW_MOD messages with different cookies, whatever else happens in between. -/
theorem after_flows (st : St) (hs : List Happening) (cs : List FlowCmd) (hc : List.Forall₂ Modifies (flowMods hs) cs)
    (hd : (st.flows.map Prod.fst ++ cs.map fun c => c.entry.cookie).Nodup) :
    (after st hs).flows = st.flows ++ cs.map fun c => (c.entry.cookie, c.entry.kept) := by
  induction hs generalizing st cs with
  | nil => cases hc; simp [after]
  | cons e hs ih =>
    rw [flowMods_cons] at hc
    rw [after]
    by_cases h : flowMods [e] = []
    · rw [h] at hc
      have := step_flows st e h
      rw [ih _ cs hc (by rw [this]; exact hd), this]
    · obtain ⟨o, rnd, ev⟩ := e
      cases ev with
      | op a => exact (h rfl).elim
      | msg m =>
        have h14 : u8 m 1 = 14 := by
          by_contra h14
          exact h (by simp [flowMods, h14])
        have hm : flowMods [(o, rnd, Ev.msg m)] = [m] := by simp [flowMods, h14]
        rw [hm] at hc
        cases hc with
        | cons h1 h2 =>
          rename_i c cs
          have hnew : c.entry.cookie ∉ st.flows.map Prod.fst := by
            intro hx
            rw [List.nodup_append] at hd
            exact hd.2.2 _ hx _ (by simp) rfl
          have hs1 : step st (o, rnd, .msg m) = ({ st with flows := st.flows ++ [(c.entry.cookie, c.entry.kept)] }, [], none) := by
            unfold step
            simp only
            rw [modifies_does o rnd st h1, if_neg]
            intro hx
            obtain ⟨e, he, hk⟩ := List.any_eq_true.1 hx
            exact hnew (List.mem_map.2 ⟨e, he, eq_of_beq hk⟩)
          rw [hs1, ih _ cs h2 (by simpa using hd)]
          simp

/-- Adding entries of which no two have the same table, match and priority. -/
theorem flowsAfter_adds (es : List Entry) (hs : es.Pairwise fun a b => ¬ a.same b) : flowsAfter (es.map .add) = es := by
  suffices h : ∀ t : List Entry, (t ++ es).Pairwise (fun a b => ¬ a.same b) → (es.map FlowCmd.add).foldl FlowCmd.apply t = t ++ es by
    have := h [] (by simpa using hs)
    simpa [flowsAfter] using this
  clear hs
  induction es with
  | nil => simp
  | cons e es ih =>
    intro t ht
    rw [List.map_cons, List.foldl_cons, FlowCmd.apply]
    have : t.filter (fun x => decide (¬ x.same e)) = t := by
      rw [List.filter_eq_self]
      intro x hx
      rw [List.pairwise_append] at ht
      simpa using ht.2.2 x hx e (by simp)
    rw [this, ih _ (by simpa using ht)]
    simp

theorem join_records {l : List FlowCmd} (h : ∀ c ∈ l, ∃ b, buildRec c.entry.record = .ok b ∧ buildRec (flowRec c.entry.kept) = .ok b) :
    join buildRec (l.map fun c => .tup (flowRec c.entry.kept)) = join buildRec ((l.map fun c => c.entry.record).map .tup) := by
  induction l with
  | nil => rfl
  | cons c l ih =>
    obtain ⟨b, h1, h2⟩ := h c (by simp)
    simp only [List.map_cons, join, obj, h1, h2, ih (fun c hc => h c (by simp [hc]))]

theorem forall₂_right {α β : Type} {R : α → β → Prop} {l : List α} {k : List β} (h : List.Forall₂ R l k) : ∀ b ∈ k, ∃ a ∈ l, R a b := by
  induction h with
  | nil => intro b hb; cases hb
  | cons h1 _ ih =>
    intro b hb
    rcases List.mem_cons.1 hb with rfl | hb
    · exact ⟨_, List.mem_cons_self .., h1⟩
    · obtain ⟨a, ha, hr⟩ := ih b hb
      exact ⟨a, List.mem_cons_of_mem _ ha, hr⟩

theorem perm_of_map {α β : Type} {g : α → β} {l : List β} {cs : List α} (h : l.Perm (cs.map g)) : ∃ cs' : List α, cs'.Perm cs ∧ l = cs'.map g := by
  induction l generalizing cs with
  | nil =>
    have := h.symm.eq_nil
    rw [List.map_eq_nil_iff] at this
    subst this
    exact ⟨[], .nil, rfl⟩
  | cons a l ih =>
    obtain ⟨c, hc, rfl⟩ := List.mem_map.1 (h.mem_iff.1 (List.mem_cons_self (a := a)))
    obtain ⟨s, t, rfl⟩ := List.append_of_mem hc
    have h1 : (g c :: l).Perm (g c :: (s ++ t).map g) := by
      refine h.trans ?_
      simp only [List.map_append, List.map_cons]
      exact List.perm_middle
    obtain ⟨cs', h2, rfl⟩ := ih h1.cons_inv
    exact ⟨c :: cs', (h2.cons c).trans List.perm_middle.symm, rfl⟩

/-- C51, in part. If all FLOW_MOD messages so far were additions of different flows with different cookies, among any other events, then an
answered request for flow statistics is answered with exactly the flows that a switch would hold.  Missing: deletions
(`C51_delete_refuted`), flows with the same cookie (`C51_cookie_refuted`), additions that replace a flow (`C51_replace_refuted`); and the reply
does not depend on what the request asks for (`C51_filter_refuted`). -/
theorem C51_adds_partial (vxlan dpif : Option Nat) (hs : List Happening) (es : List Entry)
    (hc : List.Forall₂ Modifies (flowMods hs) (es.map .add)) (hd : (es.map Entry.cookie).Nodup)
    (hk : es.Pairwise fun a b => ¬ a.same b) (o : Order) (rnd : Nat) (req : Bytes) (st' : St) (eff : List Eff)
    (ht : u8 req 1 = 18) (hm : u16 req 8 = 1) (h : switchProc o rnd (after (start vxlan dpif) hs) req = .ok (st', eff)) :
    ∃ r, eff = [.send r] ∧ Lists r (u32 req 4) ((flowsAfter (es.map .add)).map Entry.listed) := by
  have hfl := after_flows (start vxlan dpif) hs _ hc (by
    show ([] ++ _).Nodup
    rw [List.nil_append, List.map_map]; exact hd)
  rw [show (start vxlan dpif).flows = [] from rfl, List.nil_append] at hfl
  generalize after (start vxlan dpif) hs = st at h hfl
  rw [flowsAfter_adds es hk]
  simp only [switchProc, bind_ok] at h
  obtain ⟨msg, hp, h⟩ := h
  obtain ⟨_, _, hh, _⟩ := parse_hdr hp
  have ht' : (hdrOf msg).type = 18 := by rw [hh]; exact ht
  have hx : (hdrOf msg).xid = u32 req 4 := by rw [hh]
  have hx4 : u32 req 4 < 2 ^ 32 := u32_lt _ _
  cases does_of h with
  | answer hd0 type fl bd body hd r h5 hb h6 h7 =>
    obtain ⟨e1, _, _⟩ := mpRequest_type hp h5
    rw [hm] at e1
    subst e1
    unfold mpBody at hb
    rw [if_pos rfl] at hb
    simp only [bind_ok, ok_inj, Option.some.injEq] at hb
    obtain ⟨d, hj, rfl⟩ := hb
    have hperm := o.perm st'.flows
    rw [hfl] at hperm
    obtain ⟨cs', hp', he⟩ := perm_of_map hperm
    rw [hfl, he, List.map_map] at hj
    have hrec : ∀ c ∈ cs', c.entry.instrs.All Instr.Parseable ∧
        ∃ b, buildRec c.entry.record = .ok b ∧ buildRec (flowRec c.entry.kept) = .ok b := fun c hc' => by
      obtain ⟨m, _, hmod⟩ := forall₂_right hc c (hp'.mem_iff.1 hc')
      exact ⟨hmod.1, modifies_record hmod⟩
    have hj' := join_records fun c hc' => (hrec c hc').2
    have hj : join buildRec (cs'.map fun c => .tup (flowRec c.entry.kept)) = .ok d := hj
    rw [hj'] at hj
    have hb : buildMpReply rnd hd 1 0 (.many ((cs'.map fun c => c.entry.record).map .tup)) = .ok r := by
      rw [← h7]
      unfold buildMpReply
      rw [show repBody 1 (.many ((cs'.map fun c => c.entry.record).map .tup)) = .ok d from hj]
      rw [show repBody 1 (.many [.raw d]) = .ok d from by
        show join buildRec [.raw d] = _
        simp [join, obj, bind, Except.bind]]
    have hparse := mpReply_many (show 1 ∈ [1, 3, 5, 6, 7, 9, 10, 13] by decide) (fun rc hrc => by
      obtain ⟨c, hc', rfl⟩ := List.mem_map.1 hrc
      exact ⟨rfl, ⟨_, rfl⟩, (hrec c hc').1⟩) hb (At.intro [] r [] 0 rfl)
    refine ⟨r, rfl, (cs'.map fun c => c.entry.record).map Rec.wire, ?_, ?_⟩
    · rw [List.map_map]
      have := hp'.map (Rec.wire ∘ fun c => c.entry.record)
      rw [List.map_map] at this
      exact this
    · simp only [List.nil_append, List.append_nil] at hparse
      rw [hparse]
      have : hd.xid rnd = u32 req 4 := by
        rw [← hx]
        obtain ⟨h8, h9, rfl⟩ := replyHdr_ok h6
        have := ofHeader_fields (l := 0) h8 (by omega) h9 []
        rw [List.append_nil] at this
        exact this.2.2.2
      rw [this]
  | features _ _ _ h5 => omega
  | config _ _ _ h5 => omega
  | role hd0 _ _ _ _ h5 => simp only [hdrOf] at ht'; omega
  | flow _ _ _ _ _ _ _ _ _ _ _ _ _ _ h5 => simp only [hdrOf] at ht'; omega
  | ignore hd0 type fl bd h5 hb =>
    obtain ⟨e1, _, _⟩ := mpRequest_type hp h5
    rw [hm] at e1
    subst e1
    unfold mpBody at hb
    rw [if_pos rfl] at hb
    simp [bind_ok] at hb
  | packet hd0 _ _ _ _ _ _ h5 => simp only [hdrOf] at ht'; omega
  | quiet _ h5 => omega

theorem perm_sum {l l' : List Nat} (h : l.Perm l') : l.sum = l'.sum := by
  induction h with
  | nil => rfl
  | cons a _ ih => simp [ih]
  | swap a b l => simp; omega
  | trans _ _ ih ih' => exact ih.trans ih'

theorem record_length {e : Entry} {b : Bytes} (hp : e.instrs.All Instr.Parseable) (h : buildRec e.record = .ok b) :
    b.length = 48 + e.mt.size + instrsSize e.instrs := by
  simp only [Entry.record, buildRec, obj, bind_ok, pyAssert_ok, exists_const, ok_inj] at h
  obtain ⟨is, hi, mb, hm, hd, _, hl, rfl⟩ := h
  rw [hl, (rt_match hm).2, (seq_instrs hp hi).2]
  rfl

theorem join_sizes {l : List FlowCmd} (h : ∀ c ∈ l, c.entry.instrs.All Instr.Parseable ∧ ∃ b, buildRec c.entry.record = .ok b) :
    ∃ d, join buildRec ((l.map fun c => c.entry.record).map .tup) = .ok d ∧
      d.length = (l.map fun c => 48 + c.entry.mt.size + instrsSize c.entry.instrs).sum := by
  induction l with
  | nil => exact ⟨[], rfl, rfl⟩
  | cons c l ih =>
    obtain ⟨d, h1, h2⟩ := ih fun c hc => h c (by simp [hc])
    obtain ⟨hp, b, hb⟩ := h c (by simp)
    refine ⟨b ++ d, ?_, ?_⟩
    · rw [List.map_cons, List.map_cons, join_ok_cons]
      exact ⟨b, d, hb, h1, rfl⟩
    · rw [List.length_append, record_length hp hb, h2, List.map_cons, List.sum_cons]

/-- C51, in part: requests for flow statistics made by the library are answered, if the flows fit into one message. -/
theorem C51_answered_partial (vxlan dpif : Option Nat) (hs : List Happening) (es : List Entry)
    (hc : List.Forall₂ Modifies (flowMods hs) (es.map .add)) (hd : (es.map Entry.cookie).Nodup)
    (hk : es.Pairwise fun a b => ¬ a.same b) (o : Order) (rnd : Nat) (rnd' : Nat) (h : HdrArg) (fl : Nat) (q : Rec) (req : Bytes)
    (hq : 1 ∈ q.requestTypes) (hq' : q.Parseable) (hb : buildMpRequest rnd' h 1 fl (.one q) = .ok req)
    (hz : 16 + (es.map fun e => 48 + e.mt.size + instrsSize e.instrs).sum < 65536) :
    ∃ r, switchProc o rnd (after (start vxlan dpif) hs) req = .ok (after (start vxlan dpif) hs, [.send r]) ∧
      Lists r (h.xid rnd') ((flowsAfter (es.map .add)).map Entry.listed) := by
  have hparse := mpRequest_one hq hq' hb (At.intro [] req [] 0 rfl)
  simp only [List.nil_append, List.append_nil] at hparse
  obtain ⟨_, _, hh, _⟩ := parse_hdr hparse
  simp only [hdrOf, Hdr.mk.injEq] at hh
  have hx := u32_lt req 4
  rw [← hh.2.2.2] at hx
  obtain ⟨e1, _, _⟩ := mpRequest_type hparse rfl
  have hfl := after_flows (start vxlan dpif) hs _ hc (by
    show ([] ++ _).Nodup
    rw [List.nil_append, List.map_map]; exact hd)
  rw [show (start vxlan dpif).flows = [] from rfl, List.nil_append] at hfl
  have hdone : ∃ r, switchProc o rnd (after (start vxlan dpif) hs) req = .ok (after (start vxlan dpif) hs, [.send r]) := by
    generalize after (start vxlan dpif) hs = st at hfl
    have hperm := o.perm st.flows
    rw [hfl] at hperm
    obtain ⟨cs', hp', he⟩ := perm_of_map hperm
    have hrec : ∀ c ∈ cs', c.entry.instrs.All Instr.Parseable ∧
        ∃ b, buildRec c.entry.record = .ok b ∧ buildRec (flowRec c.entry.kept) = .ok b := fun c hc' => by
      obtain ⟨m, _, hmod⟩ := forall₂_right hc c (hp'.mem_iff.1 hc')
      exact ⟨hmod.1, modifies_record hmod⟩
    obtain ⟨d, hj, hdl⟩ := join_sizes (l := cs') fun c hc' => ⟨(hrec c hc').1, (hrec c hc').2.imp fun _ h => h.1⟩
    have hsum := perm_sum (hp'.map fun (c : FlowCmd) => 48 + c.entry.mt.size + instrsSize c.entry.instrs)
    rw [List.map_map] at hsum
    have hsum : d.length = (es.map fun e => 48 + e.mt.size + instrsSize e.instrs).sum := hdl.trans hsum
    rw [← join_records fun c hc' => (hrec c hc').2] at hj
    have hbody : mpBody o st 1 = .ok (some (.many [.raw d])) := by
      unfold mpBody
      rw [if_pos rfl, hfl, he, List.map_map]
      have hj : join buildRec (cs'.map ((fun f => Elem.tup (flowRec f.2)) ∘ fun c => (c.entry.cookie, c.entry.kept))) = .ok d := hj
      rw [hj, ok_bind]
    obtain ⟨r, hr⟩ := mp_make rnd (h.xid rnd') 1 (.many [.raw d]) d hx (by omega) (by
      show join buildRec [.raw d] = _
      simp [join, obj, bind, Except.bind]) (by omega)
    refine ⟨r, ?_⟩
    rw [switchProc_of hparse]
    unfold switchMsg
    simp only [hdrOf]
    rw [if_neg (by decide), if_neg (by decide), if_neg (by decide), if_neg (by decide), if_pos trivial]
    simp only [hbody, ok_bind, replyHdr_make (show 19 < 256 by decide) hx, hr]
  obtain ⟨r, hr⟩ := hdone
  refine ⟨r, hr, ?_⟩
  obtain ⟨r', he, hl⟩ := C51_adds_partial vxlan dpif hs es hc hd hk o rnd req _ _ hh.2.1.symm e1.symm hr
  injection he with he _
  injection he with he
  rw [he, hh.2.2.2]
  exact hl

/-! ### Refutations -/

theorem two_mods (o : Order) (rnd : Nat) (vxlan dpif : Option Nat) {m m' : Bytes} {c c' : FlowCmd} (h : Modifies m c) (h' : Modifies m' c')
    (hc : c.entry.cookie ≠ c'.entry.cookie) :
    (after (start vxlan dpif) [(o, rnd, .msg m), (o, rnd, .msg m')]).flows =
      [(c.entry.cookie, c.entry.kept), (c'.entry.cookie, c'.entry.kept)] := by
  have hf : flowMods [(o, rnd, .msg m), (o, rnd, .msg m')] = [m, m'] := by simp [flowMods, modifies_type h, modifies_type h']
  have := after_flows (start vxlan dpif) [(o, rnd, .msg m), (o, rnd, .msg m')] [c, c'] (by
    rw [hf]; exact .cons h (.cons h' .nil)) (by
    show ([] ++ [c.entry.cookie, c'.entry.cookie]).Nodup
    simp [hc])
  exact this

/-- C51 is false: a flow that is deleted stays, and the agent even gets a second one, unless the cookies are the same. -/
theorem C51_delete_refuted (o : Order) (rnd : Nat) (vxlan dpif : Option Nat) (e e' : Entry) (m m' : Bytes) (h : Modifies m (.add e))
    (h' : Modifies m' (.deleteStrict e')) (hs : e.same e') (hc : e.cookie ≠ e'.cookie) :
    flowsAfter [.add e, .deleteStrict e'] = [] ∧
    (after (start vxlan dpif) [(o, rnd, .msg m), (o, rnd, .msg m')]).flows = [(e.cookie, e.kept), (e'.cookie, e'.kept)] := by
  refine ⟨?_, two_mods o rnd vxlan dpif h h' hc⟩
  simp [flowsAfter, FlowCmd.apply, hs]

/-- C51 is false: an addition with table, match and priority of a flow does not replace the flow. -/
theorem C51_replace_refuted (o : Order) (rnd : Nat) (vxlan dpif : Option Nat) (e e' : Entry) (m m' : Bytes) (h : Modifies m (.add e))
    (h' : Modifies m' (.add e')) (hs : e.same e') (hc : e.cookie ≠ e'.cookie) :
    flowsAfter [.add e, .add e'] = [e'] ∧
    (after (start vxlan dpif) [(o, rnd, .msg m), (o, rnd, .msg m')]).flows = [(e.cookie, e.kept), (e'.cookie, e'.kept)] := by
  refine ⟨?_, two_mods o rnd vxlan dpif h h' hc⟩
  simp [flowsAfter, FlowCmd.apply, hs]

/-- C51 is false: with the cookie of a flow in the table, no flow can be added or deleted; there is an exception. -/
theorem C51_cookie_refuted (o : Order) (rnd : Nat) (st : St) (m : Bytes) (c : FlowCmd) (h : Modifies m c)
    (hc : c.entry.cookie ∈ st.flows.map Prod.fst) :
    switchProc o rnd st m = .error .typeError ∧ (step st (o, rnd, .msg m)).1 = st := by
  have h1 : switchProc o rnd st m = .error .typeError := by
    rw [modifies_does o rnd st h, if_pos]
    obtain ⟨e, he, hk⟩ := List.mem_map.1 hc
    exact List.any_eq_true.2 ⟨e, he, by simp [hk]⟩
  refine ⟨h1, ?_⟩
  unfold step
  simp only [h1]

/-- C51 is false: a request for the flows of one table is answered with the flows of other tables. -/
theorem C51_filter_refuted (o : Order) (rnd rnd' : Nat) (vxlan dpif : Option Nat) (e : Entry) (m req : Bytes) (h : Modifies m (.add e))
    (t : Nat) (_ht : t ≠ e.table) (_ht' : t ≠ 0xff) (hd : HdrArg) (hz : e.mt.size + instrsSize e.instrs < 65472)
    (hb : buildMpRequest rnd' hd 1 0 (.one (.flowStatsReq (some t) none none none none none)) = .ok req) :
    ∃ r, switchProc o rnd (after (start vxlan dpif) [(o, rnd, .msg m)]) req = .ok (after (start vxlan dpif) [(o, rnd, .msg m)], [.send r]) ∧
      Lists r (hd.xid rnd') [e.listed] := by
  have hf : flowMods [(o, rnd, .msg m)] = [m] := by simp [flowMods, modifies_type h]
  exact C51_answered_partial vxlan dpif [(o, rnd, .msg m)] [e] (by rw [hf]; exact .cons h .nil) (by simp) (by simp) o rnd rnd' hd 0
    (.flowStatsReq (some t) none none none none none) req (by simp [Rec.requestTypes]) (Or.inl rfl) hb (by simp; omega)

/-- Two entries with the same match and priority and different cookies, and messages that add them, and one that deletes them. -/
example : ∃ e e' m m' m'', Modifies m (.add e) ∧ Modifies m' (.add e') ∧ Modifies m'' (.deleteStrict e') ∧ e.same e' ∧ e.cookie ≠ e'.cookie ∧
    e.mt.size + instrsSize e.instrs < 65472 ∧ (5 ≠ e.table ∧ 5 ≠ 0xff) ∧
    ∃ req, buildMpRequest 1 .none 1 0 (.one (.flowStatsReq (some 5) none none none none none)) = .ok req := by
  refine ⟨⟨0, 100, 0, 0, 0, 7, ⟨none, none, .raw [0x80, 0, 0, 4, 0, 0, 0, 1]⟩, tups [.actions (some 4) none (tups [.output none none 2 0])]⟩,
    ⟨0, 100, 0, 0, 0, 8, ⟨none, none, .raw [0x80, 0, 0, 4, 0, 0, 0, 1]⟩, tups [.gotoTable none none 1]⟩, ?_⟩
  obtain ⟨m, hm⟩ := ok_of (x := buildFlowMod 1 .none 7 0 0 0 0 0 100 none none none 0 (.tup ⟨none, none, .raw [0x80, 0, 0, 4, 0, 0, 0, 1]⟩)
    (tups [.actions (some 4) none (tups [.output none none 2 0])])) (by decide +kernel)
  obtain ⟨m', hm'⟩ := ok_of (x := buildFlowMod 1 .none 8 0 0 0 0 0 100 none none none 0 (.tup ⟨none, none, .raw [0x80, 0, 0, 4, 0, 0, 0, 1]⟩)
    (tups [.gotoTable none none 1])) (by decide +kernel)
  obtain ⟨m'', hm''⟩ := ok_of (x := buildFlowMod 1 .none 8 0 0 4 0 0 100 none none none 0 (.tup ⟨none, none, .raw [0x80, 0, 0, 4, 0, 0, 0, 1]⟩)
    (tups [.gotoTable none none 1])) (by decide +kernel)
  refine ⟨m, m', m'', ⟨all_tups ?_, 1, .none, 0, none, none, none, hm⟩, ⟨all_tups ?_, 1, .none, 0, none, none, none, hm'⟩,
    ⟨all_tups ?_, 1, .none, 0, none, none, none, hm''⟩, by decide, by decide, by decide, by decide, ok_of (by decide +kernel)⟩
  · simp only [List.mem_singleton, forall_eq]
    exact all_tups (by simp [Action.Parseable])
  · simp [Instr.Parseable]
  · simp [Instr.Parseable]

end Twink.Agent
