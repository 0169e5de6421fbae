import Verif.Props.AgentReply

/-!
# C53: the controller's view of the agent's ports
-/

namespace Twink.Agent
open Of13 Spec Fmt

theorem swPorts_add {st : St} {n : Nat} {p : OfPort} (hn : n ∉ st.ports.map Prod.fst) (hp : p.desc.portNo = n) (k : Nat) :
    PortEv.Allowed (swPorts st) (.add (asPort p.desc)) ∧
    PortEv.apply (swPorts st) (.add (asPort p.desc)) = swPorts { st with ports := st.ports ++ [(n, p)], lastNo := k } := by
  have hno : (asPort p.desc).no = n := hp
  have hl : st.ports.lookup n = none := by
    rw [List.lookup_eq_none_iff]
    intro e he
    simp only [bne_iff_ne, ne_eq]
    intro h
    exact hn (List.mem_map.2 ⟨e, he, h.symm⟩)
  refine ⟨by simp [PortEv.Allowed, swPorts, hno, hl], ?_⟩
  funext i
  simp only [PortEv.apply, swPorts, hno, List.lookup_append]
  by_cases hi : i = n
  · subst hi; simp [hl, List.lookup]
  · simp [hi, List.lookup, beq_eq_false_iff_ne.2 hi]

theorem lookup_mid {l1 l2 : List (Nat × α)} {n : Nat} {p : α} (h : ((l1 ++ (n, p) :: l2).map Prod.fst).Nodup) (i : Nat) :
    (l1 ++ (n, p) :: l2).lookup i = if i = n then some p else (l1 ++ l2).lookup i := by
  rw [List.lookup_append, List.lookup_append]
  rw [List.map_append, List.map_cons, List.nodup_append] at h
  by_cases hi : i = n
  · subst hi
    have : l1.lookup i = none := by
      rw [List.lookup_eq_none_iff]
      intro e he
      simp only [bne_iff_ne, ne_eq]
      intro h'
      exact h.2.2 e.1 (List.mem_map.2 ⟨e, he, rfl⟩) i (by simp) h'.symm
    simp [this, List.lookup]
  · simp [hi, List.lookup, beq_eq_false_iff_ne.2 hi]

theorem lookup_del (d : List (Nat × α)) (k i : Nat) : (del d k).lookup i = if i = k then none else d.lookup i := by
  induction d with
  | nil => simp [del]
  | cons a d ih =>
    unfold del at *
    rw [List.filter_cons]
    by_cases ha : a.1 = k
    · rw [if_neg (by simp [ha]), ih]
      split
      · rfl
      · rename_i hi
        rw [List.lookup_cons]
        rw [beq_eq_false_iff_ne.2 (by rw [ha]; exact hi)]
    · rw [if_pos (by simpa using ha)]
      rw [List.lookup_cons, List.lookup_cons]
      by_cases hi : i = a.1
      · rw [beq_iff_eq.2 hi, if_neg (by rw [hi]; exact ha)]
      · rw [beq_eq_false_iff_ne.2 hi]; exact ih

/-- The answer to a message tells the controller nothing about ports it did not ask for. -/
theorem replies_unrelated {o : Order} {rnd : Nat} {st st' : St} {m : Bytes} {es : List Eff}
    (h : switchProc o rnd st m = .ok (st', es)) : ∀ r ∈ messages es, Unrelated 4 (fun _ => False) r := by
  intro r hr
  obtain ⟨h1, h2⟩ := C50_answers_partial o rnd st st' m es h
  have hmem : Eff.send r ∈ es := by
    unfold messages at hr
    rw [List.mem_filterMap] at hr
    obtain ⟨e, he, hr⟩ := hr
    split at hr
    · injection hr with hr; subst hr; exact he
    · cases hr
  cases ht : replyType m with
  | none => exact absurd hmem (h2 ht r)
  | some t =>
    obtain ⟨_, r', he, hr'⟩ := h1 t ht
    rw [he] at hmem
    simp only [List.mem_singleton, Eff.send.injEq] at hmem
    subst hmem
    have h12 : t ≠ 12 := by
      rintro rfl
      unfold replyType at ht
      repeat' split at ht
      all_goals simp at ht
    right
    exact ⟨hr'.1, by rw [hr'.2.2.1]; exact h12, fun _ => rfl, fun _ h => h⟩

/-- A step of the agent, as the specification of ports sees it. -/
theorem step_history {st : St} (ht : Tidy st) (h : Happening) (hok : ∀ o rnd a, h = (o, rnd, .op a) → (step st h).2.2 ≠ none)
    {is : List Incoming} {M : SwPorts} (hrest : History 4 (fun _ => False) (swPorts (step st h).1) is M) :
    ∃ is', History 4 (fun _ => False) (swPorts st) is' M ∧
      is'.map (Incoming.bytes 4) = messages (step st h).2.1 ++ is.map (Incoming.bytes 4) := by
  obtain ⟨o, rnd, ev⟩ := h
  cases ev with
  | msg m =>
    unfold step at hrest ⊢
    simp only at hrest ⊢
    split at hrest
    · rename_i st' es he
      simp only at hrest ⊢
      have hs : swPorts st' = swPorts st := by funext n; simp only [swPorts, (switchProc_keeps he).1]
      rw [hs] at hrest
      have hu := replies_unrelated he
      generalize messages es = l at hu
      refine ⟨l.map .other ++ is, ?_, by simp [Function.comp_def, Incoming.bytes]⟩
      induction l with
      | nil => exact hrest
      | cons r l ih => exact .other r (hu r (by simp)) (ih fun r hr => hu r (by simp [hr]))
    · exact ⟨is, hrest, by simp [messages]⟩
  | op a =>
    have hok := hok o rnd a rfl
    unfold step at hrest hok ⊢
    simp only at hrest hok ⊢
    cases a with
    | add dev mac c s =>
      simp only [portOp] at *
      rcases addPort_cases rnd st dev mac c s with ⟨_, he⟩ | ⟨hl, e, he⟩ | ⟨hl, hw, sk, _, _, _, e, ⟨_, he⟩ | ⟨m, hm, he⟩⟩ <;>
        rw [he] at hrest hok ⊢ <;> simp only [ne_eq, not_true_eq_false] at hrest hok ⊢
      · exact ⟨is, hrest, by simp [messages]⟩
      · have hn := ht.new_no hl
        rw [put_new hn] at hrest
        obtain ⟨h1, h2⟩ := swPorts_add (st := st) (p := newPort (st.lastNo + 1) hw dev sk) hn rfl (st.lastNo + 1)
        obtain ⟨h3, h4⟩ := statusMsg_bytes hm
        rw [← h2] at hrest
        exact ⟨_, .event (.add (asPort (newPort (st.lastNo + 1) hw dev sk).desc)) 0 (by decide) h4 h1 hrest, by simp [messages, Incoming.bytes, h3, PortEv.reason, PortEv.port]⟩
    | del dev d =>
      simp only [portOp] at *
      rcases delPort_cases o rnd st dev d with ⟨_, he⟩ | ⟨e, hmem, _, ⟨_, _, he⟩ | ⟨m, hm, ⟨_, he⟩ | ⟨_, he⟩⟩⟩ <;>
        rw [he] at hrest hok ⊢ <;> simp only [ne_eq, not_true_eq_false] at hrest hok ⊢
      · exact ⟨is, hrest, by simp [messages]⟩
      · obtain ⟨h3, h4⟩ := statusMsg_bytes hm
        have hno : (asPort e.2.desc).no = e.1 := ht.own e hmem
        obtain ⟨l1, l2, hl⟩ := List.append_of_mem hmem
        have hk := ht.keys
        rw [hl] at hk
        have h5 : PortEv.Allowed (swPorts st) (.delete (asPort e.2.desc)) := by
          simp only [PortEv.Allowed, swPorts, hno]
          rw [hl, lookup_mid hk, if_pos rfl]
          simp
        have h6 : PortEv.apply (swPorts st) (.delete (asPort e.2.desc)) = swPorts { st with ports := del st.ports e.1 } := by
          funext i
          simp only [PortEv.apply, swPorts, hno, lookup_del]
          split <;> rfl
        rw [← h6] at hrest
        exact ⟨_, .event (.delete (asPort e.2.desc)) 0 (by decide) h4 h5 hrest, by simp [messages, Incoming.bytes, h3, PortEv.reason, PortEv.port]⟩

theorem run_history {st : St} (ht : Tidy st) (hs : List Happening) (hok : Smooth st hs) :
    ∃ is, History 4 (fun _ => False) (swPorts st) is (swPorts (after st hs)) ∧
      is.map (Incoming.bytes 4) = messages (sent st hs) := by
  induction hs generalizing st with
  | nil => exact ⟨[], .nil _, rfl⟩
  | cons h hs ih =>
    have h1 : ∀ o rnd a, h = (o, rnd, .op a) → (step st h).2.2 ≠ none := by
      rintro o rnd a rfl; exact hok.1
    have h2 : Smooth (step st h).1 hs := by
      obtain ⟨o, rnd, ev⟩ := h
      cases ev with
      | op a => exact hok.2
      | msg m => exact hok
    obtain ⟨is, h3, h4⟩ := ih (step_tidy st ht h) h2
    obtain ⟨is', h5, h6⟩ := step_history ht h h1 h3
    refine ⟨is', h5, ?_⟩
    rw [h6, h4, sent]
    simp [messages]

theorem lookup_perm {l l' : List (Nat × α)} (h : l.Perm l') (hn : (l.map Prod.fst).Nodup) (i : Nat) : l.lookup i = l'.lookup i := by
  induction h with
  | nil => rfl
  | cons a _ ih =>
    rw [List.lookup_cons, List.lookup_cons, ih (List.nodup_cons.1 hn).2]
  | swap a b l =>
    have hne : b.1 ≠ a.1 := by
      intro h
      simp [h] at hn
    rw [List.lookup_cons, List.lookup_cons, List.lookup_cons, List.lookup_cons]
    by_cases h1 : i = a.1
    · rw [beq_iff_eq.2 h1, beq_eq_false_iff_ne.2 (by rw [h1]; exact hne.symm)]
    · rw [beq_eq_false_iff_ne.2 h1]
  | trans h1 _ ih1 ih2 => rw [ih1 hn, ih2 ((h1.map Prod.fst).nodup_iff.1 hn)]

theorem ofList_ports {o : Order} {st : St} (ht : Tidy st) :
    ofList ((o.items st.ports).map fun e => asPort e.2.desc) = swPorts st ∧
      (((o.items st.ports).map fun e => asPort e.2.desc).map Port.no).Nodup := by
  have hp := o.perm st.ports
  have hk : ((o.items st.ports).map Prod.fst).Nodup := (hp.map Prod.fst).nodup_iff.2 ht.keys
  have ho : ∀ e ∈ o.items st.ports, (asPort e.2.desc).no = e.1 := fun e he => ht.own e (hp.mem_iff.1 he)
  constructor
  · funext n
    unfold swPorts
    rw [← lookup_perm hp hk]
    clear hp hk
    generalize o.items st.ports = l at ho
    induction l with
    | nil => rfl
    | cons a l ih =>
      simp only [ofList, List.map_cons, List.find?_cons] at ih ⊢
      rw [List.lookup_cons, ho a (by simp)]
      by_cases h : n = a.1
      · simp [h]
      · have h1 : (a.1 == n) = false := beq_eq_false_iff_ne.2 (Ne.symm h)
        have h2 : (n == a.1) = false := beq_eq_false_iff_ne.2 h
        rw [h1, h2]
        exact ih fun e he => ho e (by simp [he])
  · have : ((o.items st.ports).map fun e => asPort e.2.desc).map Port.no = (o.items st.ports).map Prod.fst := by
      rw [List.map_map]
      exact List.map_congr_left ho
    rw [this]
    exact hk

/-- C53, in part. A controller that does not know the ports yet asks for them; the agent, if it can describe all its ports, answers,
and when the controller has received the answer and everything the agent sends in any later history of messages and calls of the
port manager, all returning normally, the controller's list has exactly the ports of the agent, as described by it.
Missing: calls that raise an exception, see `C53_failed_add_refuted` and `C53_failed_delete_refuted`. -/
theorem C53_view_partial (s : PortSt) (hs4 : s.version = 4) (hi : s.init = false) (hm : s.multi = []) (hq : NoWaiters s)
    (xid : Nat) (hx : xid < 4294967296) (st : St) (ht : Tidy st) (hg : ∀ e ∈ st.ports, GoodPort e.2.desc)
    (hn : st.ports.length < 1024) (o : Order) (rnd : Nat) (hs : List Happening) (hok : Smooth st hs) :
    ∃ s1 req r s', portsRequest s xid = (s1, .ok (some req)) ∧ switchProc o rnd st req = .ok (st, [.send r]) ∧
      portRun s1 (r :: messages (sent st hs)) = some s' ∧ Mirrors s'.ports (swPorts (after st hs)) := by
  obtain ⟨is, h1, h2⟩ := run_history ht hs hok
  obtain ⟨e1, e2⟩ := ofList_ports (o := o) ht
  have hwf : ∀ p ∈ (o.items st.ports).map fun e => asPort e.2.desc, p.Wf 4 := by
    intro p hp
    obtain ⟨e, he, rfl⟩ := List.mem_map.1 hp
    obtain ⟨b, hb⟩ := buildPort_make (hg e ((o.perm st.ports).mem_iff.1 he))
    exact (buildPort_ok hb).2
  rw [← e1] at h1
  have hfr : Fragments 4 xid [portDescReply 4 xid 0 ((o.items st.ports).map fun e => asPort e.2.desc)] _ :=
    .last 0 _ (by decide) (by decide) (by
      rw [List.length_map, (o.perm st.ports).length_eq]
      show 16 + 64 * _ < _
      omega) hwf
  obtain ⟨s1, req, s', h3, h4, h5, h6, h7, h8, h9, h10⟩ := C28_port_desc_partial s hs4 hi hm hq xid hx hfr e2 h1
  have hans : switchProc o rnd st req = .ok (st, [.send (portDescReply 4 xid 0 ((o.items st.ports).map fun e => asPort e.2.desc))]) := by
    have := ports_reply o rnd st req (by omega) h5 h6 h8 hg hn
    rw [h7] at this
    exact this
  refine ⟨s1, req, _, s', h3, hans, ?_, h10⟩
  rw [← h2]
  exact h9

theorem goodPort_start (a b : Option Nat) : ∀ e ∈ (start a b).ports, GoodPort e.2.desc := by
  intro e he
  simp only [start, List.mem_cons, List.not_mem_nil, or_false] at he
  rcases he with rfl | rfl | rfl <;>
    exact ⟨rfl, ⟨_, rfl, by decide, by decide⟩, by simp, by simp, by simp, by simp, by simp, by simp, by simp, by simp, by simp⟩

/-- The hypotheses are met by the agent at its start and a history in which a port is added, a message comes, and `dpif` is
deleted. -/
example (s : PortSt) (hs4 : s.version = 4) (hi : s.init = false) (hm : s.multi = []) (hq : NoWaiters s) :
    ∃ s1 req r s', portsRequest s 9 = (s1, .ok (some req)) ∧ switchProc inserted 1 (start none none) req = .ok (start none none, [.send r]) ∧
      portRun s1 (r :: messages (sent (start none none)
        [(inserted, 1, .op (.add [118, 109] [48, 48, 49, 49, 50, 50, 97, 97, 98, 98, 70, 70] true (some (some 7)))),
         (inserted, 1, .msg [4, 5, 0, 8, 0, 0, 0, 1]), (inserted, 1, .op (.del [100, 112, 105, 102] true))])) = some s' ∧
      Mirrors s'.ports (swPorts (after (start none none)
        [(inserted, 1, .op (.add [118, 109] [48, 48, 49, 49, 50, 50, 97, 97, 98, 98, 70, 70] true (some (some 7)))),
         (inserted, 1, .msg [4, 5, 0, 8, 0, 0, 0, 1]), (inserted, 1, .op (.del [100, 112, 105, 102] true))])) :=
  C53_view_partial s hs4 hi hm hq 9 (by decide) _ (tidy_start _ _) (goodPort_start _ _) (by decide) inserted 1 _
    ⟨by decide +kernel, by
      show Smooth (step (step (start none none) _).1 _).1 _
      exact ⟨by decide +kernel, trivial⟩⟩

/-- C53 is false after an addition that raises an exception because the name is too long or the address is not six bytes: the agent
has a port that the controller never hears of. -/
theorem C53_failed_add_refuted (st : St) (ht : Tidy st) (hl : st.lastNo + 1 ≠ 0xfffffffe) (dev mac hw : Bytes)
    (hdev : 16 < dev.length ∨ hw.length ≠ 6) (hmac : a2bHex (mac.take 12) = .ok hw) (s : Option Nat) (o : Order) (rnd : Nat)
    (ports : List PTuple) (hm : Mirrors ports (swPorts st)) :
    messages (sent st [(o, rnd, .op (.add dev mac true (some s)))]) = [] ∧
    ¬ Mirrors ports (swPorts (after st [(o, rnd, .op (.add dev mac true (some s)))])) := by
  have hf := add_fails ht hl hdev hmac s o rnd
  refine ⟨by simp [sent, hf, messages], fun h => ?_⟩
  have h1 := hm.1 (st.lastNo + 1)
  have h2 := h.1 (st.lastNo + 1)
  obtain ⟨h3, h4⟩ := swPorts_add (st := st) (p := newPort (st.lastNo + 1) hw dev s) (ht.new_no hl) rfl (st.lastNo + 1)
  rw [h2] at h1
  have h5 : swPorts st (st.lastNo + 1) = none := h3
  have h6 : swPorts (after st [(o, rnd, .op (.add dev mac true (some s)))]) (st.lastNo + 1) =
      some (asPort (newPort (st.lastNo + 1) hw dev s).desc) := by
    show swPorts (step st _).1 _ = _
    rw [hf]
    show swPorts { st with lastNo := _, ports := _ } _ = _
    rw [← h4]
    exact if_pos rfl
  rw [h5, h6] at h1
  simp at h1

theorem failed_delete {st : St} (ht : Tidy st) (o : Order) (rnd : Nat) {dev : Bytes} {e : Nat × OfPort} (he : e ∈ st.ports)
    (hg : GoodPort e.2.desc) (hname : e.2.desc.name = .str dev) (hone : ∀ e' ∈ st.ports, e'.2.desc.name = .str dev → e' = e) :
    messages (sent st [(o, rnd, .op (.del dev false))]) = [portStatus 4 0 1 (asPort e.2.desc)] ∧
    after st [(o, rnd, .op (.del dev false))] = st ∧ swPorts st e.1 = some (asPort e.2.desc) := by
  have hlook : swPorts st e.1 = some (asPort e.2.desc) := by
    obtain ⟨l1, l2, hl⟩ := List.append_of_mem he
    have hk := ht.keys
    rw [hl] at hk
    unfold swPorts
    rw [hl, lookup_mid hk, if_pos rfl]
    rfl
  rcases delPort_cases o rnd st dev false with ⟨hn, _⟩ | ⟨e', hmem, hname', ⟨_, hx, hd⟩ | ⟨m, hm, ⟨_, hd⟩ | ⟨h, _⟩⟩⟩
  · exact absurd hname (hn e he)
  · obtain rfl := hone e' hmem hname'
    obtain ⟨m, hm⟩ := statusMsg_make rnd (reason := 1) hg (by omega)
    rw [hm] at hx
    cases hx
  · obtain rfl := hone e' hmem hname'
    obtain ⟨h1, _⟩ := statusMsg_bytes hm
    refine ⟨?_, ?_, hlook⟩
    · simp [sent, step, portOp, hd, messages, h1]
    · simp [after, step, portOp, hd]
  · cases h

/-- C53 is false after a deletion that raises an exception while the port is being destroyed: the controller is told that the port is
gone and removes it from its list, but the agent keeps it. -/
theorem C53_failed_delete_refuted (st : St) (ht : Tidy st) (o : Order) (rnd : Nat) (dev : Bytes) (e : Nat × OfPort) (he : e ∈ st.ports)
    (hg : GoodPort e.2.desc) (hname : e.2.desc.name = .str dev) (hone : ∀ e' ∈ st.ports, e'.2.desc.name = .str dev → e' = e)
    (s : PortSt) (hs : s.version = 4) (hi : s.init = true) (hq : NoWaiters s) (hmm : s.multi = []) (hM : Mirrors s.ports (swPorts st)) :
    ∃ s', portRun s (messages (sent st [(o, rnd, .op (.del dev false))])) = some s' ∧
      ¬ Mirrors s'.ports (swPorts (after st [(o, rnd, .op (.del dev false))])) := by
  obtain ⟨h1, h2, h3⟩ := failed_delete ht o rnd he hg hname hone
  have hno : (asPort e.2.desc).no = e.1 := ht.own e he
  obtain ⟨b, hb⟩ := buildPort_make hg
  obtain ⟨s', h4, h5⟩ := C28_mirror_partial (by omega) s hs hi hq hM (is := [.event (.delete (asPort e.2.desc)) 0])
    (.event _ 0 (by decide) (buildPort_ok hb).2 (by simp only [PortEv.Allowed, hno, h3]; simp) (.nil _))
  refine ⟨s', ?_, fun h => ?_⟩
  · rw [h1]; exact h4
  · rw [h2] at h
    have h6 := h.1 e.1
    rw [h5.1 e.1, h3] at h6
    simp [PortEv.apply, hno] at h6

/-- `dpif` at the start meets the hypotheses on the port. -/
example : ∃ e ∈ (start none none).ports, e.2.desc.name = .str [100, 112, 105, 102] ∧
    ∀ e' ∈ (start none none).ports, e'.2.desc.name = .str [100, 112, 105, 102] → e' = e :=
  ⟨_, List.mem_cons_of_mem _ (List.mem_cons_of_mem _ (List.mem_cons_self ..)), by decide, by decide⟩

end Twink.Agent
