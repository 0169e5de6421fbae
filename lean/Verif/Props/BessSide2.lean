import Verif.Props.BessSide
import Verif.Proof.AgentPorts

/-!
# C116: deleting a device undoes what adding it did to the datapath
-/

namespace Twink.BessSide
open Of13 Spec Fmt

theorem statusMsg_again {rnd rnd' r r' : Nat} {p : PortT} {m : Bytes} (h : Agent.statusMsg rnd r p = .ok m) (hr : r' < 256) :
    ∃ m', Agent.statusMsg rnd' r' p = .ok m' := by
  simp only [Agent.statusMsg, bind_ok] at h
  obtain ⟨_, _, b, hb, _⟩ := h
  have hl := Agent.buildPort_length hb
  have hf : fits [B, X 7] [.int r'] = true := by simp [fits, hr]
  refine ⟨ofHeader 4 12 (8 + (enc [B, X 7] [.int r'] ++ b).length) 0 ++ (enc [B, X 7] [.int r'] ++ b), ?_⟩
  unfold Agent.statusMsg
  rw [Agent.replyHdr_make (by omega) (by omega), ok_bind, hb, ok_bind]
  unfold buildPortStatus
  simp only [obj, pack, hf, if_true, ok_bind]
  exact Agent.ofp_make _ _ (by omega) (by omega) (by simp [enc, hl]) (.inl rfl)

theorem call_fine {b : Bess} {l : List (Call × Option Exn)} {c : Call} (h : possible b c = true) :
    call ⟨b, [], l⟩ c = (⟨effect b c, [], l ++ [(c, none)]⟩, none) := by
  simp [call, h]

/-- What adding a device makes. -/
def added (b : Bess) (dev : Name) : Bess :=
  ⟨true, b.ports ++ [dev] ++ [pkt dev], b.mods ++ [⟨true, pi dev, pkt dev⟩] ++ [⟨false, po dev, dev⟩],
    b.links ++ [(pi dev, po dev)], b.socks ++ [(b.nextSock, pkt dev)], b.nextSock + 1⟩

theorem not_any_name {l : List Mod} {n : Name} (h : ∀ m ∈ l, m.name ≠ n) : l.any (·.name == n) = false := by
  simpa using h

theorem World.split {α : Type} {r : World × α} {b : Bess} {x : α} (h : r.1.bess = b ∧ r.1.ans = [] ∧ r.2 = x) :
    ∃ l, r = (⟨b, [], l⟩, x) := by
  obtain ⟨⟨b', a', l'⟩, x'⟩ := r
  obtain ⟨rfl, rfl, rfl⟩ := h
  exact ⟨l', rfl⟩

theorem init_fine {b : Bess} {dev : Name} {l : List (Call × Option Exn)} (hd : dev ≠ brInt) (hv : dev ≠ vxlan)
    (h1 : pkt dev ∉ b.ports) (h2 : ∀ m ∈ b.mods, m.name ≠ pi dev) (h3 : ∀ m ∈ b.mods, m.name ≠ po dev) :
    ∃ l', initPkt ⟨{ b with ports := b.ports ++ [dev] }, [], l⟩ dev = (⟨added b dev, [], l'⟩, .ok (some b.nextSock)) := by
  have e1 : pkt dev ∉ b.ports ++ [dev] := by simp [h1, pkt_ne]
  have e2 : b.mods.any (fun x => x.name == pi dev) = false := not_any_name h2
  have e3 : b.mods.any (fun x => x.name == po dev) = false := not_any_name h3
  refine World.split ?_
  unfold initPkt
  rw [if_neg hd]
  simp only [initTry, run]
  rw [call_fine (by rfl)]
  simp only [effect]
  rw [call_fine (by simpa [possible] using e1)]
  simp only [effect]
  rw [call_fine (by simp [possible])]
  simp only [effect, initElse, if_neg hv, List.cons_append, List.nil_append, run]
  rw [call_fine (by simp [possible, e2])]
  simp only [effect]
  rw [call_fine (by simp [possible, e3, pi_ne_po])]
  simp only [effect]
  rw [call_fine (by simp [possible])]
  simp only [effect]
  rw [call_fine (by rfl)]
  exact ⟨rfl, rfl, rfl⟩

theorem filter_none {α : Type} {p : α → Bool} {l : List α} (h : ∀ x ∈ l, p x = true) : l.filter p = l :=
  List.filter_eq_self.2 h

theorem deinit_fine {b : Bess} {dev : Name} {l : List (Call × Option Exn)} (hs : Sound b) (hd : dev ≠ brInt) (hv : dev ≠ vxlan)
    (h1 : pkt dev ∉ b.ports) (h2 : ∀ m ∈ b.mods, m.name ≠ pi dev) (h3 : ∀ m ∈ b.mods, m.name ≠ po dev) :
    ∃ l', deinitPkt ⟨added b dev, [], l⟩ dev =
      (⟨{ b with running := true, ports := b.ports ++ [dev], nextSock := b.nextSock + 1 }, [], l'⟩, none) := by
  have hne := pkt_ne dev
  have hpp := pi_ne_po dev dev
  have f1 : b.links.filter (fun l => l.1 != pi dev) = b.links := filter_none fun x hx => by
    obtain ⟨⟨m, hm, hn⟩, -⟩ := hs.links x hx
    have := h2 m hm; rw [hn] at this; simpa using this
  have f2 : b.links.filter (fun l => l.1 != pi dev && l.2 != pi dev) = b.links := filter_none fun x hx => by
    obtain ⟨⟨m, hm, hn⟩, m', hm', hn'⟩ := hs.links x hx
    have a := h2 m hm; have c := h2 m' hm'; rw [hn] at a; rw [hn'] at c; simp [a, c]
  have f3 : b.links.filter (fun l => l.1 != po dev && l.2 != po dev) = b.links := filter_none fun x hx => by
    obtain ⟨⟨m, hm, hn⟩, m', hm', hn'⟩ := hs.links x hx
    have a := h3 m hm; have c := h3 m' hm'; rw [hn] at a; rw [hn'] at c; simp [a, c]
  have g1 : b.mods.filter (fun m => m.name != pi dev) = b.mods := filter_none fun x hx => by simpa using h2 x hx
  have g2 : b.mods.filter (fun m => m.name != po dev) = b.mods := filter_none fun x hx => by simpa using h3 x hx
  have k1 : b.ports.filter (fun m => m != pkt dev) = b.ports := filter_none fun x hx => by
    simp only [bne_iff_ne, ne_eq]; rintro rfl; exact h1 hx
  have s1 : b.socks.filter (fun m => m.2 != pkt dev) = b.socks := filter_none fun x hx => by
    simp only [bne_iff_ne, ne_eq]; intro h; exact h1 (h ▸ hs.socks x hx)
  have m1 : b.mods.any (fun m => m.port == pkt dev) = false := by
    simp only [List.any_eq_false, beq_iff_eq]; intro x hx h; exact h1 (h ▸ hs.mods x hx)
  refine World.split ?_
  unfold deinitPkt
  rw [if_neg hd]
  simp only [deinitTry, if_neg hv, List.cons_append, List.nil_append, run]
  rw [call_fine (by rfl)]
  simp only [effect, added]
  rw [call_fine (by simp [possible])]
  simp only [effect]
  rw [call_fine (by simp [possible])]
  simp only [effect, List.filter_append, f1, g1, f2]
  rw [call_fine (by simp [possible, Ne.symm hpp])]
  simp only [effect, List.filter_append, f1, g1, f2, g2, f3]
  rw [call_fine (by simp [possible, m1, hpp, Ne.symm hpp, hne, Ne.symm hne])]
  simp only [effect, List.filter_append, k1, s1]
  rw [call_fine (by rfl)]
  simp [effect, hpp, Ne.symm hpp, Ne.symm hne]

/-- C116 when nothing fails: after adding a device under a name not in use and deleting it again, the daemon has the ports, modules,
links and connected sockets it had before, the workers run, and the switch lists the ports it listed before.
Missing: calls that fail (`C116_refuted`), and the name 'vxlan', for which the auxiliary port is not removed
(`C116_vxlan_refuted`). -/
theorem C116_partial (b : Bess) (st : Agent.St) (o : Agent.Order) (rnd rnd' no : Nat) (dev mac : Bytes) (hs : Sound b)
    (ht : Agent.Tidy st) (hu : ¬ InUse b dev) (hl : ∀ e ∈ st.ports, e.2.desc.name ≠ .str dev) (hd : dev ≠ brInt) (hv : dev ≠ vxlan)
    (hadd : (addPort rnd ⟨b, [], []⟩ st dev mac).2.2.2 = .ok (.added no)) :
    let r := after b st [.add rnd dev mac [], .del o rnd' dev []]
    r.1 = { b with running := true, nextSock := b.nextSock + 1 } ∧ r.2.ports = st.ports := by
  have h0 : dev ∉ b.ports := fun h => hu (.inl h)
  have h1 : pkt dev ∉ b.ports := fun h => hu (.inr (.inl h))
  have h2 : ∀ m ∈ b.mods, m.name ≠ pi dev := fun m hm h => hu (.inr (.inr ⟨m, hm, .inl h⟩))
  have h3 : ∀ m ∈ b.mods, m.name ≠ po dev := fun m hm h => hu (.inr (.inr ⟨m, hm, .inr h⟩))
  have hlast : st.lastNo + 1 ≠ 0xfffffffe := by
    intro h
    rw [addPort, if_pos h] at hadd
    simp [Agent.addPort, h] at hadd
  obtain ⟨l1, hi⟩ := init_fine (l := [(Call.createPort dev, none)]) hd hv h1 h2 h3
  have hc : call ⟨b, [], []⟩ (.createPort dev) = (⟨{ b with ports := b.ports ++ [dev] }, [], [(Call.createPort dev, none)]⟩, none) :=
    call_fine (by simpa [possible] using h0)
  have ha : addPort rnd ⟨b, [], []⟩ st dev mac = (⟨added b dev, [], l1⟩, Agent.addPort rnd st dev mac true (some (some b.nextSock))) := by
    rw [addPort, if_neg hlast, hc]
    simp only [hi]
  rw [ha] at hadd
  obtain ⟨hw, m, hx, hm, hp⟩ : ∃ hw m, Agent.a2bHex (mac.take 12) = .ok hw ∧
      Agent.statusMsg rnd 0 (Agent.newPort (st.lastNo + 1) hw dev (some b.nextSock)).desc = .ok m ∧
      (Agent.addPort rnd st dev mac true (some (some b.nextSock))).1.ports =
        st.ports ++ [(st.lastNo + 1, Agent.newPort (st.lastNo + 1) hw dev (some b.nextSock))] := by
    rcases Agent.addPort_cases rnd st dev mac true (some (some b.nextSock)) with ⟨h, -⟩ | ⟨-, e, he⟩ | ⟨-, hw, sk, -, hsk, hx, e, h⟩
    · exact absurd h hlast
    · rw [he] at hadd; simp at hadd
    · simp only [Option.some.injEq] at hsk; subst hsk
      rcases h with ⟨-, he⟩ | ⟨m, hm, he⟩
      · rw [he] at hadd; simp at hadd
      · exact ⟨hw, m, hx, hm, by rw [he]; exact Agent.put_new (ht.new_no hlast)⟩
  obtain ⟨m', hm'⟩ := statusMsg_again (rnd' := rnd') (r' := 1) hm (by omega)
  have hmem : ∀ e ∈ (Agent.addPort rnd st dev mac true (some (some b.nextSock))).1.ports, e.2.desc.name = .str dev →
      e = (st.lastNo + 1, Agent.newPort (st.lastNo + 1) hw dev (some b.nextSock)) := by
    intro e he hn
    rw [hp, List.mem_append, List.mem_singleton] at he
    rcases he with he | he
    · exact absurd hn (hl e he)
    · exact he
  have hfind : (o.items (Agent.addPort rnd st dev mac true (some (some b.nextSock))).1.ports).find?
      (fun p => p.2.desc.name = .str dev) = some (st.lastNo + 1, Agent.newPort (st.lastNo + 1) hw dev (some b.nextSock)) := by
    cases hf : (o.items (Agent.addPort rnd st dev mac true (some (some b.nextSock))).1.ports).find?
        (fun p => p.2.desc.name = .str dev) with
    | none =>
      rw [List.find?_eq_none] at hf
      have := hf (st.lastNo + 1, Agent.newPort (st.lastNo + 1) hw dev (some b.nextSock))
        ((o.perm _).mem_iff.2 (by rw [hp]; simp))
      simp [Agent.newPort] at this
    | some e =>
      rw [hmem e ((o.perm _).mem_iff.1 (List.mem_of_find?_eq_some hf)) (by simpa using List.find?_some hf)]
  obtain ⟨l2, hdi⟩ := deinit_fine (l := []) hs hd hv h1 h2 h3
  have hdp : call ⟨{ b with running := true, ports := b.ports ++ [dev], nextSock := b.nextSock + 1 }, [], l2⟩ (.destroyPort dev) =
      (⟨{ b with running := true, nextSock := b.nextSock + 1 }, [], l2 ++ [(Call.destroyPort dev, none)]⟩, none) := by
    have m1 : b.mods.any (fun m => m.port == dev) = false := by
      simp only [List.any_eq_false, beq_iff_eq]; intro x hx h; exact h0 (h ▸ hs.mods x hx)
    have k1 : b.ports.filter (fun m => m != dev) = b.ports := filter_none fun x hx => by
      simp only [bne_iff_ne, ne_eq]; rintro rfl; exact h0 hx
    have s1 : b.socks.filter (fun m => m.2 != dev) = b.socks := filter_none fun x hx => by
      simp only [bne_iff_ne, ne_eq]; intro h; exact h0 (h ▸ hs.socks x hx)
    rw [call_fine (by simp [possible, m1])]
    simp [effect, k1, s1]
  have hnew : st.lastNo + 1 ∉ st.ports.map Prod.fst := ht.new_no hlast
  simp only [after, act, ha]
  unfold delPort
  rw [hfind]
  simp only [hm', hdi, hdp]
  refine ⟨trivial, ?_⟩
  unfold Agent.delPort
  rw [hfind]
  simp only [hm', Bool.true_eq_false, if_false]
  rw [hp]
  simp only [Agent.del, List.filter_append]
  rw [filter_none]
  · simp
  · intro x hx
    simp only [bne_iff_ne, ne_eq]
    intro h
    exact hnew (h ▸ List.mem_map_of_mem hx)

/-- A device is added to the daemon as the main program leaves it. -/
example : Sound exBess ∧ Agent.Tidy exSt ∧ ¬ InUse exBess exDev ∧ (∀ e ∈ exSt.ports, e.2.desc.name ≠ .str exDev) ∧
    (addPort 0 ⟨exBess, [], []⟩ exSt exDev exMac).2.2.2 = .ok (.added 3) := by
  refine ⟨⟨by decide +kernel, by decide +kernel, by decide +kernel⟩, Agent.tidy_start _ _, ?_, by decide +kernel, by decide +kernel⟩
  unfold InUse
  decide +kernel

/-- C116 is false when a call fails: the socket cannot be connected once, and the auxiliary port stays for ever. -/
theorem C116_refuted : ∃ (b : Bess) (st : Agent.St) (dev mac : Bytes) (o : Agent.Order), Sound b ∧ ¬ InUse b dev ∧
    let r := after b st [.add 0 dev mac [none, none, none, some .sock], .del o 0 dev []]
    r.2.ports = st.ports ∧ r.1.ports = b.ports ++ [pkt dev] :=
  ⟨exBess, exSt, exDev, exMac, exOrder, ⟨by decide +kernel, by decide +kernel, by decide +kernel⟩,
    by unfold InUse; decide +kernel, by decide +kernel, by decide +kernel⟩

/-- C116 is false for a device called 'vxlan', though nothing fails. -/
theorem C116_vxlan_refuted : ∃ (b : Bess) (st : Agent.St) (mac : Bytes) (o : Agent.Order), Sound b ∧ ¬ InUse b vxlan ∧
    let r := after b st [.add 0 vxlan mac [], .del o 0 vxlan []]
    r.2.ports = st.ports ∧ r.1.ports = b.ports ++ [pkt vxlan] ∧ r.1.socks ≠ b.socks :=
  ⟨new true, ⟨[], [], 2⟩, exMac, exOrder, ⟨by decide +kernel, by decide +kernel, by decide +kernel⟩,
    by unfold InUse; decide +kernel, by decide +kernel, by decide +kernel, by decide +kernel⟩

theorem sound_effect {b : Bess} {c : Call} (h : Sound b) (hp : possible b c = true) : Sound (effect b c) := by
  obtain ⟨h1, h2, h3⟩ := h
  cases c with
  | pauseAll => exact ⟨h1, h2, h3⟩
  | resumeAll => exact ⟨h1, h2, h3⟩
  | createPort n =>
    exact ⟨fun m hm => by simp [effect, h1 m hm], h2, fun s hs => by simp [effect, h3 s hs]⟩
  | destroyPort n =>
    simp only [possible, Bool.and_eq_true, Bool.not_eq_true', List.any_eq_false, beq_iff_eq] at hp
    refine ⟨fun m hm => ?_, h2, fun s hs => ?_⟩
    · simp only [effect, List.mem_filter, bne_iff_ne, ne_eq]
      exact ⟨h1 m hm, hp.2 m hm⟩
    · simp only [effect, List.mem_filter, bne_iff_ne, ne_eq] at hs ⊢
      exact ⟨h3 s hs.1, hs.2⟩
  | createModule m =>
    simp only [possible, Bool.and_eq_true, List.contains_iff_mem] at hp
    refine ⟨fun x hx => ?_, fun l hl => ?_, h3⟩
    · simp only [effect, List.mem_append, List.mem_singleton] at hx
      rcases hx with hx | rfl
      · exact h1 x hx
      · exact hp.1
    · obtain ⟨⟨a, ha, ha'⟩, c, hc, hc'⟩ := h2 l hl
      exact ⟨⟨a, by simp [effect, ha], ha'⟩, c, by simp [effect, hc], hc'⟩
  | destroyModule m =>
    refine ⟨fun x hx => ?_, fun l hl => ?_, h3⟩
    · exact h1 x (List.mem_filter.1 hx).1
    · simp only [effect, List.mem_filter, Bool.and_eq_true, bne_iff_ne, ne_eq] at hl
      obtain ⟨⟨a, ha, ha'⟩, c, hc, hc'⟩ := h2 l hl.1
      refine ⟨⟨a, ?_, ha'⟩, c, ?_, hc'⟩ <;> simp only [effect, List.mem_filter, bne_iff_ne, ne_eq]
      · exact ⟨ha, ha' ▸ hl.2.1⟩
      · exact ⟨hc, hc' ▸ hl.2.2⟩
  | connectModules x y =>
    simp only [possible, Bool.and_eq_true, List.any_eq_true, beq_iff_eq] at hp
    refine ⟨h1, fun l hl => ?_, h3⟩
    simp only [effect, List.mem_append, List.mem_singleton] at hl
    rcases hl with hl | rfl
    · exact h2 l hl
    · exact hp
  | disconnect x => exact ⟨h1, fun l hl => h2 l (List.mem_filter.1 hl).1, h3⟩
  | connectSocket n =>
    simp only [possible, List.contains_iff_mem] at hp
    refine ⟨h1, h2, fun s hs => ?_⟩
    simp only [effect, List.mem_append, List.mem_singleton] at hs
    rcases hs with hs | rfl
    · exact h3 s hs
    · exact hp

theorem act_inv {P : Bess → Prop} (h : ∀ c b, P b → possible b c = true → P (effect b c)) (b : Bess) (st : Agent.St) (a : Act)
    (hb : P b) : P (act b st a).1.bess := by
  cases a with
  | msg o rnd m => simp only [act]; split <;> exact hb
  | add rnd dev mac ans => exact add_inv rnd ⟨b, ans, []⟩ st dev mac (h _) (fun c _ => h c) (fun c _ => h c) hb
  | del o rnd dev ans => exact del_inv o rnd ⟨b, ans, []⟩ st dev (h _) (fun c _ => h c) hb

/-- The hypothesis `Sound` of `C116_partial` always holds: a new daemon is sound, and whatever happens and fails, it stays so. -/
theorem C116_sound : ∀ (as : List Act) (b : Bess) (st : Agent.St), Sound b → Sound (after b st as).1
  | [], _, _, h => h
  | a :: as, b, st, h => C116_sound as _ _ (act_inv (fun _ _ => sound_effect) b st a h)

/-- The main program on a new daemon ends in such a state, and lists the three ports. -/
example : Sound (new false) ∧ (setup exOrder ⟨new false, [], []⟩).1.bess = exBess ∧
    (setup exOrder ⟨new false, [], []⟩).2 = some exSt :=
  ⟨⟨by decide, by decide, by decide⟩, by decide +kernel, by decide +kernel⟩

/-- The auxiliary port is there, but nothing takes in what arrives at it. -/
def Poisoned (dev : Name) (b : Bess) : Prop := pkt dev ∈ b.ports ∧ ∀ m ∈ b.mods, m.name ≠ pi dev

/-- Runs that come to a call that is refused go no further. -/
theorem run_blocked {P : Bess → Prop} {c : Call} (hc : ∀ b, P b → possible b c = false) (bs : List Call) :
    ∀ (as : List Call) (w : World), (∀ a ∈ as, ∀ b, P b → possible b a = true → P (effect b a)) → P w.bess →
    P (run w (as ++ c :: bs)).1.bess ∧ (run w (as ++ c :: bs)).2 ≠ none
  | [], w, _, h => by
    simp only [List.nil_append, run]
    rcases call_spec w c with ⟨e, hw⟩ | ⟨hp, hw⟩
    · rw [hw]; exact ⟨h, by simp⟩
    · rw [hc _ h] at hp; simp at hp
  | a :: as, w, ha, h => by
    simp only [List.cons_append, run]
    rcases call_spec w a with ⟨e, hw⟩ | ⟨hp, hw⟩ <;> rw [hw]
    · exact ⟨h, by simp⟩
    · exact run_blocked hc bs as _ (fun a' h' => ha a' (by simp [h'])) (ha a (by simp) _ h hp)

theorem poisoned_init {dev : Name} (hd : dev ≠ brInt) (w : World) (h : Poisoned dev w.bess) :
    Poisoned dev (initPkt w dev).1.bess ∧ ∀ s, (initPkt w dev).2 = .ok s → s = none := by
  have hr := run_blocked (P := Poisoned dev) (c := .createPort (pkt dev)) (fun b hb => by simp [possible, hb.1])
    [.connectSocket (pkt dev)] [.pauseAll] w (fun a ha b hb _ => by simp at ha; subst ha; exact hb) h
  unfold initPkt
  rw [if_neg hd]
  have e : initTry dev = [.pauseAll] ++ .createPort (pkt dev) :: [.connectSocket (pkt dev)] := rfl
  rw [e]
  generalize run w ([.pauseAll] ++ .createPort (pkt dev) :: [.connectSocket (pkt dev)]) = r at hr
  obtain ⟨w1, x⟩ := r
  obtain ⟨h1, h2⟩ := hr
  cases x with
  | none => exact absurd rfl h2
  | some e =>
    have c := call_inv (P := Poisoned dev) w1 .resumeAll (fun b hb _ => hb) h1
    cases e
    case other => exact ⟨h1, by simp⟩
    all_goals
      dsimp only
      generalize call w1 .resumeAll = r at c
      obtain ⟨w2, x⟩ := r
      cases x
      · exact ⟨c, by simp⟩
      · exact ⟨c, by simp⟩

theorem poisoned_deinit {dev : Name} (w : World) (h : Poisoned dev w.bess) : Poisoned dev (deinitPkt w dev).1.bess := by
  unfold deinitPkt
  by_cases hd : dev = brInt
  · rw [if_pos hd]; exact h
  rw [if_neg hd]
  have hr : Poisoned dev (run w (deinitTry dev)).1.bess := by
    by_cases hv : dev = vxlan
    · refine run_inv _ w (fun c hc b hb _ => ?_) h
      simp only [deinitTry, if_pos hv, List.append_nil, List.cons_append, List.nil_append, List.mem_cons, List.not_mem_nil,
        or_false] at hc
      rcases hc with rfl | rfl <;> exact hb
    · have e : deinitTry dev = [.pauseAll] ++ .disconnect (pi dev) ::
          [.destroyModule (pi dev), .destroyModule (po dev), .destroyPort (pkt dev), .resumeAll] := by
        simp [deinitTry, if_neg hv]
      rw [e]
      exact (run_blocked (P := Poisoned dev) (fun b hb => by simpa [possible] using hb.2) _ [.pauseAll] w
        (fun a ha b hb _ => by simp at ha; subst ha; exact hb) h).1
  generalize run w (deinitTry dev) = r at hr
  obtain ⟨w1, x⟩ := r
  cases x with
  | none => exact hr
  | some e =>
    cases e
    · exact call_inv (P := Poisoned dev) w1 .resumeAll (fun b hb _ => hb) hr
    · exact hr
    · exact hr

theorem poisoned_other {dev d : Name} (hne : d ≠ dev) (hp : d ≠ pkt dev) {c : Call}
    (hc : c ∈ Call.createPort d :: .destroyPort d :: (initTry d ++ initElse d ++ deinitTry d)) {b : Bess} (h : Poisoned dev b) :
    Poisoned dev (effect b c) := by
  have hk : ∀ x : Name, x ≠ pkt dev → Poisoned dev (effect b (.destroyPort x)) := by
    intro x hx
    refine ⟨?_, h.2⟩
    simp only [effect, List.mem_filter, bne_iff_ne, ne_eq]
    exact ⟨h.1, fun e => hx e.symm⟩
  have hm : ∀ m : Mod, m.name ≠ pi dev → Poisoned dev (effect b (.createModule m)) := by
    intro m hm
    refine ⟨h.1, ?_⟩
    intro x hx
    simp only [effect, List.mem_append, List.mem_singleton] at hx
    rcases hx with hx | rfl
    · exact h.2 x hx
    · exact hm
  have hcr : ∀ x : Name, Poisoned dev (effect b (.createPort x)) := fun x => ⟨by simp [effect, h.1], h.2⟩
  have hdm : ∀ x : Name, Poisoned dev (effect b (.destroyModule x)) := fun x => ⟨h.1, fun m hm => h.2 m (List.mem_filter.1 hm).1⟩
  have : c = .pauseAll ∨ c = .resumeAll ∨ c = .createPort d ∨ c = .destroyPort d ∨ c = .createPort (pkt d) ∨
      c = .connectSocket (pkt d) ∨ c = .createModule ⟨true, pi d, pkt d⟩ ∨ c = .createModule ⟨false, po d, d⟩ ∨
      c = .connectModules (pi d) (po d) ∨ c = .disconnect (pi d) ∨ c = .destroyModule (pi d) ∨ c = .destroyModule (po d) ∨
      c = .destroyPort (pkt d) := by
    simp only [initTry, initElse, deinitTry] at hc
    by_cases hv : d = vxlan
    · simp only [if_pos hv] at hc; simp at hc; tauto
    · simp only [if_neg hv] at hc; simp at hc; tauto
  rcases this with rfl | rfl | rfl | rfl | rfl | rfl | rfl | rfl | rfl | rfl | rfl | rfl | rfl
  · exact h
  · exact h
  · exact hcr _
  · exact hk _ hp
  · exact hcr _
  · exact h
  · exact hm _ (by simpa [pi_inj] using hne)
  · exact hm _ (Ne.symm (pi_ne_po _ _))
  · exact h
  · exact h
  · exact hdm _
  · exact hdm _
  · exact hk _ (by simpa [pkt_inj] using hne)

/-- The device an event is about. -/
def About (dev : Name) : Act → Prop
  | .add _ d _ _ => d = dev
  | .del _ _ d _ => d = dev
  | .msg .. => False

theorem mem_put {α : Type} {d : List (Nat × α)} {k : Nat} {v : α} {e : Nat × α} (h : e ∈ Agent.put d k v) :
    e = (k, v) ∨ (e ∈ d ∧ e.1 ≠ k) := by
  unfold Agent.put at h
  by_cases ha : d.any (·.1 == k) = true
  · rw [if_pos ha] at h
    simp only [List.mem_map] at h
    obtain ⟨x, hx, rfl⟩ := h
    by_cases hk : x.1 = k
    · rw [if_pos hk]; exact .inl rfl
    · rw [if_neg hk]; exact .inr ⟨hx, hk⟩
  · rw [if_neg ha] at h
    simp only [List.mem_append, List.mem_singleton] at h
    rcases h with h | h
    · refine .inr ⟨h, fun hk => ha ?_⟩
      simp only [List.any_eq_true, beq_iff_eq]
      exact ⟨e, h, hk⟩
    · exact .inl h

theorem poisoned_act {dev : Name} (hd : dev ≠ brInt) (b : Bess) (st : Agent.St) (a : Act) (ha : ¬ About (pkt dev) a)
    (h : Poisoned dev b) : Poisoned dev (act b st a).1.bess ∧
      ∀ e ∈ (act b st a).2.ports, e.2.desc.name = .str dev → e ∈ st.ports ∨ e.2.sock = none := by
  cases a with
  | msg o rnd m =>
    simp only [act]
    split
    · rename_i st' es he
      exact ⟨h, fun e he' _ => .inl (by rw [← (Agent.switchProc_keeps he).1]; exact he')⟩
    · exact ⟨h, fun e he' _ => .inl he'⟩
  | del o rnd d ans =>
    have hl : ∀ x, (Agent.delPort o rnd st d x).1.ports ⊆ st.ports := by
      intro x
      rcases Agent.delPort_cases o rnd st d x with ⟨-, he⟩ | ⟨e, -, -, ⟨y, -, he⟩ | ⟨m, -, ⟨-, he⟩ | ⟨-, he⟩⟩⟩ <;> rw [he]
      · exact fun _ h => h
      · exact fun _ h => h
      · exact fun _ h => h
      · exact fun _ h => (List.mem_filter.1 h).1
    have hports : ∃ x, (delPort o rnd ⟨b, ans, []⟩ st d).2 = Agent.delPort o rnd st d x := by
      unfold delPort
      split
      · exact ⟨_, rfl⟩
      · split
        · exact ⟨_, rfl⟩
        · split
          · exact ⟨_, rfl⟩
          · split <;> exact ⟨_, rfl⟩
    obtain ⟨x, hx⟩ := hports
    refine ⟨?_, fun e he _ => .inl ?_⟩
    · by_cases hdd : d = dev
      · subst hdd
        simp only [act, delPort]
        have c := poisoned_deinit ⟨b, ans, []⟩ h
        split
        · exact h
        · split
          · exact h
          · generalize deinitPkt ⟨b, ans, []⟩ d = r at c
            obtain ⟨w1, x⟩ := r
            cases x with
            | some e => exact c
            | none =>
              have k : Poisoned d (call w1 (.destroyPort d)).1.bess := by
                rcases call_spec w1 (.destroyPort d) with ⟨e, hw⟩ | ⟨_, hw⟩ <;> rw [hw]
                · exact c
                · refine ⟨?_, c.2⟩
                  simp only [effect, List.mem_filter, bne_iff_ne, ne_eq]
                  exact ⟨c.1, pkt_ne d⟩
              dsimp only
              generalize call w1 (.destroyPort d) = r at k
              obtain ⟨w2, x⟩ := r
              cases x <;> exact k
      · exact del_inv o rnd ⟨b, ans, []⟩ st d (fun b hb _ => poisoned_other hdd ha (by simp) hb)
          (fun c hc b hb _ => poisoned_other hdd ha (by simp [hc]) hb) h
    · simp only [act, hx] at he
      exact hl x he
  | add rnd d mac ans =>
    by_cases hdd : d = dev
    · subst hdd
      simp only [act, addPort]
      by_cases hn : st.lastNo + 1 = 0xfffffffe
      · rw [if_pos hn]
        refine ⟨h, fun e he _ => .inl ?_⟩
        simpa [Agent.addPort, hn] using he
      rw [if_neg hn]
      have c : Poisoned d (call ⟨b, ans, []⟩ (.createPort d)).1.bess := by
        rcases call_spec ⟨b, ans, []⟩ (.createPort d) with ⟨e, hw⟩ | ⟨_, hw⟩ <;> rw [hw]
        · exact h
        · exact ⟨by simp [effect, h.1], h.2⟩
      generalize call ⟨b, ans, []⟩ (.createPort d) = r at c
      obtain ⟨w1, x⟩ := r
      cases x with
      | some e =>
        refine ⟨c, fun e he _ => .inl ?_⟩
        simpa [Agent.addPort, hn] using he
      | none =>
        obtain ⟨k1, k2⟩ := poisoned_init hd w1 c
        dsimp only
        generalize initPkt w1 d = r at k1 k2
        obtain ⟨w2, x⟩ := r
        cases x with
        | error y =>
          refine ⟨k1, fun e he _ => .inl ?_⟩
          simpa [Agent.addPort, hn] using he
        | ok s =>
          obtain rfl := k2 s rfl
          refine ⟨k1, fun e he _ => ?_⟩
          dsimp only at he
          rcases Agent.addPort_cases rnd st d mac true (some none) with ⟨h', -⟩ | ⟨-, y, hy⟩ | ⟨-, hw, sk, -, hsk, hx, y, hy⟩
          · exact absurd h' hn
          · rw [hy] at he; exact .inl he
          · simp only [Option.some.injEq] at hsk; subst hsk
            have he' : e ∈ Agent.put st.ports (st.lastNo + 1) (Agent.newPort (st.lastNo + 1) hw d none) := by
              rcases hy with ⟨-, hy⟩ | ⟨m, -, hy⟩ <;> rw [hy] at he <;> exact he
            rcases mem_put he' with rfl | ⟨he', -⟩
            · exact .inr rfl
            · exact .inl he'
    · refine ⟨add_inv rnd ⟨b, ans, []⟩ st d mac (fun b hb _ => poisoned_other hdd ha (by simp) hb)
        (fun c hc b hb _ => poisoned_other hdd ha (by simp [hc]) hb) (fun c hc b hb _ => poisoned_other hdd ha (by simp [hc]) hb) h, ?_⟩
      have hports : ∃ x y, (addPort rnd ⟨b, ans, []⟩ st d mac).2 = Agent.addPort rnd st d mac x y := by
        unfold addPort
        by_cases hn : st.lastNo + 1 = 0xfffffffe
        · rw [if_pos hn]; exact ⟨true, some none, rfl⟩
        rw [if_neg hn]
        split
        · exact ⟨false, none, rfl⟩
        · split
          · exact ⟨true, none, rfl⟩
          · exact ⟨true, some _, rfl⟩
      obtain ⟨x, y, hxy⟩ := hports
      intro e he hen
      simp only [act, hxy] at he
      rcases Agent.addPort_cases rnd st d mac x y with ⟨-, hy⟩ | ⟨-, z, hy⟩ | ⟨-, hw, sk, -, -, -, z, hy⟩
      · rw [hy] at he; exact .inl he
      · rw [hy] at he; exact .inl he
      · have he' : e ∈ Agent.put st.ports (st.lastNo + 1) (Agent.newPort (st.lastNo + 1) hw d sk) := by
          rcases hy with ⟨-, hy⟩ | ⟨m, -, hy⟩ <;> rw [hy] at he <;> exact he
        rcases mem_put he' with rfl | ⟨he', -⟩
        · simp [Agent.newPort] at hen; exact absurd hen hdd
        · exact .inl he'

/-- One failure is for ever: once the auxiliary port of a device has been left behind, then whatever is added and deleted later, with
whatever answers, the port stays, and each later entry for this device is without a socket: nothing can be sent out of it. -/
theorem C116_poisoned (dev : Name) (hd : dev ≠ brInt) : ∀ (as : List Act) (b : Bess) (st : Agent.St), Poisoned dev b →
    (∀ a ∈ as, ¬ About (pkt dev) a) →
    Poisoned dev (after b st as).1 ∧
      ∀ e ∈ (after b st as).2.ports, e.2.desc.name = .str dev → e ∈ st.ports ∨ e.2.sock = none
  | [], _, _, h, _ => ⟨h, fun _ he _ => .inl he⟩
  | a :: as, b, st, h, ha => by
    obtain ⟨h1, h2⟩ := poisoned_act hd b st a (ha a (by simp)) h
    obtain ⟨h3, h4⟩ := C116_poisoned dev hd as _ (act b st a).2 h1 (fun a' h' => ha a' (by simp [h']))
    refine ⟨h3, fun e he hn => ?_⟩
    rcases h4 e he hn with h5 | h5
    · exact h2 e h5 hn
    · exact .inr h5

/-- The state after a socket could not be connected once, and the device was deleted. -/
example : let r := after exBess exSt [.add 0 exDev exMac [none, none, none, some .sock], .del exOrder 0 exDev []]
    Poisoned exDev r.1 ∧ (∀ e ∈ r.2.ports, e.2.desc.name ≠ .str exDev) ∧
      ((after r.1 r.2 [.add 0 exDev exMac []]).2.ports.map fun e => e.2.sock) = [none, some 0, some 1, none] := by
  unfold Poisoned
  decide +kernel

end Twink.BessSide
