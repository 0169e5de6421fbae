import Verif.Props.BessSide2
import Verif.Props.Exact

/-!
# C117: a packet sent to a port of the switch leaves at the device of that name
-/

namespace Twink.BessSide

/-- The names, links and sockets are those that the functions make. -/
structure Shape (b : Bess) : Prop where
  mods : ∀ m ∈ b.mods, (m.inc = true ∧ ∃ n, m = ⟨true, pi n, pkt n⟩) ∨ (m.inc = false ∧ ∃ n, m = ⟨false, po n, n⟩)
  links : ∀ l ∈ b.links, ∃ n, l = (pi n, po n)
  low : ∀ s ∈ b.socks, s.1 < b.nextSock
  socks : ∀ s ∈ b.socks, ∀ s' ∈ b.socks, s.1 = s'.1 → s = s'

/-- The socket leads to the device. -/
structure Wired (b : Bess) (s : Nat) (n : Name) : Prop where
  port : n ∈ b.ports
  sock : (s, pkt n) ∈ b.socks
  inn : ⟨true, pi n, pkt n⟩ ∈ b.mods
  link : (pi n, po n) ∈ b.links
  out : ⟨false, po n, n⟩ ∈ b.mods

theorem leaves_of {b : Bess} (h : Shape b) {s : Nat} {n : Name} (hw : Wired b s n) (d : Name) : Leaves b s d ↔ d = n := by
  constructor
  · rintro ⟨q, m, m', h1, h2, h3, h4⟩
    have hq : q = pkt n := by
      have := h.socks _ h1 _ hw.sock rfl
      simpa using this
    subst hq
    rcases h.mods _ h2 with ⟨-, k, hk⟩ | ⟨hi, -⟩
    · simp only [Mod.mk.injEq, pkt_inj, true_and] at hk
      obtain ⟨rfl, hk⟩ := hk
      obtain ⟨j, hj⟩ := h.links _ h3
      simp only [Prod.mk.injEq, pi_inj] at hj
      obtain ⟨rfl, rfl⟩ := hj
      rcases h.mods _ h4 with ⟨hi, -⟩ | ⟨-, i, hi⟩
      · simp at hi
      · simp only [Mod.mk.injEq, po_inj, true_and] at hi
        rw [hi.2, ← hi.1, hk]
    · simp at hi
  · rintro rfl
    exact ⟨_, _, _, hw.sock, hw.inn, hw.link, hw.out⟩

/-- The calls that the functions make for a device. -/
theorem calls_of {d : Name} {c : Call}
    (hc : c ∈ Call.createPort d :: .destroyPort d :: (initTry d ++ initElse d ++ deinitTry d)) :
    c = .pauseAll ∨ c = .resumeAll ∨ c = .createPort d ∨ c = .destroyPort d ∨ c = .createPort (pkt d) ∨
      c = .connectSocket (pkt d) ∨ c = .createModule ⟨true, pi d, pkt d⟩ ∨ c = .createModule ⟨false, po d, d⟩ ∨
      c = .connectModules (pi d) (po d) ∨ c = .disconnect (pi d) ∨ c = .destroyModule (pi d) ∨ c = .destroyModule (po d) ∨
      c = .destroyPort (pkt d) := by
  simp only [initTry, initElse, deinitTry] at hc
  by_cases hv : d = vxlan
  · simp only [if_pos hv] at hc; simp at hc; tauto
  · simp only [if_neg hv] at hc; simp at hc; tauto

theorem shape_effect {d : Name} {c : Call}
    (hc : c ∈ Call.createPort d :: .destroyPort d :: (initTry d ++ initElse d ++ deinitTry d)) {b : Bess} (h : Shape b) :
    Shape (effect b c) := by
  obtain ⟨h1, h2, h3, h4⟩ := h
  have hdp : ∀ x, Shape (effect b (.destroyPort x)) := fun x =>
    ⟨h1, h2, fun s hs => h3 s (List.mem_filter.1 hs).1, fun s hs s' hs' => h4 s (List.mem_filter.1 hs).1 s' (List.mem_filter.1 hs').1⟩
  have hdm : ∀ x, Shape (effect b (.destroyModule x)) := fun x =>
    ⟨fun m hm => h1 m (List.mem_filter.1 hm).1, fun l hl => h2 l (List.mem_filter.1 hl).1, h3, h4⟩
  rcases calls_of hc with rfl | rfl | rfl | rfl | rfl | rfl | rfl | rfl | rfl | rfl | rfl | rfl | rfl
  · exact ⟨h1, h2, h3, h4⟩
  · exact ⟨h1, h2, h3, h4⟩
  · exact ⟨h1, h2, h3, h4⟩
  · exact hdp _
  · exact ⟨h1, h2, h3, h4⟩
  · refine ⟨h1, h2, fun s hs => ?_, fun s hs s' hs' he => ?_⟩
    · simp only [effect, List.mem_append, List.mem_singleton] at hs ⊢
      rcases hs with hs | rfl
      · have := h3 s hs; omega
      · simp
    · simp only [effect, List.mem_append, List.mem_singleton] at hs hs'
      rcases hs with hs | rfl <;> rcases hs' with hs' | rfl
      · exact h4 s hs s' hs' he
      · have := h3 s hs; simp at he; omega
      · have := h3 s' hs'; simp at he; omega
      · rfl
  · refine ⟨fun m hm => ?_, h2, h3, h4⟩
    simp only [effect, List.mem_append, List.mem_singleton] at hm
    rcases hm with hm | rfl
    · exact h1 m hm
    · exact .inl ⟨rfl, d, rfl⟩
  · refine ⟨fun m hm => ?_, h2, h3, h4⟩
    simp only [effect, List.mem_append, List.mem_singleton] at hm
    rcases hm with hm | rfl
    · exact h1 m hm
    · exact .inr ⟨rfl, d, rfl⟩
  · refine ⟨h1, fun l hl => ?_, h3, h4⟩
    simp only [effect, List.mem_append, List.mem_singleton] at hl
    rcases hl with hl | rfl
    · exact h2 l hl
    · exact ⟨d, rfl⟩
  · exact ⟨h1, fun l hl => h2 l (List.mem_filter.1 hl).1, h3, h4⟩
  · exact hdm _
  · exact hdm _
  · exact hdp _

/-- Calls for one device leave the way to another alone. -/
theorem wired_effect {d : Name} {c : Call}
    (hc : c ∈ Call.createPort d :: .destroyPort d :: (initTry d ++ initElse d ++ deinitTry d)) {b : Bess} {s : Nat} {n : Name}
    (hne : d ≠ n) (hp : n ≠ pkt d) (hq : d ≠ pkt n) (h : Wired b s n) : Wired (effect b c) s n := by
  obtain ⟨h1, h2, h3, h4, h5⟩ := h
  have hdp : ∀ x, x ≠ n → x ≠ pkt n → Wired (effect b (.destroyPort x)) s n := fun x a e =>
    ⟨by simp [effect, h1, Ne.symm a], by simp [effect, h2, Ne.symm e], h3, h4, h5⟩
  have hdm : ∀ x, x ≠ pi n → x ≠ po n → Wired (effect b (.destroyModule x)) s n := fun x a e =>
    ⟨h1, h2, by simp [effect, h3, Ne.symm a], by simp [effect, h4, Ne.symm a, Ne.symm e], by simp [effect, h5, Ne.symm e]⟩
  rcases calls_of hc with rfl | rfl | rfl | rfl | rfl | rfl | rfl | rfl | rfl | rfl | rfl | rfl | rfl
  · exact ⟨h1, h2, h3, h4, h5⟩
  · exact ⟨h1, h2, h3, h4, h5⟩
  · exact ⟨by simp [effect, h1], h2, h3, h4, h5⟩
  · exact hdp _ hne hq
  · exact ⟨by simp [effect, h1], h2, h3, h4, h5⟩
  · exact ⟨h1, by simp [effect, h2], h3, h4, h5⟩
  · exact ⟨h1, h2, by simp [effect, h3], h4, by simp [effect, h5]⟩
  · exact ⟨h1, h2, by simp [effect, h3], h4, by simp [effect, h5]⟩
  · exact ⟨h1, h2, h3, by simp [effect, h4], h5⟩
  · exact ⟨h1, h2, h3, by simp [effect, h4, pi_inj, Ne.symm hne], h5⟩
  · exact hdm _ (by simpa [pi_inj] using hne) (pi_ne_po _ _)
  · exact hdm _ (Ne.symm (pi_ne_po _ _)) (by simpa [po_inj] using hne)
  · exact hdp _ (Ne.symm hp) (by simpa [pkt_inj] using hne)

/-- A run that raises nothing has carried out all calls. -/
theorem run_ok : ∀ (cs : List Call) (w : World), (run w cs).2 = none →
    (run w cs).1.bess = cs.foldl effect w.bess ∧
      ∀ pre c post, cs = pre ++ c :: post → possible (pre.foldl effect w.bess) c = true
  | [], _, _ => ⟨rfl, fun pre c post h => by simp at h⟩
  | c :: cs, w, h => by
    unfold run at h ⊢
    rcases call_spec w c with ⟨e, hw⟩ | ⟨hp, hw⟩ <;> rw [hw] at h ⊢
    · simp at h
    · obtain ⟨h1, h2⟩ := run_ok cs _ h
      refine ⟨h1, fun pre c' post he => ?_⟩
      cases pre with
      | nil => simp at he; obtain ⟨rfl, -⟩ := he; exact hp
      | cons x pre =>
        simp at he
        obtain ⟨rfl, he⟩ := he
        exact h2 pre c' post he

/-- What `init_pktinout_port` makes when it returns a socket. -/
theorem init_wired {w : World} {n : Name} {s : Nat} (hv : n ≠ vxlan) (h : (initPkt w n).2 = .ok (some s)) :
    Wired (initPkt w n).1.bess s n := by
  unfold initPkt at h ⊢
  by_cases hn : n = brInt
  · rw [if_pos hn] at h; simp at h
  rw [if_neg hn] at h ⊢
  have a := run_ok (initTry n) w
  generalize run w (initTry n) = r at a h
  obtain ⟨w1, x⟩ := r
  cases x with
  | some e =>
    cases e
    case other => simp at h
    all_goals
      dsimp only at h
      generalize call w1 .resumeAll = r at h
      obtain ⟨w2, x⟩ := r
      cases x <;> simp at h
  | none =>
    obtain ⟨a1, -⟩ := a rfl
    dsimp only at h a1 ⊢
    have b := run_ok (initElse n) w1
    generalize run w1 (initElse n) = r at b h
    obtain ⟨w2, x⟩ := r
    cases x with
    | some e => simp at h
    | none =>
      obtain ⟨b1, b2⟩ := b rfl
      simp only [Except.ok.injEq, Option.some.injEq] at h
      subst h
      have hp : n ∈ w1.bess.ports := by
        have := b2 [.createModule ⟨true, pi n, pkt n⟩] (.createModule ⟨false, po n, n⟩)
          [.connectModules (pi n) (po n), .resumeAll] (by simp [initElse, hv])
        simp only [List.foldl_cons, List.foldl_nil, possible, effect, Bool.and_eq_true, List.contains_iff_mem] at this
        exact this.1
      have e2 : w2.bess = { w1.bess with
          running := true, mods := w1.bess.mods ++ [⟨true, pi n, pkt n⟩] ++ [⟨false, po n, n⟩],
          links := w1.bess.links ++ [(pi n, po n)] } := by
        simp only at b1
        rw [b1]
        simp [initElse, hv, effect]
      have e1 : (w1.bess.nextSock - 1, pkt n) ∈ w1.bess.socks := by
        rw [a1]; simp [initTry, effect]
      dsimp only
      rw [e2]
      exact ⟨hp, e1, by simp, by simp, by simp⟩

theorem given_ne_pkt {n : Name} (h : n ∈ given) (d : Name) : n ≠ pkt d := by
  simp only [given, List.mem_cons, List.not_mem_nil, or_false] at h
  rcases h with rfl | rfl | rfl <;> simp [brInt, vxlan, dpif, pkt]

/-- What holds of the daemon and the switch. -/
structure Inv (b : Bess) (st : Agent.St) : Prop where
  shape : Shape b
  text : ∀ e ∈ st.ports, e.2.desc.name = .str (nameOf e.2)
  one : ∀ e ∈ st.ports, ∀ e' ∈ st.ports, nameOf e.2 = nameOf e'.2 → e = e'
  listed : ∀ e ∈ st.ports, nameOf e.2 ∈ given ∨ (Plain (nameOf e.2) ∧ nameOf e.2 ∈ b.ports)
  wired : ∀ e ∈ st.ports, ∀ s, e.2.sock = some s → nameOf e.2 = vxlan ∨ Wired b s (nameOf e.2)

theorem Inv.name_ne_pkt {b : Bess} {st : Agent.St} (h : Inv b st) {e : Nat × Agent.OfPort} (he : e ∈ st.ports) (d : Name) :
    nameOf e.2 ≠ pkt d := by
  rcases h.listed e he with h1 | ⟨h1, -⟩
  · exact given_ne_pkt h1 d
  · exact h1.2 d

/-- Calls for one device leave other ports of the daemon alone. -/
theorem port_effect {d n : Name} {c : Call}
    (hc : c ∈ Call.createPort d :: .destroyPort d :: (initTry d ++ initElse d ++ deinitTry d)) {b : Bess}
    (hne : d ≠ n) (hp : n ≠ pkt d) (h : n ∈ b.ports) : n ∈ (effect b c).ports := by
  rcases calls_of hc with rfl | rfl | rfl | rfl | rfl | rfl | rfl | rfl | rfl | rfl | rfl | rfl | rfl <;>
    simp [effect, h, Ne.symm hne, hp]

theorem ports_grow {d n : Name} {c : Call} (hc : c ∈ Call.createPort d :: (initTry d ++ initElse d)) {b : Bess}
    (h : n ∈ b.ports) : n ∈ (effect b c).ports := by
  simp only [initTry, initElse] at hc
  by_cases hv : d = vxlan
  · simp only [if_pos hv] at hc
    simp only [List.nil_append, List.cons_append, List.mem_cons, List.not_mem_nil, or_false] at hc
    rcases hc with rfl | rfl | rfl | rfl | rfl <;> simp [effect, h]
  · simp only [if_neg hv] at hc
    simp only [List.nil_append, List.cons_append, List.mem_cons, List.not_mem_nil, or_false] at hc
    rcases hc with rfl | rfl | rfl | rfl | rfl | rfl | rfl | rfl <;> simp [effect, h]

theorem inv_msg {b : Bess} {st st' : Agent.St} (h : Inv b st) (hp : st'.ports = st.ports) : Inv b st' := by
  obtain ⟨h1, h2, h3, h4, h5⟩ := h
  exact ⟨h1, by rw [hp]; exact h2, by rw [hp]; exact h3, by rw [hp]; exact h4, by rw [hp]; exact h5⟩

theorem inv_add {b : Bess} {st : Agent.St} (h : Inv b st) (rnd : Nat) (d mac : Bytes) (ans : List (Option Exn)) (hd : Plain d) :
    Inv (act b st (.add rnd d mac ans)).1.bess (act b st (.add rnd d mac ans)).2 := by
  have hdb : d ≠ vxlan := fun e => hd.1 (by simp [e, given])
  simp only [act, addPort]
  by_cases hn : st.lastNo + 1 = 0xfffffffe
  · rw [if_pos hn]
    exact inv_msg h (by simp [Agent.addPort, hn])
  rw [if_neg hn]
  rcases call_spec ⟨b, ans, []⟩ (.createPort d) with ⟨e, hw⟩ | ⟨hp, hw⟩
  · rw [hw]
    exact inv_msg h (by simp [Agent.addPort, hn])
  rw [hw]
  have hnew : d ∉ b.ports := by simpa [possible] using hp
  have hother : ∀ e ∈ st.ports, nameOf e.2 ≠ d := by
    rintro e he rfl
    rcases h.listed e he with h1 | ⟨-, h1⟩
    · exact hd.1 h1
    · exact hnew h1
  have hs1 : Shape (effect b (.createPort d)) := shape_effect (d := d) (by simp) h.shape
  have hs2 : Shape (initPkt ⟨effect b (.createPort d), ans.tail, [] ++ [(Call.createPort d, none)]⟩ d).1.bess :=
    init_inv (P := Shape) _ d (fun c hc b hb _ => shape_effect (d := d) (by simp [hc]) hb)
      (fun c hc b hb _ => shape_effect (d := d) (by simp [hc]) hb) hs1
  have hp2 : ∀ n, n ∈ (effect b (.createPort d)).ports →
      n ∈ (initPkt ⟨effect b (.createPort d), ans.tail, [] ++ [(Call.createPort d, none)]⟩ d).1.bess.ports := fun n hn =>
    init_inv (P := fun b => n ∈ b.ports) _ d (fun c hc b hb _ => ports_grow (d := d) (by simp [hc]) hb)
      (fun c hc b hb _ => ports_grow (d := d) (by simp [hc]) hb) hn
  have hw2 : ∀ e ∈ st.ports, ∀ s, Wired b s (nameOf e.2) →
      Wired (initPkt ⟨effect b (.createPort d), ans.tail, [] ++ [(Call.createPort d, none)]⟩ d).1.bess s (nameOf e.2) := by
    intro e he s hw
    have a1 := Ne.symm (hother e he)
    have a2 := h.name_ne_pkt he d
    have a3 := hd.2 (nameOf e.2)
    exact init_inv (P := fun b => Wired b s (nameOf e.2)) _ d
      (fun c hc b hb _ => wired_effect (d := d) (by simp [hc]) a1 a2 a3 hb)
      (fun c hc b hb _ => wired_effect (d := d) (by simp [hc]) a1 a2 a3 hb) (wired_effect (d := d) (c := .createPort d) (by simp) a1 a2 a3 hw)
  have hsock := fun s => init_wired (w := ⟨effect b (.createPort d), ans.tail, [] ++ [(Call.createPort d, none)]⟩) (s := s) hdb
  have hdp := hp2 d (by simp [effect])
  have hkeep : ∀ e ∈ st.ports, nameOf e.2 ∈ b.ports → nameOf e.2 ∈ (effect b (.createPort d)).ports :=
    fun e _ h => by simp [effect, h]
  dsimp only
  generalize initPkt ⟨effect b (.createPort d), ans.tail, [] ++ [(Call.createPort d, none)]⟩ d = r at hs2 hp2 hw2 hsock hdp
  obtain ⟨w2, x⟩ := r
  -- the entries of before
  have old : Inv w2.bess st :=
    ⟨hs2, h.text, h.one, fun e he => (h.listed e he).imp id fun a => ⟨a.1, hp2 _ (hkeep e he a.2)⟩,
      fun e he s hs => (h.wired e he s hs).imp id fun a => hw2 e he s a⟩
  cases x with
  | error y => exact inv_msg old (by simp [Agent.addPort, hn])
  | ok sk =>
    dsimp only
    rcases Agent.addPort_cases rnd st d mac true (some sk) with ⟨h', -⟩ | ⟨-, y, hy⟩ | ⟨-, hw', sk', -, hsk, hx, y, hy⟩
    · exact absurd h' hn
    · exact inv_msg old (by rw [hy])
    · simp only [Option.some.injEq] at hsk; subst hsk
      have hports : (Agent.addPort rnd st d mac true (some sk)).1.ports =
          Agent.put st.ports (st.lastNo + 1) (Agent.newPort (st.lastNo + 1) hw' d sk) := by
        rcases hy with ⟨-, hy⟩ | ⟨m, -, hy⟩ <;> rw [hy]
      have hname : nameOf (Agent.newPort (st.lastNo + 1) hw' d sk) = d := rfl
      refine ⟨hs2, ?_, ?_, ?_, ?_⟩ <;> rw [hports]
      · intro e he
        rcases mem_put he with rfl | ⟨he, -⟩
        · rfl
        · exact h.text e he
      · intro e he e' he' hne
        rcases mem_put he with rfl | ⟨he, -⟩ <;> rcases mem_put he' with rfl | ⟨he', -⟩
        · rfl
        · exact absurd (hne.symm.trans hname) (hother e' he')
        · exact absurd (hne.trans hname) (hother e he)
        · exact h.one e he e' he' hne
      · intro e he
        rcases mem_put he with rfl | ⟨he, -⟩
        · exact .inr ⟨hd, hdp⟩
        · exact old.listed e he
      · intro e he s hs
        rcases mem_put he with rfl | ⟨he, -⟩
        · right
          have : sk = some s := hs
          subst this
          exact hsock s rfl
        · exact old.wired e he s hs

/-- Nothing is refused without need. -/
theorem call_sure {w : World} (hf : ∀ a ∈ w.ans, a = none) (c : Call) :
    (∀ a ∈ (call w c).1.ans, a = none) ∧
    ((possible w.bess c = true ∧ (call w c).1.bess = effect w.bess c ∧ (call w c).2 = none) ∨
     (possible w.bess c = false ∧ (call w c).1.bess = w.bess ∧ (call w c).2 = some (refusal c))) := by
  have ht : ∀ a ∈ w.ans.tail, a = none := fun a ha => hf a (List.mem_of_mem_tail ha)
  have hh : ∀ e, w.ans.head? ≠ some (some e) := by
    intro e he
    have := hf _ (List.mem_of_mem_head? he)
    simp at this
  unfold call
  split
  · rename_i e he; exact absurd he (hh e)
  · cases h : possible w.bess c
    · simpa using ht
    · simpa using ht

theorem run_sure : ∀ (cs : List Call) (w : World), (∀ a ∈ w.ans, a = none) →
    (∀ pre c post, cs = pre ++ c :: post → possible (pre.foldl effect w.bess) c = true) →
    (∀ a ∈ (run w cs).1.ans, a = none) ∧ (run w cs).1.bess = cs.foldl effect w.bess ∧ (run w cs).2 = none
  | [], w, hf, _ => ⟨hf, rfl, rfl⟩
  | c :: cs, w, hf, hp => by
    have h0 : possible w.bess c = true := hp [] c cs rfl
    have hc := call_sure hf c
    unfold run
    generalize call w c = r at hc
    obtain ⟨w1, x⟩ := r
    obtain ⟨h1, ⟨-, h2, h3⟩ | ⟨h2, -⟩⟩ := hc
    · simp only at h1 h2 h3
      subst h3
      have := run_sure cs w1 h1 (fun pre c' post he => by
        rw [h2]
        exact hp (c :: pre) c' post (by simp [he]))
      rw [h2] at this
      exact this
    · rw [h0] at h2; simp at h2

/-- Deleting a device that is wired takes away what uses it, and raises nothing. -/
theorem deinit_wired {w : World} (hf : ∀ a ∈ w.ans, a = none) {d : Name} {s : Nat} (hs : Shape w.bess) (hw : Wired w.bess s d)
    (hb : d ≠ brInt) (hv : d ≠ vxlan) (hp : ∀ n, d ≠ pkt n) :
    (∀ a ∈ (deinitPkt w d).1.ans, a = none) ∧ (deinitPkt w d).2 = none ∧ d ∈ (deinitPkt w d).1.bess.ports ∧
      ∀ m ∈ (deinitPkt w d).1.bess.mods, m.port ≠ d := by
  have hpp := pi_ne_po d d
  have h3 : deinitTry d = [.pauseAll, .disconnect (pi d), .destroyModule (pi d), .destroyModule (po d)] ++
      [.destroyPort (pkt d), .resumeAll] := by simp [deinitTry, hv]
  have hr := run_sure [.pauseAll, .disconnect (pi d), .destroyModule (pi d), .destroyModule (po d)] w hf (by
    intro pre c post he
    have e1 : w.bess.mods.any (fun m => m.name == pi d) = true := by
      simp only [List.any_eq_true, beq_iff_eq]; exact ⟨_, hw.inn, rfl⟩
    have e2 : (w.bess.mods.filter (fun m => m.name != pi d)).any (fun m => m.name == po d) = true := by
      simp only [List.any_eq_true, beq_iff_eq, List.mem_filter, bne_iff_ne, ne_eq]
      exact ⟨_, ⟨hw.out, Ne.symm hpp⟩, rfl⟩
    rcases pre with _ | ⟨x1, _ | ⟨x2, _ | ⟨x3, _ | ⟨x4, pre⟩⟩⟩⟩
    · simp at he; obtain ⟨rfl, -⟩ := he; rfl
    · simp at he; obtain ⟨rfl, rfl, -⟩ := he; simpa [possible, effect] using e1
    · simp at he; obtain ⟨rfl, rfl, rfl, -⟩ := he; simpa [possible, effect] using e1
    · simp at he; obtain ⟨rfl, rfl, rfl, rfl, -⟩ := he; simpa [possible, effect] using e2
    · simp at he)
  obtain ⟨f1, f2, f3⟩ := hr
  have hmods : ∀ m ∈ (run w [.pauseAll, .disconnect (pi d), .destroyModule (pi d), .destroyModule (po d)]).1.bess.mods,
      m.port ≠ d := by
    rw [f2]
    intro m hm
    simp only [List.foldl_cons, List.foldl_nil, effect, List.mem_filter, bne_iff_ne, ne_eq] at hm
    rcases hs.mods m hm.1.1 with ⟨-, n, rfl⟩ | ⟨-, n, rfl⟩
    · exact fun e => hp n e.symm
    · rintro rfl; exact hm.2 rfl
  have hport : d ∈ (run w [.pauseAll, .disconnect (pi d), .destroyModule (pi d), .destroyModule (po d)]).1.bess.ports := by
    rw [f2]; exact hw.port
  unfold deinitPkt
  rw [if_neg hb, h3, run_append]
  generalize run w [.pauseAll, .disconnect (pi d), .destroyModule (pi d), .destroyModule (po d)] = r at f1 f3 hmods hport
  obtain ⟨w1, x⟩ := r
  simp only at f1 f3 hmods hport
  subst f3
  simp only [run]
  have hc := call_sure f1 (.destroyPort (pkt d))
  generalize call w1 (.destroyPort (pkt d)) = r at hc
  obtain ⟨w2, x⟩ := r
  have key : ∀ w3 : World, (∀ a ∈ w3.ans, a = none) → d ∈ w3.bess.ports → (∀ m ∈ w3.bess.mods, m.port ≠ d) →
      (call w3 .resumeAll).2 = none ∧ (∀ a ∈ (call w3 .resumeAll).1.ans, a = none) ∧ d ∈ (call w3 .resumeAll).1.bess.ports ∧
        ∀ m ∈ (call w3 .resumeAll).1.bess.mods, m.port ≠ d := by
    intro w3 a1 a2 a3
    obtain ⟨b1, ⟨-, b2, b3⟩ | ⟨b2, -⟩⟩ := call_sure a1 .resumeAll
    · rw [b2]; exact ⟨b3, b1, a2, a3⟩
    · simp [possible] at b2
  obtain ⟨g1, ⟨-, g2, g3⟩ | ⟨-, g2, g3⟩⟩ := hc <;> simp only at g1 g2 g3 <;> subst g3
  · obtain ⟨k1, k2, k3, k4⟩ := key w2 g1 (by
      rw [g2]; simp only [effect, List.mem_filter, bne_iff_ne, ne_eq]; exact ⟨hport, hp d⟩) (by rw [g2]; exact hmods)
    dsimp only
    generalize call w2 .resumeAll = r at k1 k2 k3 k4
    obtain ⟨w3, x⟩ := r
    simp only at k1 k2 k3 k4
    subst k1
    exact ⟨k2, rfl, k3, k4⟩
  · obtain ⟨k1, k2, k3, k4⟩ := key w2 g1 (by rw [g2]; exact hport) (by rw [g2]; exact hmods)
    exact ⟨k2, k1, k3, k4⟩

theorem inv_del {b : Bess} {st : Agent.St} (h : Inv b st) (o : Agent.Order) (rnd : Nat) (d : Bytes) (ans : List (Option Exn))
    (hf : ∀ a ∈ ans, a = none) : Inv (act b st (.del o rnd d ans)).1.bess (act b st (.del o rnd d ans)).2 := by
  simp only [act]
  unfold delPort Agent.delPort
  cases hfind : (o.items st.ports).find? (fun p => p.2.desc.name = .str d) with
  | none => exact h
  | some e0 =>
    obtain ⟨no, p⟩ := e0
    have hmem := (o.perm st.ports).mem_iff.1 (List.mem_of_find?_eq_some hfind)
    have hname : nameOf p = d := by
      have : p.desc.name = .str d := by simpa using List.find?_some hfind
      simp [nameOf, this]
    dsimp only
    cases hm : Agent.statusMsg rnd 1 p.desc with
    | error y => exact h
    | ok m =>
      dsimp only
      have hdp : ∀ n, d ≠ pkt n := fun n => hname ▸ h.name_ne_pkt hmem n
      have hoth : ∀ e ∈ st.ports, e ≠ (no, p) → d ≠ nameOf e.2 := by
        intro e he hne hd
        exact hne (h.one e he _ hmem (hd.symm.trans hname.symm))
      -- what the calls keep for the other entries
      have keep : ∀ P : Bess → Prop, (∀ c ∈ Call.createPort d :: .destroyPort d :: (initTry d ++ initElse d ++ deinitTry d),
          ∀ b, P b → P (effect b c)) → P b → P (deinitPkt ⟨b, ans, []⟩ d).1.bess ∧
            P (call (deinitPkt ⟨b, ans, []⟩ d).1 (.destroyPort d)).1.bess := by
        intro P hP hb
        have h1 := deinit_inv (P := P) ⟨b, ans, []⟩ d (fun c hc b hb _ => hP c (by simp [hc]) b hb) hb
        exact ⟨h1, call_inv _ _ (fun b hb _ => hP _ (by simp) b hb) h1⟩
      have kshape := keep Shape (fun c hc b hb => shape_effect hc hb) h.shape
      have kport : ∀ e ∈ st.ports, e ≠ (no, p) → nameOf e.2 ∈ b.ports → _ := fun e he hne hp =>
        keep (fun b => nameOf e.2 ∈ b.ports) (fun c hc b hb => port_effect hc (hoth e he hne) (h.name_ne_pkt he d) hb) hp
      have kwired : ∀ e ∈ st.ports, e ≠ (no, p) → ∀ s, Wired b s (nameOf e.2) → _ := fun e he hne s hw =>
        keep (fun b => Wired b s (nameOf e.2))
          (fun c hc b hb => wired_effect hc (hoth e he hne) (h.name_ne_pkt he d) (hdp _) hb) hw
      have dport : d ∈ b.ports → d ∈ (deinitPkt ⟨b, ans, []⟩ d).1.bess.ports := by
        refine fun hd => deinit_inv (P := fun b => d ∈ b.ports) ⟨b, ans, []⟩ d (fun c hc b hb _ => ?_) hd
        simp only [deinitTry] at hc
        by_cases hv : d = vxlan
        · simp only [if_pos hv, List.append_nil, List.cons_append, List.nil_append, List.mem_cons, List.not_mem_nil, or_false] at hc
          rcases hc with rfl | rfl <;> exact hb
        · simp only [if_neg hv, List.append_nil, List.cons_append, List.nil_append, List.mem_cons, List.not_mem_nil, or_false] at hc
          rcases hc with rfl | rfl | rfl | rfl | rfl | rfl <;> try exact hb
          simp only [effect, List.mem_filter, bne_iff_ne, ne_eq]
          exact ⟨hb, hdp d⟩
      have dwired : d ≠ brInt → d ≠ vxlan → ∀ s, Wired b s d → _ := fun hb hv s hw =>
        deinit_wired (w := ⟨b, ans, []⟩) hf h.shape hw hb hv hdp
      have dbr : d = brInt → deinitPkt ⟨b, ans, []⟩ d = (⟨b, ans, []⟩, none) := fun e => by rw [deinitPkt, if_pos e]
      generalize deinitPkt ⟨b, ans, []⟩ d = r at kshape kport kwired dport dwired dbr
      obtain ⟨w1, x⟩ := r
      simp only at kshape kport kwired dport dwired dbr
      -- the entry stays
      have stays : ∀ b' : Bess, Shape b' → (∀ e ∈ st.ports, e ≠ (no, p) → nameOf e.2 ∈ b.ports → nameOf e.2 ∈ b'.ports) →
          (∀ e ∈ st.ports, e ≠ (no, p) → ∀ s, Wired b s (nameOf e.2) → Wired b' s (nameOf e.2)) →
          (d ∈ b.ports → d ∈ b'.ports) → (∀ s, p.sock = some s → d = vxlan ∨ Wired b' s d) → Inv b' st := by
        intro b' a1 a2 a3 a4 a5
        refine ⟨a1, h.text, h.one, fun e he => ?_, fun e he s hs => ?_⟩
        · refine (h.listed e he).imp id fun k => ⟨k.1, ?_⟩
          by_cases hee : e = (no, p)
          · subst hee; simp only [hname] at k ⊢; exact a4 k.2
          · exact a2 e he hee k.2
        · by_cases hee : e = (no, p)
          · subst hee; simp only [hname] at hs ⊢; exact a5 s hs
          · exact (h.wired e he s hs).imp id fun k => a3 e he hee s k
      have hsk : ∀ s, p.sock = some s → d = vxlan ∨ Wired b s d := fun s hs => by
        have := h.wired _ hmem s hs
        simpa only [hname] using this
      cases x with
      | some y =>
        dsimp only
        refine stays w1.bess kshape.1 (fun e he hne hp => (kport e he hne hp).1) (fun e he hne s hw => (kwired e he hne s hw).1)
          dport (fun s hs => ?_)
        rcases hsk s hs with hv | hw
        · exact .inl hv
        · by_cases hv : d = vxlan
          · exact .inl hv
          by_cases hb : d = brInt
          · have := dbr hb; simp at this
          · have := (dwired hb hv s hw).2.1; simp at this
      | none =>
        dsimp only
        rcases call_spec w1 (.destroyPort d) with ⟨e, hc⟩ | ⟨hp, hc⟩
        · rw [hc]
          dsimp only
          refine stays w1.bess kshape.1 (fun e he hne hp => (kport e he hne hp).1) (fun e he hne s hw => (kwired e he hne s hw).1)
            dport (fun s hs => ?_)
          rcases hsk s hs with hv | hw
          · exact .inl hv
          · by_cases hv : d = vxlan
            · exact .inl hv
            by_cases hb : d = brInt
            · have := dbr hb
              simp only [Prod.mk.injEq, and_true] at this
              rw [this]; exact .inr hw
            · exfalso
              obtain ⟨k1, -, k2, k3⟩ := dwired hb hv s hw
              obtain ⟨-, ⟨-, -, j⟩ | ⟨j, -⟩⟩ := call_sure k1 (.destroyPort d)
              · rw [hc] at j; simp at j
              · simp only [possible, Bool.and_eq_false_iff, Bool.not_eq_false', List.any_eq_true, beq_iff_eq] at j
                rcases j with j | ⟨m, hm, j⟩
                · simp [k2] at j
                · exact k3 m hm j
        · rw [hc] at kshape kport kwired ⊢
          dsimp only at kshape kport kwired ⊢
          simp only [Bool.true_eq_false, if_false]
          have hsub : ∀ e ∈ Agent.del st.ports no, e ∈ st.ports ∧ e ≠ (no, p) := by
            intro e he
            simp only [Agent.del, List.mem_filter, bne_iff_ne, ne_eq] at he
            exact ⟨he.1, fun hee => he.2 (by rw [hee])⟩
          refine ⟨kshape.2, fun e he => h.text e (hsub e he).1, fun e he e' he' => h.one e (hsub e he).1 e' (hsub e' he').1,
            fun e he => ?_, fun e he s hs => ?_⟩
          · obtain ⟨h1, h2⟩ := hsub e he
            exact (h.listed e h1).imp id fun k => ⟨k.1, (kport e h1 h2 k.2).2⟩
          · obtain ⟨h1, h2⟩ := hsub e he
            exact (h.wired e h1 s hs).imp id fun k => (kwired e h1 h2 s k).2

theorem inv_after : ∀ (as : List Act) (b : Bess) (st : Agent.St), Inv b st → (∀ a ∈ as, Careful a) →
    Inv (after b st as).1 (after b st as).2
  | [], _, _, h, _ => h
  | a :: as, b, st, h, hc => by
    refine inv_after as _ _ ?_ (fun a' h' => hc a' (by simp [h']))
    have ha := hc a (by simp)
    cases a with
    | add rnd d mac ans => exact inv_add h rnd d mac ans ha
    | del o rnd d ans => exact inv_del h o rnd d ans ha
    | msg o rnd m =>
      simp only [act]
      split
      · rename_i st' es he
        exact inv_msg h (Agent.switchProc_keeps he).1
      · exact h

/-- The ports listed at the start. -/
abbrev first : List (Nat × Agent.OfPort) := (Agent.start none none).ports

theorem first_one : ∀ e ∈ first, ∀ e' ∈ first, nameOf e.2 = nameOf e'.2 → e = e' := by decide
theorem first_given : ∀ e ∈ first, nameOf e.2 ∈ given ∧ e.2.desc.name = .str (nameOf e.2) ∧ e.2.sock = none := by decide

theorem inv_loop : ∀ (es : List (Nat × Agent.OfPort)) (w : World) (st st' : Agent.St), (∀ e ∈ es, e ∈ first) → Inv w.bess st →
    (∀ e ∈ st.ports, ∃ e0 ∈ first, e0.1 = e.1 ∧ nameOf e0.2 = nameOf e.2) →
    (setupLoop w st es).2 = some st' → Inv (setupLoop w st es).1.bess st'
  | [], w, st, st', _, h, _, hr => by
    simp only [setupLoop, Option.some.injEq] at hr ⊢
    rw [← hr]; exact h
  | (no, p) :: es, w, st, st', hes, h, hk, hr => by
    have hfirst := hes _ (List.mem_cons_self ..)
    obtain ⟨hg, htext, -⟩ := first_given _ hfirst
    simp only at hg htext
    have hnp : ∀ x, nameOf p ≠ pkt x := given_ne_pkt hg
    have hother : ∀ e ∈ st.ports, e.1 ≠ no → nameOf p ≠ nameOf e.2 := by
      intro e he hne hn
      obtain ⟨e0, h0, h1, h2⟩ := hk e he
      have := first_one _ h0 _ hfirst (h2.trans hn.symm)
      exact hne (by rw [← h1, this])
    have hshape := init_inv (P := Shape) w (nameOf p) (fun c hc b hb _ => shape_effect (d := nameOf p) (by simp [hc]) hb)
      (fun c hc b hb _ => shape_effect (d := nameOf p) (by simp [hc]) hb) h.shape
    have hports : ∀ n, n ∈ w.bess.ports → n ∈ (initPkt w (nameOf p)).1.bess.ports := fun n hn =>
      init_inv (P := fun b => n ∈ b.ports) w (nameOf p) (fun c hc b hb _ => ports_grow (d := nameOf p) (by simp [hc]) hb)
        (fun c hc b hb _ => ports_grow (d := nameOf p) (by simp [hc]) hb) hn
    have hwired : ∀ e ∈ st.ports, e.1 ≠ no → ∀ s, Wired w.bess s (nameOf e.2) → Wired (initPkt w (nameOf p)).1.bess s (nameOf e.2) := by
      intro e he hne s hw
      have a1 := hother e he hne
      have a2 := h.name_ne_pkt he (nameOf p)
      exact init_inv (P := fun b => Wired b s (nameOf e.2)) w (nameOf p)
        (fun c hc b hb _ => wired_effect (d := nameOf p) (by simp [hc]) a1 a2 (hnp _) hb)
        (fun c hc b hb _ => wired_effect (d := nameOf p) (by simp [hc]) a1 a2 (hnp _) hb) hw
    have hnew : ∀ s, nameOf p ≠ vxlan → _ := fun s hv => init_wired (w := w) (n := nameOf p) (s := s) hv
    unfold setupLoop at hr ⊢
    generalize initPkt w (nameOf p) = r at hr hshape hports hwired hnew
    obtain ⟨w1, x⟩ := r
    cases x with
    | error y => simp at hr
    | ok sk =>
      dsimp only at hr ⊢
      refine inv_loop es w1 _ st' (fun e he => hes e (by simp [he])) ?_ ?_ hr
      · refine ⟨hshape, fun e he => ?_, fun e he e' he' hn => ?_, fun e he => ?_, fun e he s hs => ?_⟩
        · rcases mem_put he with rfl | ⟨he, -⟩
          · exact htext
          · exact h.text e he
        · rcases mem_put he with rfl | ⟨he, hne⟩ <;> rcases mem_put he' with rfl | ⟨he', hne'⟩
          · rfl
          · exact absurd hn (hother e' he' hne')
          · exact absurd hn.symm (hother e he hne)
          · exact h.one e he e' he' hn
        · rcases mem_put he with rfl | ⟨he, -⟩
          · exact .inl hg
          · exact (h.listed e he).imp id fun a => ⟨a.1, hports _ a.2⟩
        · rcases mem_put he with rfl | ⟨he, hne⟩
          · by_cases hv : nameOf p = vxlan
            · exact .inl hv
            · right
              have : sk = some s := hs
              subst this
              exact hnew s hv rfl
          · exact (h.wired e he s hs).imp id fun a => hwired e he hne s a
      · intro e he
        rcases mem_put he with rfl | ⟨he, -⟩
        · exact ⟨_, hfirst, rfl, rfl⟩
        · exact hk e he

theorem inv_setup {o : Agent.Order} {r : Bool} {ans : List (Option Exn)} {st : Agent.St}
    (h : (setup o ⟨new r, ans, []⟩).2 = some st) : Inv (setup o ⟨new r, ans, []⟩).1.bess st := by
  have h0 : Shape (new r) := ⟨by simp [new], by simp [new], by simp [new], by simp [new]⟩
  have h1 : Shape (call ⟨new r, ans, []⟩ .resumeAll).1.bess :=
    call_inv (P := Shape) _ _ (fun b hb _ => shape_effect (d := dpif) (by simp [initElse]) hb) h0
  unfold setup at h ⊢
  generalize call ⟨new r, ans, []⟩ .resumeAll = x at h h1
  obtain ⟨w1, y⟩ := x
  cases y with
  | some e => simp at h
  | none =>
    have h2 : Shape (initPhy w1).1.bess := by
      have := run_inv (P := Shape) [.createPort dpif, .resumeAll] w1
        (fun c hc b hb _ => shape_effect (d := dpif) (by simp at hc; rcases hc with rfl | rfl <;> simp [initElse]) hb) h1
      unfold initPhy
      generalize run w1 [.createPort dpif, .resumeAll] = x at this
      obtain ⟨w2, y⟩ := x
      rcases y with _ | (_ | _ | _) <;> exact this
    dsimp only at h ⊢
    generalize initPhy w1 = x at h h2
    obtain ⟨w2, y⟩ := x
    cases y with
    | false => simp at h
    | true =>
      dsimp only at h ⊢
      refine inv_loop _ w2 _ st (fun e he => (o.perm _).mem_iff.1 he) ?_ (fun e he => ⟨e, he, rfl, rfl⟩) h
      refine ⟨h2, fun e he => (first_given e he).2.1, first_one, fun e he => .inl (first_given e he).1, fun e he s hs => ?_⟩
      rw [(first_given e he).2.2] at hs
      simp at hs

/-- C117: after the main program has set up a new daemon and any history of the switch, whatever failed while devices were added, what
is sent on the socket of a listed port leaves the datapath at the device of that name and at no other.
Missing: the port 'vxlan' (`C117_vxlan_refuted`); calls that fail while a device is deleted (`C117_refuted`); devices added under one
of the three given names or under the name of an auxiliary port. -/
theorem C117_partial (o : Agent.Order) (r : Bool) (ans : List (Option Exn)) (st : Agent.St) (as : List Act)
    (h : (setup o ⟨new r, ans, []⟩).2 = some st) (ha : ∀ a ∈ as, Careful a) :
    ∀ e ∈ (after (setup o ⟨new r, ans, []⟩).1.bess st as).2.ports, ∀ s, e.2.sock = some s → e.2.desc.name ≠ .str vxlan →
      ∀ d, Leaves (after (setup o ⟨new r, ans, []⟩).1.bess st as).1 s d ↔ e.2.desc.name = .str d := by
  have hi := inv_after as _ st (inv_setup h) ha
  intro e he s hs hv d
  have ht := hi.text e he
  rcases hi.wired e he s hs with hw | hw
  · rw [hw] at ht; exact absurd ht hv
  · rw [leaves_of hi.shape hw, ht]
    simp [eq_comm]

/-- The main program; then two devices are added, the first with a failure, one is deleted, and a message comes. -/
example : (setup exOrder ⟨new false, [], []⟩).2 = some exSt ∧
    (∀ a ∈ [Act.add 0 [118, 50] exMac [none, none, some .api], .add 0 exDev exMac [], .del exOrder 0 [118, 50] [],
      .msg exOrder 0 [4, 9, 0, 8, 0, 0, 0, 1]], Careful a) ∧
    ((after exBess exSt [Act.add 0 [118, 50] exMac [none, none, some .api], .add 0 exDev exMac [], .del exOrder 0 [118, 50] [],
      .msg exOrder 0 [4, 9, 0, 8, 0, 0, 0, 1]]).2.ports.map fun e => (nameOf e.2, e.2.sock)) =
      [(brInt, none), (vxlan, some 0), (dpif, some 1), (exDev, some 2)] := by
  refine ⟨by decide +kernel, ?_, by decide +kernel⟩
  intro a ha
  simp only [List.mem_cons, List.not_mem_nil, or_false] at ha
  rcases ha with rfl | rfl | rfl | rfl
  · exact ⟨by decide, fun n => by simp [pkt]⟩
  · exact ⟨by decide, fun n => by simp [pkt, exDev]⟩
  · simp [Careful]
  · trivial

/-- C117 for a packet-out message that starts with an output to a listed port with a socket: the data is handed to that socket, and leaves
at the device of the name of the port. -/
theorem C117_packet_out_partial (o o' : Agent.Order) (r : Bool) (ans : List (Option Exn)) (st : Agent.St) (as : List Act) (rnd : Nat)
    (h : (setup o ⟨new r, ans, []⟩).2 = some st) (ha : ∀ a ∈ as, Careful a) (m : Bytes) (hd : Of13.Hdr) (b i l t len n ml : Nat)
    (rest : List Of13.Action) (data : Bytes) (hp : Of13.parse m 0 = .ok (.packetOut hd b i l (.output t len n ml :: rest) data))
    (ht : Spec.u8 m 1 = 13) (p : Agent.OfPort) (s : Nat)
    (hl : (after (setup o ⟨new r, ans, []⟩).1.bess st as).2.ports.lookup n = some p) (hs : p.sock = some s)
    (hv : p.desc.name ≠ .str vxlan) :
    Agent.switchProc o' rnd (after (setup o ⟨new r, ans, []⟩).1.bess st as).2 m =
        .ok ((after (setup o ⟨new r, ans, []⟩).1.bess st as).2, [.out s data]) ∧
      ∀ d, Leaves (after (setup o ⟨new r, ans, []⟩).1.bess st as).1 s d ↔ p.desc.name = .str d := by
  refine ⟨?_, ?_⟩
  · have := ((Agent.C61_outcome o' rnd (after (setup o ⟨new r, ans, []⟩).1.bess st as).2 m hd b i l _ data hp ht).2.2
      t len n ml rest rfl).2 (by rw [hl]; simp)
    rw [this]
    simp [Agent.forwards, hl, hs]
  · have hm : (n, p) ∈ (after (setup o ⟨new r, ans, []⟩).1.bess st as).2.ports := by
      generalize (after (setup o ⟨new r, ans, []⟩).1.bess st as).2.ports = ps at hl
      induction ps with
      | nil => simp at hl
      | cons e ps ih =>
        obtain ⟨k, v⟩ := e
        rw [List.lookup_cons] at hl
        by_cases hk : n = k
        · subst hk; simp at hl; subst hl; simp
        · have : (n == k) = false := by simpa using hk
          rw [this] at hl
          exact List.mem_cons_of_mem _ (ih hl)
    exact C117_partial o r ans st as h ha _ hm s hs hv

/-- A packet-out message to port 3 after a device has been added. -/
example : ∃ m hd b i l t len ml rest data p, Of13.parse m 0 = .ok (.packetOut hd b i l (.output t len 3 ml :: rest) data) ∧
    Spec.u8 m 1 = 13 ∧ (after exBess exSt [.add 0 exDev exMac []]).2.ports.lookup 3 = some p ∧ p.sock = some 2 ∧
    p.desc.name = .str exDev ∧ data = [7] := by
  have ⟨m, hm⟩ : ∃ m, Of13.buildPacketOut 1 .none none 2 (Of13.tups [.output none none 3 0]) (some [7]) = .ok m := ⟨_, rfl⟩
  have hp := Agent.built_packetOut hm (by simp [Of13.Action.Parseable])
  refine ⟨m, _, _, _, _, _, _, _, _, _, Agent.newPort 3 [1, 2, 3, 4, 5, 6] exDev (some 2), hp, ?_, by decide +kernel, rfl, rfl, rfl⟩
  obtain ⟨_, _, hh, _⟩ := Agent.parse_hdr hp
  have := congrArg Of13.Hdr.type hh
  simpa [Agent.hdrOf] using this.symm

/-- C117 is false for the port 'vxlan': what is sent there leaves nowhere (the TODO in L92). -/
theorem C117_vxlan_refuted : (setup exOrder ⟨new false, [], []⟩).2 = some exSt ∧
    (setup exOrder ⟨new false, [], []⟩).1.bess = exBess ∧ (∃ e ∈ exSt.ports, e.2.desc.name = .str vxlan ∧ e.2.sock = some 0) ∧
    ∀ d, ¬ Leaves exBess 0 d := by
  refine ⟨by decide +kernel, by decide +kernel, by decide, ?_⟩
  rintro d ⟨q, m, m', h1, h2, h3, h4⟩
  simp [exBess] at h1 h2
  subst h1
  exact absurd h2.2 (by decide)

/-- C117 is false when a call fails while a device is deleted: the deletion raises, the port stays listed with its socket, and what is
sent there leaves nowhere. -/
theorem C117_refuted : ∃ as : List Act,
    (∃ e ∈ (after exBess exSt as).2.ports, e.2.desc.name = .str exDev ∧ e.2.sock = some 2) ∧
    ∀ d, ¬ Leaves (after exBess exSt as).1 2 d := by
  refine ⟨[.add 0 exDev exMac [], .del exOrder 0 exDev [none, none, some .api]], by decide +kernel, ?_⟩
  have : (after exBess exSt [.add 0 exDev exMac [], .del exOrder 0 exDev [none, none, some .api]]).1 =
      { added exBess exDev with links := [(pi dpif, po dpif)] } := by decide +kernel
  rw [this]
  rintro d ⟨q, m, m', h1, h2, h3, h4⟩
  simp [exBess, added] at h1 h2 h3
  subst h1
  rcases h2 with ⟨-, h2⟩ | ⟨h2, -⟩
  · exact absurd h2 (by decide)
  · rw [h3.1] at h2; exact absurd h2 (by decide)

/-- The bytes of a text. -/
def ascii (s : String) : Name := s.toList.map fun c => UInt8.ofNat c.toNat

/-- C117, the names in the daemon: a device `name` has the port `pktinout_name` for packets from the controller, which enter at the module
`PI_pktinout_name` and leave at the module `PO_name`. -/
theorem C117_names (name : Name) : pkt name = ascii "pktinout_" ++ name ∧ pi name = ascii "PI_pktinout_" ++ name ∧ po name = ascii "PO_" ++ name ∧
    brInt = ascii "br-int" ∧ vxlan = ascii "vxlan" ∧ dpif = ascii "dpif" := by
  refine ⟨?_, ?_, ?_, by decide +kernel, by decide +kernel, by decide +kernel⟩
  · have : ascii "pktinout_" = [112, 107, 116, 105, 110, 111, 117, 116, 95] := by decide +kernel
    rw [this]; rfl
  · have : ascii "PI_pktinout_" = [80, 73, 95] ++ [112, 107, 116, 105, 110, 111, 117, 116, 95] := by decide +kernel
    rw [this]; rfl
  · have : ascii "PO_" = [80, 79, 95] := by decide +kernel
    rw [this]; rfl

end Twink.BessSide
