import Verif.Spec.StreamServer
import Mathlib.Tactic.SplitIfs

/-! # Properties of the stream server -/

namespace Twink.Srv

theorem runs_append (s : Server) (a b : List Op) : runs s (a ++ b) = runs (runs s a) b := by
  induction a generalizing s with
  | nil => rfl
  | cons op a ih => exact ih _

theorem Reachable.step {s : Server} (h : Reachable s) (op : Op) : Reachable (step s op) := by
  obtain ⟨ops, rfl⟩ := h
  exact ⟨ops ++ [op], by rw [runs_append]; rfl⟩

theorem reach_ind {P : Server → Prop} (h0 : P fresh) (hs : ∀ s op, P s → P (step s op)) {s : Server} (h : Reachable s) : P s := by
  obtain ⟨ops, rfl⟩ := h
  have : ∀ (s : Server), P s → P (runs s ops) := by
    induction ops with
    | nil => exact fun s h => h
    | cons op ops ih => exact fun s h => ih _ (hs _ _ h)
  exact this _ h0

/-- The buffer of a connection that has been made but does not loop yet is empty, and so on. -/
structure Inv (s : Server) : Prop where
  set : ∀ k : Nat, k ∈ s.channels ↔ ∃ c : Conn, s.conns[k]? = some c ∧ InSet c.pc
  nodup : s.channels.Nodup
  closed : ∀ (k : Nat) (c : Conn), s.conns[k]? = some c → c.pc = .removing ∨ c.pc = .ended → c.closed = true
  begun : ∀ (k : Nat) (c : Conn), s.conns[k]? = some c → c.pc = .made ∨ c.pc = .adding → c.buf = [] ∧ c.handled = [] ∧ c.reads = 0
  hello : ∀ k : Nat, s.run = .hello k ∨ s.run = .spawn k → ∃ c : Conn, s.conns[k]? = some c ∧ c.pc = .made
  stopped : s.left ≠ none → s.accepting = false ∧ s.run ≠ .fresh
  left : ∀ l, s.left = some l → ∀ (k : Nat) (c : Conn), s.conns[k]? = some c → c.closed = true ∨ k ∈ l ∨
    (c.handled = [] ∧ c.buf = [] ∧ (c.pc = .made ∨ c.pc = .adding ∨ c.pc = .looping ∨ c.pc = .closing))

theorem inv_fresh : Inv fresh := by
  constructor <;> simp [fresh]

theorem get_set {l : List Conn} {k j : Nat} {c d : Conn} (h : (l.set k d)[j]? = some c) (hk : ∃ e, l[k]? = some e) :
    (j = k ∧ c = d) ∨ (j ≠ k ∧ l[j]? = some c) := by
  obtain ⟨e, he⟩ := hk
  rw [List.getElem?_set] at h
  by_cases hj : k = j
  · subst hj
    rw [if_pos rfl] at h
    split at h
    · exact .inl ⟨rfl, by injection h with h; exact h.symm⟩
    · cases h
  · rw [if_neg hj] at h
    exact .inr ⟨fun h => hj h.symm, h⟩

theorem set_self {l : List Conn} {k : Nat} {c d : Conn} (h : l[k]? = some c) : (l.set k d)[k]? = some d := by
  rw [List.getElem?_set, if_pos rfl, if_pos]
  exact (List.getElem?_eq_some_iff.1 h).1

theorem set_other {l : List Conn} {k j : Nat} {d : Conn} (h : j ≠ k) : (l.set k d)[j]? = l[j]? := by
  rw [List.getElem?_set, if_neg (fun e => h e.symm)]

/-- A step that replaces connection `k` by another one and leaves the set alone. -/
theorem inv_replace {s : Server} (h : Inv s) {k : Nat} {c d : Conn} (hc : s.conns[k]? = some c) (hin : InSet d.pc ↔ InSet c.pc)
    (hmade : c.pc = .made → (s.run ≠ .hello k ∧ s.run ≠ .spawn k) ∨ d.pc = .made)
    (hcl : d.pc = .removing ∨ d.pc = .ended → d.closed = true)
    (hbe : d.pc = .made ∨ d.pc = .adding → d.buf = [] ∧ d.handled = [] ∧ d.reads = 0)
    (hle : s.accepting = false → (c.closed = true → d.closed = true) ∧
      ((c.handled = [] ∧ c.buf = [] ∧ (c.pc = .made ∨ c.pc = .adding ∨ c.pc = .looping ∨ c.pc = .closing)) → d.closed = true ∨
      (d.handled = [] ∧ d.buf = [] ∧ (d.pc = .made ∨ d.pc = .adding ∨ d.pc = .looping ∨ d.pc = .closing)))) :
    Inv { s with conns := s.conns.set k d } := by
  constructor
  · intro j
    show j ∈ s.channels ↔ ∃ e : Conn, (s.conns.set k d)[j]? = some e ∧ InSet e.pc
    rw [h.set]
    by_cases hj : j = k
    · subst hj
      rw [set_self hc, hc]
      simp [hin]
    · rw [set_other hj]
  · exact h.nodup
  · intro j e he hp
    rcases get_set he ⟨c, hc⟩ with ⟨_, rfl⟩ | ⟨_, he⟩
    · exact hcl hp
    · exact h.closed j e he hp
  · intro j e he hp
    rcases get_set he ⟨c, hc⟩ with ⟨_, rfl⟩ | ⟨_, he⟩
    · exact hbe hp
    · exact h.begun j e he hp
  · intro j hj
    obtain ⟨e, he, hp⟩ := h.hello j hj
    by_cases hjk : j = k
    · subst hjk
      rw [hc] at he
      injection he with he
      subst he
      rcases hmade hp with hm | hm
      · exact absurd hj (by simp [hm])
      · exact ⟨d, set_self hc, hm⟩
    · exact ⟨e, by show (s.conns.set k d)[j]? = _; rw [set_other hjk, he], hp⟩
  · exact h.stopped
  · intro l hl j e he
    have hacc := (h.stopped (by rw [show s.left = some l from hl]; simp)).1
    rcases get_set he ⟨c, hc⟩ with ⟨rfl, rfl⟩ | ⟨_, he⟩
    · rcases h.left l hl j c hc with h1 | h1 | h1
      · exact .inl ((hle hacc).1 h1)
      · exact .inr (.inl h1)
      · exact ((hle hacc).2 h1).imp_right .inr
    · exact h.left l hl j e he

theorem inset_simp (p : ConnPc) : InSet p ↔ p = .looping ∨ p = .reading ∨ p = .closing ∨ p = .removing ∨ p = .died := Iff.rfl

theorem front_nil : front [] = none := by simp [front]

theorem inv_loop {s : Server} (h : Inv s) {k : Nat} {c : Conn} (hc : s.conns[k]? = some c) (hp : c.pc = .looping) (o : Outcome) :
    Inv { s with conns := s.conns.set k (loopStep s.accepting c o) } := by
  have hne : ∀ b, c.buf = b → front c.buf = front b := fun b hb => by rw [hb]
  apply inv_replace h hc
  · unfold loopStep
    split
    · split_ifs
      · simp [InSet, hp]
      · cases o <;> simp [InSet, hp]
    · split_ifs <;> simp [InSet, hp]
  · simp [hp]
  · unfold loopStep
    split
    · split_ifs
      · simp
      · cases o <;> simp [hp]
    · split_ifs <;> simp
  · unfold loopStep
    split
    · split_ifs
      · simp
      · cases o <;> simp [hp]
    · split_ifs <;> simp
  · intro hacc
    constructor
    · intro hcl
      unfold loopStep
      split
      · split_ifs
        · exact hcl
        · cases o <;> simp [hcl]
      · split_ifs <;> simp [hcl]
    · rintro ⟨h1, h2, _⟩
      right
      unfold loopStep
      rw [hne _ h2, front_nil]
      simp only [hacc, if_pos]
      split_ifs <;> simp [h1, h2]

theorem inv_read {s : Server} (h : Inv s) {k : Nat} {c : Conn} (hc : s.conns[k]? = some c) (hp : c.pc = .reading) (r : Raw) :
    Inv { s with conns := s.conns.set k (readStep c r) } := by
  have hcase : ∃ p b, readStep c r = { c with reads := c.reads + 1, pc := p, buf := b } ∧ (p = .died ∨ p = .looping ∨ p = .closing) := by
    unfold readStep
    split
    · exact ⟨_, c.buf, rfl, .inl rfl⟩
    · exact ⟨_, c.buf, rfl, .inr (.inl rfl)⟩
    · exact ⟨_, c.buf, rfl, .inr (.inr rfl)⟩
    · exact ⟨_, _, rfl, .inr (.inl rfl)⟩
  obtain ⟨p, b, he, hpp⟩ := hcase
  rw [he]
  apply inv_replace h hc
  · rcases hpp with rfl | rfl | rfl <;> simp [InSet, hp]
  · simp [hp]
  · rcases hpp with rfl | rfl | rfl <;> simp
  · rcases hpp with rfl | rfl | rfl <;> simp
  · intro _
    refine ⟨fun h => h, ?_⟩
    rintro ⟨_, _, h3⟩
    simp [hp] at h3

theorem inv_conn {s : Server} (h : Inv s) {k : Nat} {c : Conn} (hc : s.conns[k]? = some c) (r : Raw) (o : Outcome) :
    Inv (connStep s k c r o) := by
  unfold connStep
  split
  · exact h
  · rename_i hp
    have hb := h.begun k c hc (.inr hp)
    have hk : k ∉ s.channels := fun hk => by
      obtain ⟨e, he, hi⟩ := (h.set k).1 hk
      rw [hc] at he; injection he with he; subst he
      simp [InSet, hp] at hi
    constructor
    · intro j
      show j ∈ k :: s.channels ↔ ∃ e : Conn, (s.conns.set k _)[j]? = some e ∧ InSet e.pc
      by_cases hj : j = k
      · subst hj
        rw [set_self hc]
        simp [InSet]
      · rw [set_other hj, List.mem_cons, h.set]
        simp [hj]
    · exact List.nodup_cons.2 ⟨hk, h.nodup⟩
    · intro j e he hp'
      rcases get_set he ⟨c, hc⟩ with ⟨_, rfl⟩ | ⟨_, he⟩
      · simp at hp'
      · exact h.closed j e he hp'
    · intro j e he hp'
      rcases get_set he ⟨c, hc⟩ with ⟨_, rfl⟩ | ⟨_, he⟩
      · simp at hp'
      · exact h.begun j e he hp'
    · intro j hj
      obtain ⟨e, he, hp'⟩ := h.hello j hj
      have hjk : j ≠ k := by
        rintro rfl
        rw [hc] at he; injection he with he; subst he
        simp [hp] at hp'
      exact ⟨e, by show (s.conns.set k _)[j]? = _; rw [set_other hjk, he], hp'⟩
    · exact h.stopped
    · intro l hl j e he
      rcases get_set he ⟨c, hc⟩ with ⟨rfl, rfl⟩ | ⟨_, he⟩
      · exact .inr (.inr ⟨hb.2.1, hb.1, by simp⟩)
      · exact h.left l hl j e he
  · rename_i hp
    exact inv_loop h hc hp o
  · rename_i hp
    exact inv_read h hc hp r
  · rename_i hp
    apply inv_replace h hc
    · simp [InSet, hp]
    · simp [hp]
    · simp
    · simp
    · exact fun _ => ⟨fun _ => rfl, fun _ => .inl rfl⟩
  · rename_i hp
    have hcl := h.closed k c hc (.inl hp)
    constructor
    · intro j
      show j ∈ s.channels.erase k ↔ ∃ e : Conn, (s.conns.set k _)[j]? = some e ∧ InSet e.pc
      by_cases hj : j = k
      · subst hj
        rw [set_self hc]
        simp [InSet, h.nodup.not_mem_erase]
      · rw [set_other hj, List.mem_erase_of_ne hj, h.set]
    · exact h.nodup.erase k
    · intro j e he hp'
      rcases get_set he ⟨c, hc⟩ with ⟨_, rfl⟩ | ⟨_, he⟩
      · exact hcl
      · exact h.closed j e he hp'
    · intro j e he hp'
      rcases get_set he ⟨c, hc⟩ with ⟨_, rfl⟩ | ⟨_, he⟩
      · simp at hp'
      · exact h.begun j e he hp'
    · intro j hj
      obtain ⟨e, he, hp'⟩ := h.hello j hj
      have hjk : j ≠ k := by
        rintro rfl
        rw [hc] at he; injection he with he; subst he
        simp [hp] at hp'
      exact ⟨e, by show (s.conns.set k _)[j]? = _; rw [set_other hjk, he], hp'⟩
    · exact h.stopped
    · intro l hl j e he
      rcases get_set he ⟨c, hc⟩ with ⟨rfl, rfl⟩ | ⟨_, he⟩
      · exact .inl hcl
      · exact h.left l hl j e he
  · exact h
  · exact h

theorem inv_runpc {s : Server} (h : Inv s) (p : RunPc) (b : Bool) (hf : p ≠ .fresh)
    (hp : ∀ k, p = .hello k ∨ p = .spawn k → s.run = .hello k) : Inv { s with run := p, listening := b } :=
  ⟨h.set, h.nodup, h.closed, h.begun, fun k hk => h.hello k (.inl (hp k hk)),
    fun hl => ⟨(h.stopped hl).1, hf⟩, h.left⟩

theorem inv_run {s : Server} (h : Inv s) (a : Accepted) (sent : Bool) : Inv (runStep s a sent) := by
  unfold runStep
  split
  · exact h
  · split_ifs
    · exact inv_runpc h .accept s.listening (by simp) (by simp)
    · exact inv_runpc h .ended false (by simp) (by simp)
  · cases a with
    | timeout => exact inv_runpc h .top s.listening (by simp) (by simp)
    | error => exact inv_runpc h .ended false (by simp) (by simp)
    | client =>
      have hget : ∀ j e, (s.conns ++ [(⟨.made, false, [], [], 0⟩ : Conn)])[j]? = some e →
          s.conns[j]? = some e ∨ (j = s.conns.length ∧ e = ⟨.made, false, [], [], 0⟩) := by
        intro j e he
        rw [List.getElem?_append] at he
        split at he
        · exact .inl he
        · rename_i hj
          right
          rcases Nat.lt_or_ge s.conns.length j with hlt | hge
          · rw [List.getElem?_eq_none (by simp; omega)] at he; cases he
          · have : j = s.conns.length := by omega
            subst this
            simpa [eq_comm] using he
      constructor
      · intro j
        show j ∈ s.channels ↔ _
        rw [h.set]
        constructor
        · rintro ⟨e, he, hi⟩
          exact ⟨e, by rw [List.getElem?_append_left (List.getElem?_eq_some_iff.1 he).1, he], hi⟩
        · rintro ⟨e, he, hi⟩
          rcases hget j e he with he | ⟨_, rfl⟩
          · exact ⟨e, he, hi⟩
          · simp [InSet] at hi
      · exact h.nodup
      · intro j e he hp'
        rcases hget j e he with he | ⟨_, rfl⟩
        · exact h.closed j e he hp'
        · simp at hp'
      · intro j e he hp'
        rcases hget j e he with he | ⟨_, rfl⟩
        · exact h.begun j e he hp'
        · simp
      · intro j hj
        have : j = s.conns.length := by simpa [eq_comm] using hj
        subst this
        exact ⟨_, by show (s.conns ++ _)[_]? = _; simp; rfl, rfl⟩
      · exact fun hl => ⟨(h.stopped hl).1, by simp⟩
      · intro l hl j e he
        rcases hget j e he with he | ⟨_, rfl⟩
        · exact h.left l hl j e he
        · simp
  · rename_i k hk
    split_ifs
    · exact inv_runpc h (.spawn k) s.listening (by simp) (by intro j hj; simp at hj; subst hj; exact hk)
    · exact inv_runpc h .ended false (by simp) (by simp)
  · rename_i k hk
    split
    · rename_i c hc
      obtain ⟨e, he, hp⟩ := h.hello k (.inr hk)
      rw [hc] at he; injection he with he; subst he
      have hb := h.begun k c hc (.inl hp)
      have h' := inv_runpc h .top s.listening (by simp) (by simp)
      exact inv_replace h' (d := { c with pc := .adding }) hc (by simp [InSet, hp]) (by simp [hp]) (by simp) (by simp [hb])
        (fun _ => ⟨fun h => h, fun ⟨h1, h2, _⟩ => .inr ⟨h1, h2, by simp⟩⟩)
    · exact h
  · exact h

theorem inv_step {s : Server} (h : Inv s) (op : Op) : Inv (step s op) := by
  have hclose : ∀ {s : Server}, Inv s → ∀ {k : Nat} {c : Conn}, s.conns[k]? = some c →
      Inv { s with conns := s.conns.set k { c with closed := true } } := fun {s} h {k c} hc =>
    inv_replace h hc Iff.rfl (fun hm => .inr hm) (fun _ => rfl) (h.begun k c hc) (fun _ => ⟨fun _ => rfl, fun _ => .inl rfl⟩)
  unfold step
  split
  · split_ifs with hf
    · exact ⟨h.set, h.nodup, h.closed, h.begun, by simp, fun hl => absurd hf (h.stopped hl).2, fun l hl => absurd hf
        (h.stopped (by rw [show s.left = some l from hl]; simp)).2⟩
    · exact h
  · exact inv_run h _ _
  · split
    · rename_i hc
      exact inv_conn h hc _ _
    · exact h
  · split_ifs with hf
    · refine ⟨h.set, h.nodup, h.closed, h.begun, h.hello, fun _ => ⟨rfl, hf.2⟩, ?_⟩
      intro l hl k c hc
      simp only [Option.some.injEq] at hl
      subst hl
      have hc : s.conns[k]? = some c := hc
      have hin : InSet c.pc → k ∈ s.channels := fun hi => (h.set k).2 ⟨c, hc, hi⟩
      have hb := h.begun k c hc
      have hcl := h.closed k c hc
      cases hp : c.pc <;> simp [hp, InSet] at hin hb hcl <;> simp_all
    · exact h
  · split
    · rename_i k ks hl
      split
      · rename_i c hc
        have h' : Inv { s with left := some (k :: ks) } := by rw [← hl]; exact h
        have h2 := hclose h' hc
        refine ⟨h2.set, h2.nodup, h2.closed, h2.begun, h2.hello, fun _ => h2.stopped (by simp), ?_⟩
        intro l hl' j e he
        simp only [Option.some.injEq] at hl'
        subst hl'
        rcases h2.left _ rfl j e he with h3 | h3 | h3
        · exact .inl h3
        · rcases List.mem_cons.1 h3 with rfl | h3
          · have : (s.conns.set j { c with closed := true })[j]? = some e := he
            rw [set_self hc] at this
            injection this with this
            subst this
            exact .inl rfl
          · exact .inr (.inl h3)
        · exact .inr (.inr h3)
      · rename_i hc
        refine ⟨h.set, h.nodup, h.closed, h.begun, h.hello, fun _ => h.stopped (by simp [hl]), ?_⟩
        intro l hl' j e he
        simp only [Option.some.injEq] at hl'
        subst hl'
        rcases h.left _ hl j e he with h3 | h3 | h3
        · exact .inl h3
        · rcases List.mem_cons.1 h3 with rfl | h3
          · have he : s.conns[j]? = some e := he
            rw [hc] at he; cases he
          · exact .inr (.inl h3)
        · exact .inr (.inr h3)
    · exact h
  · split
    · rename_i hc
      exact hclose h hc
    · exact h

theorem inv_reach {s : Server} (h : Reachable s) : Inv s := reach_ind inv_fresh (fun _ op h => inv_step h op) h

/-! ## C63 -/

/-- Where the accept loop runs. -/
def Up (s : Server) : Prop := s.accepting = true ∧ s.listening = true ∧ s.run ≠ .fresh ∧ s.run ≠ .ended

theorem up_step {s : Server} (h : Up s) {op : Op} (hl : op.Lucky) (hn : op ≠ .stop) : Up (step s op) := by
  obtain ⟨h1, h2, h3, h4⟩ := h
  cases op with
  | start => simp [step, h3, Up, h1, h2, h4]
  | run a sent =>
    obtain ⟨ha, rfl⟩ := hl
    simp only [step, runStep]
    split
    · exact ⟨h1, h2, h3, h4⟩
    · simp [Up, h1, h2]
    · cases a <;> simp_all [Up]
    · simp [Up, h1, h2]
    · split <;> simp_all [Up]
    · exact ⟨h1, h2, h3, h4⟩
  | conn k r o =>
    simp only [step]
    split
    · unfold connStep
      split <;> exact ⟨h1, h2, h3, h4⟩
    · exact ⟨h1, h2, h3, h4⟩
  | stop => exact absurd rfl hn
  | close =>
    simp only [step]
    split
    · split <;> exact ⟨h1, h2, h3, h4⟩
    · exact ⟨h1, h2, h3, h4⟩
  | user k =>
    simp only [step]
    split <;> exact ⟨h1, h2, h3, h4⟩

theorem up_runs {ops : List Op} {s : Server} (h : Up s) (hl : ∀ op ∈ ops, op.Lucky) (hn : Op.stop ∉ ops) : Up (runs s ops) := by
  induction ops generalizing s with
  | nil => exact h
  | cons op ops ih =>
    simp only [List.mem_cons, not_or] at hn
    exact ih (up_step h (hl op (by simp)) (fun h => hn.1 h.symm)) (fun o ho => hl o (by simp [ho])) hn.2

theorem fresh_step {op : Op} (h : op ≠ .start) : step fresh op = fresh := by
  cases op <;> simp_all [step, fresh, runStep]

/-- C63, before `start()`: the server does not listen, accepts nobody and has no connections, whatever else is called. -/
theorem C63_unstarted (ops : List Op) (hs : Op.start ∉ ops) :
    (runs fresh ops).accepting = false ∧ (runs fresh ops).listening = false ∧ (runs fresh ops).conns = [] ∧ (runs fresh ops).channels = [] := by
  induction ops with
  | nil => exact ⟨rfl, rfl, rfl, rfl⟩
  | cons op ops ih =>
    simp only [List.mem_cons, not_or] at hs
    show (runs (step fresh op) ops).accepting = _ ∧ _
    rw [runs, fresh_step (Ne.symm hs.1)]
    exact ih hs.2

/-- C63, in part: if `accept()` raises nothing but timeouts and the hello can be sent to every client, the server accepts until it is
stopped, whatever happens on the connections.  Missing: clients that go away before the hello is sent (`C63_refuted`). -/
theorem C63_accepting_partial (ops : List Op) (hl : ∀ op ∈ ops, op.Lucky) (hs : Op.start ∈ ops) (hn : Op.stop ∉ ops) :
    (runs fresh ops).accepting = true ∧ (runs fresh ops).listening = true ∧ (runs fresh ops).run ≠ .fresh ∧
      (runs fresh ops).run ≠ .ended := by
  induction ops with
  | nil => simp at hs
  | cons op ops ih =>
    simp only [List.mem_cons, not_or] at hn
    have hl' : ∀ o ∈ ops, o.Lucky := fun o ho => hl o (by simp [ho])
    by_cases ho : op = .start
    · subst ho
      exact up_runs (s := step fresh .start) (by simp [step, fresh, Up]) hl' hn.2
    · show Up (runs (step fresh op) ops)
      rw [fresh_step ho]
      exact ih hl' ((List.mem_cons.1 hs).resolve_left fun h => ho h.symm) hn.2

theorem ended_step {s : Server} (h : s.run = .ended) (op : Op) :
    (step s op).run = .ended ∧ (step s op).listening = s.listening ∧ (step s op).conns.length = s.conns.length := by
  cases op with
  | start => simp [step, h]
  | run a sent => simp [step, runStep, h]
  | conn k r o =>
    simp only [step]
    split
    · unfold connStep
      split <;> simp [h]
    · simp [h]
  | stop => simp only [step]; split_ifs <;> simp [h]
  | close =>
    simp only [step]
    split
    · split <;> simp [h]
    · simp [h]
  | user k => simp only [step]; split <;> simp [h]

theorem ended_runs {s : Server} (h : s.run = .ended) (ops : List Op) :
    (runs s ops).run = .ended ∧ (runs s ops).listening = s.listening ∧ (runs s ops).conns.length = s.conns.length := by
  induction ops generalizing s with
  | nil => exact ⟨h, rfl, rfl⟩
  | cons op ops ih =>
    obtain ⟨h1, h2, h3⟩ := ended_step h op
    obtain ⟨h4, h5, h6⟩ := ih h1
    exact ⟨h4, h5.trans h2, h6.trans h3⟩

/-- C63 is false: if sending the hello to a new client raises, no further client is ever accepted, and the socket is closed, although
nobody has called `stop()`. -/
theorem C63_refuted (s : Server) (k : Nat) (hr : s.run = .hello k) (a : Accepted) (more : List Op) :
    (step s (.run a false)).accepting = s.accepting ∧
    (runs (step s (.run a false)) more).run = .ended ∧ (runs (step s (.run a false)) more).listening = false ∧
    (runs (step s (.run a false)) more).conns.length = s.conns.length := by
  have h : step s (.run a false) = { s with run := .ended, listening := false } := by simp [step, runStep, hr]
  rw [h]
  obtain ⟨h1, h2, h3⟩ := ended_runs (s := { s with run := .ended, listening := false }) rfl more
  exact ⟨rfl, h1, h2, h3⟩

/-- A started server that has accepted a client. -/
example : ∃ ops, (∀ op ∈ ops, op.Lucky ∧ op.Calm) ∧ Op.start ∈ ops ∧ Op.stop ∉ ops ∧ (runs fresh ops).run = .hello 0 ∧
    (runs fresh ops).accepting = true :=
  ⟨[.start, .run .client true, .run .client true], by simp [Op.Lucky, Op.Calm], by simp, by simp, by decide, by decide⟩

/-! ## C64 -/

/-- C64: the set holds each connection at most once, and exactly those whose loop has begun and which have not been removed. -/
theorem C64_set (s : Server) (h : Reachable s) :
    s.channels.Nodup ∧ ∀ k, k ∈ s.channels ↔ ∃ c, s.conns[k]? = some c ∧
      (c.pc = .looping ∨ c.pc = .reading ∨ c.pc = .closing ∨ c.pc = .removing ∨ c.pc = .died) :=
  ⟨(inv_reach h).nodup, (inv_reach h).set⟩

/-- C64: a connection is closed before it is removed from the set. -/
theorem C64_closed (s : Server) (h : Reachable s) (k : Nat) (c : Conn) (hc : s.conns[k]? = some c)
    (hp : c.pc = .removing ∨ c.pc = .ended) : c.closed = true := (inv_reach h).closed k c hc hp

theorem calm_step {s : Server} (h : ∀ c ∈ s.conns, c.pc ≠ .died) {op : Op} (hc : op.Calm) : ∀ c ∈ (step s op).conns, c.pc ≠ .died := by
  have hset : ∀ (k : Nat) (d : Conn), d.pc ≠ .died → ∀ c ∈ s.conns.set k d, c.pc ≠ .died := fun k d hd c hc => by
    rcases List.mem_or_eq_of_mem_set hc with hc | rfl
    · exact h c hc
    · exact hd
  have hmem : ∀ {k : Nat} {c : Conn}, s.conns[k]? = some c → c.pc ≠ .died := fun hc => h _ (List.mem_of_getElem? hc)
  cases op with
  | start => simp only [step]; split_ifs <;> exact h
  | run a sent =>
    simp only [step, runStep]
    split
    · exact h
    · split_ifs <;> exact h
    · split
      · exact h
      · exact h
      · intro c hc
        rcases List.mem_append.1 hc with hc | hc
        · exact h c hc
        · simp at hc; subst hc; simp
    · split_ifs <;> exact h
    · split
      · exact hset _ _ (by simp)
      · exact h
    · exact h
  | conn k r o =>
    simp only [step]
    split
    · rename_i c hk
      have hd := hmem hk
      unfold connStep
      split
      · exact h
      · exact hset _ _ (by simp)
      · apply hset
        unfold loopStep
        split
        · split_ifs
          · simp
          · cases o with
            | returns => exact hd
            | close => simp
            | raises => exact absurd rfl hc.1
        · split_ifs <;> simp
      · apply hset
        unfold readStep
        split
        · exact absurd ‹_› (hc.2 _)
        · simp
        · simp
        · simp
      · exact hset _ _ (by simp)
      · exact hset _ _ (by simp)
      · exact h
      · exact h
    · exact h
  | stop => simp only [step]; split_ifs <;> exact h
  | close =>
    simp only [step]
    split
    · split
      · rename_i hk
        have hd := hmem hk
        exact hset _ _ hd
      · exact h
    · exact h
  | user k =>
    simp only [step]
    split
    · rename_i hk
      have hd := hmem hk
      exact hset _ _ hd
    · exact h

theorem calm_runs {s : Server} (ops : List Op) (h : ∀ c ∈ s.conns, c.pc ≠ .died) (hc : ∀ op ∈ ops, op.Calm) :
    ∀ c ∈ (runs s ops).conns, c.pc ≠ .died := by
  induction ops generalizing s with
  | nil => exact h
  | cons op ops ih => exact ih (calm_step h (hc op (by simp))) fun o ho => hc o (by simp [ho])

/-- C64, in part: if no exception but ChannelClose comes out of a handler, every connection whose loop has ended is either on its way to
being closed and removed, or has been.  Missing: other exceptions (`C64_refuted`). -/
theorem C64_ends_partial (ops : List Op) (hc : ∀ op ∈ ops, op.Calm) (k : Nat) (c : Conn) (hk : (runs fresh ops).conns[k]? = some c) :
    (k ∈ (runs fresh ops).channels ↔ c.pc = .looping ∨ c.pc = .reading ∨ c.pc = .closing ∨ c.pc = .removing) ∧
    (c.pc = .made ∨ c.pc = .adding ∨ c.pc = .looping ∨ c.pc = .reading ∨ c.pc = .closing ∨
      c.closed = true ∧ (c.pc = .removing ∨ c.pc = .ended)) := by
  have hi := inv_reach ⟨ops, rfl⟩
  have hd := calm_runs ops (s := fresh) (by simp [fresh]) hc c (List.mem_of_getElem? hk)
  have hcl := hi.closed k c hk
  constructor
  · rw [hi.set]
    constructor
    · rintro ⟨e, he, hp⟩
      rw [hk] at he; injection he with he; subst he
      simpa [InSet, hd] using hp
    · exact fun hp => ⟨c, hk, by rcases hp with h | h | h | h <;> simp [InSet, h]⟩
  · cases hp : c.pc <;> simp_all

theorem died_step {s : Server} {k : Nat} {c : Conn} (h : Inv s) (hk : s.conns[k]? = some c) (hp : c.pc = .died) (hl : s.left = none)
    {op : Op} (h1 : op ≠ .stop) (h2 : op ≠ .user k) : (step s op).conns[k]? = some c ∧ (step s op).left = none := by
  have hset : ∀ (j : Nat) (d : Conn), j ≠ k → (s.conns.set j d)[k]? = some c := fun j d hj => by
    rw [set_other (fun e => hj e.symm), hk]
  cases op with
  | start => simp only [step]; split_ifs <;> exact ⟨hk, hl⟩
  | run a sent =>
    simp only [step, runStep]
    split
    · exact ⟨hk, hl⟩
    · split_ifs <;> exact ⟨hk, hl⟩
    · split
      · exact ⟨hk, hl⟩
      · exact ⟨hk, hl⟩
      · exact ⟨by show (s.conns ++ _)[k]? = _; rw [List.getElem?_append_left (List.getElem?_eq_some_iff.1 hk).1, hk], hl⟩
    · split_ifs <;> exact ⟨hk, hl⟩
    · rename_i j hj
      split
      · refine ⟨hset _ _ ?_, hl⟩
        rintro rfl
        obtain ⟨e, he, hm⟩ := h.hello j (.inr hj)
        rw [hk] at he; injection he with he; subst he
        simp [hp] at hm
      · exact ⟨hk, hl⟩
    · exact ⟨hk, hl⟩
  | conn j r o =>
    simp only [step]
    split
    · rename_i e he
      by_cases hj : j = k
      · subst hj
        rw [hk] at he; injection he with he; subst he
        simp [connStep, hp, hk, hl]
      · unfold connStep
        split
        · exact ⟨hk, hl⟩
        · exact ⟨hset _ _ hj, hl⟩
        · exact ⟨hset _ _ hj, hl⟩
        · exact ⟨hset _ _ hj, hl⟩
        · exact ⟨hset _ _ hj, hl⟩
        · exact ⟨hset _ _ hj, hl⟩
        · exact ⟨hk, hl⟩
        · exact ⟨hk, hl⟩
    · exact ⟨hk, hl⟩
  | stop => exact absurd rfl h1
  | close => simp [step, hl, hk]
  | user j =>
    simp only [step]
    split
    · exact ⟨hset _ _ (fun e => h2 (by rw [e])), hl⟩
    · exact ⟨hk, hl⟩

/-- C64 is false: when a handler raises, the connection stays open and in the set, unless somebody calls `stop()` or closes it from
outside. -/
theorem C64_refuted (s : Server) (h : Reachable s) (hl : s.left = none) (k : Nat) (c : Conn) (hk : s.conns[k]? = some c)
    (hp : c.pc = .looping) (ho : c.closed = false) (need : Nat) (hf : front c.buf = some need) (h0 : need ≠ 0) (r : Raw)
    (more : List Op) (h1 : Op.stop ∉ more) (h2 : Op.user k ∉ more) :
    ∃ d, (runs (step s (.conn k r .raises)) more).conns[k]? = some d ∧ d.pc = .died ∧ d.closed = false ∧
      k ∈ (runs (step s (.conn k r .raises)) more).channels := by
  have hs : step s (.conn k r .raises) = { s with conns := s.conns.set k (loopStep s.accepting c .raises) } := by
    simp only [step, hk, connStep, hp]
  have hd : (loopStep s.accepting c .raises).pc = .died ∧ (loopStep s.accepting c .raises).closed = false := by
    simp [loopStep, hf, h0, ho]
  generalize hde : loopStep s.accepting c .raises = d at hs hd
  have hk' : (step s (.conn k r .raises)).conns[k]? = some d := by rw [hs]; exact set_self hk
  have hl' : (step s (.conn k r .raises)).left = none := by rw [hs]; exact hl
  have hi := inv_step (inv_reach h) (.conn k r .raises)
  generalize step s (.conn k r .raises) = s1 at hk' hl' hi
  have key : ∀ s1 : Server, Inv s1 → s1.conns[k]? = some d → s1.left = none →
      Inv (runs s1 more) ∧ (runs s1 more).conns[k]? = some d := by
    induction more with
    | nil => exact fun s1 h1 h2 _ => ⟨h1, h2⟩
    | cons op more ih =>
      intro s1 hi hk1 hl1
      simp only [List.mem_cons, not_or] at h1 h2
      obtain ⟨h3, h4⟩ := died_step hi hk1 hd.1 hl1 (fun e => h1.1 e.symm) (fun e => h2.1 e.symm)
      exact ih h1.2 h2.2 _ (inv_step hi op) h3 h4
  obtain ⟨h3, h4⟩ := key s1 hi hk' hl'
  exact ⟨d, h4, hd.1, hd.2, (h3.set k).2 ⟨d, h4, by simp [InSet, hd.1]⟩⟩

/-- A connection with a message in its buffer. -/
example : ∃ s, Reachable s ∧ s.left = none ∧ ∃ c, s.conns[0]? = some c ∧ c.pc = .looping ∧ c.closed = false ∧ front c.buf = some 8 := by
  let ops : List Op := [.start, .run .client true, .run .client true, .run .client true, .run .client true,
    .conn 0 .timeout .returns, .conn 0 .timeout .returns, .conn 0 (.data [4, 2, 0, 8, 0, 0, 0, 1]) .returns]
  exact ⟨runs fresh ops, ⟨ops, rfl⟩, by decide, ⟨.looping, false, [4, 2, 0, 8, 0, 0, 0, 1], [], 1⟩, by decide, rfl, rfl, by decide⟩

/-! ## C65 -/

/-- Reads of a connection that have been started. -/
def Conn.pend (c : Conn) : Nat := c.reads + (if c.pc = .reading then 1 else 0)

/-- Reads of connection `k` that have been started. -/
def started (s : Server) (k : Nat) : Nat :=
  match s.conns[k]? with
  | some c => c.pend
  | none => 0

theorem started_set {s : Server} {k : Nat} {c d : Conn} (hc : s.conns[k]? = some c) (h : d.pend ≤ c.pend) (j : Nat) :
    started { s with conns := s.conns.set k d } j ≤ started s j := by
  unfold started
  show (match (s.conns.set k d)[j]? with | some c => c.pend | none => 0) ≤ _
  by_cases hj : j = k
  · subst hj
    rw [set_self hc, hc]
    exact h
  · rw [set_other hj]
    exact Nat.le_refl _

theorem loopStep_reads (a : Bool) (c : Conn) (o : Outcome) : (loopStep a c o).reads = c.reads := by
  unfold loopStep
  split
  · split_ifs
    · rfl
    · cases o <;> rfl
  · split_ifs <;> rfl

theorem loopStep_stopped (c : Conn) (o : Outcome) (hp : c.pc = .looping) : (loopStep false c o).pc ≠ .reading := by
  unfold loopStep
  split
  · split_ifs
    · simp
    · cases o <;> simp [hp]
  · split_ifs <;> simp_all

theorem started_step {s : Server} (hi : Inv s) (ha : s.left ≠ none) (op : Op) (j : Nat) : started (step s op) j ≤ started s j := by
  obtain ⟨hacc, hfr⟩ := hi.stopped ha
  cases op with
  | start => simp [step, hfr]
  | run a sent =>
    simp only [step, runStep]
    split
    · exact Nat.le_refl _
    · split_ifs <;> exact Nat.le_refl _
    · split
      · exact Nat.le_refl _
      · exact Nat.le_refl _
      · unfold started
        show (match (s.conns ++ _)[j]? with | some c => Conn.pend c | none => 0) ≤ _
        rcases Nat.lt_trichotomy j s.conns.length with h | h | h
        · rw [List.getElem?_append_left h]; exact Nat.le_refl _
        · subst h; simp [Conn.pend]
        · rw [List.getElem?_eq_none (by simp; omega)]; exact Nat.zero_le _
    · split_ifs <;> exact Nat.le_refl _
    · split
      · rename_i hc
        exact started_set (s := { s with run := .top }) hc (by simp [Conn.pend]) j
      · exact Nat.le_refl _
    · exact Nat.le_refl _
  | conn k r o =>
    simp only [step]
    split
    · rename_i c hc
      unfold connStep
      split
      · exact Nat.le_refl _
      · exact started_set (s := { s with channels := k :: s.channels }) hc (by simp [Conn.pend]) j
      · rename_i hp
        apply started_set hc
        have h1 := loopStep_stopped c o hp
        rw [hacc, Conn.pend, loopStep_reads, if_neg h1]
        exact Nat.le_add_right _ _
      · rename_i hp
        apply started_set hc
        unfold readStep
        split <;> simp [hp, Conn.pend]
      · exact started_set hc (by simp [Conn.pend]) j
      · exact started_set (s := { s with channels := s.channels.erase k }) hc (by simp [Conn.pend]) j
      · exact Nat.le_refl _
      · exact Nat.le_refl _
    · exact Nat.le_refl _
  | stop => simp [step, ha]
  | close =>
    simp only [step]
    split
    · split
      · rename_i _ ks _ _ c hc
        exact started_set (s := { s with left := some ks }) (d := { c with closed := true }) hc (Nat.le_refl _) j
      · exact Nat.le_refl _
    · exact Nat.le_refl _
  | user k =>
    simp only [step]
    split
    · rename_i c hc
      exact started_set (d := { c with closed := true }) hc (Nat.le_refl _) j
    · exact Nat.le_refl _

theorem left_step {s : Server} (ha : s.left ≠ none) (op : Op) : (step s op).left ≠ none := by
  cases op with
  | start => simp only [step]; split_ifs <;> exact ha
  | run a sent =>
    simp only [step, runStep]
    split
    · exact ha
    · split_ifs <;> exact ha
    · split <;> exact ha
    · split_ifs <;> exact ha
    · split <;> exact ha
    · exact ha
  | conn k r o =>
    simp only [step]
    split
    · unfold connStep
      split <;> exact ha
    · exact ha
  | stop => simp [step, ha]
  | close =>
    simp only [step]
    split
    · split <;> simp
    · exact ha
  | user k => simp only [step]; split <;> exact ha

/-- C65: once `stop()` has been called, no connection begins another read of its transport: each finishes at most the read it is in. -/
theorem C65_no_more_reads (s : Server) (h : Reachable s) (ha : s.left ≠ none) (more : List Op) (k : Nat) (d : Conn)
    (hd : (runs s more).conns[k]? = some d) :
    d.reads ≤ match s.conns[k]? with
      | some c => c.reads + (if c.pc = .reading then 1 else 0)
      | none => 0 := by
  have key : ∀ s : Server, Inv s → s.left ≠ none → started (runs s more) k ≤ started s k := by
    clear hd
    induction more with
    | nil => exact fun _ _ _ => Nat.le_refl _
    | cons op more ih =>
      intro s hi ha
      exact Nat.le_trans (ih _ (inv_step hi op) (left_step ha op)) (started_step hi ha op k)
  have h1 := key s (inv_reach h) ha
  have h2 : d.reads ≤ started (runs s more) k := by
    simp only [started, hd]
    exact Nat.le_add_right _ _
  exact Nat.le_trans h2 h1

/-- C65: when `stop()` has returned, every connection is closed, or it has neither handled nor buffered anything (and this stays so:
the state is any reachable one). -/
theorem C65_returned (s : Server) (h : Reachable s) (hl : s.left = some []) (k : Nat) (c : Conn) (hc : s.conns[k]? = some c) :
    c.closed = true ∨ (c.handled = [] ∧ c.buf = [] ∧ (c.pc = .made ∨ c.pc = .adding ∨ c.pc = .looping ∨ c.pc = .closing)) := by
  rcases (inv_reach h).left [] hl k c hc with h | h | h
  · exact .inl h
  · simp at h
  · exact .inr h

/-- How far the accept loop is from its end, once it has to end. -/
def RunPc.rank : RunPc → Nat
  | .fresh => 0
  | .top => 1
  | .accept => 4
  | .hello _ => 3
  | .spawn _ => 2
  | .ended => 0

/-- How far a connection is from its end. -/
def ConnPc.rank : ConnPc → Nat
  | .made => 6
  | .adding => 5
  | .looping => 4
  | .reading => 4
  | .closing => 3
  | .removing => 2
  | .ended => 0
  | .died => 0

/-- Sum over the connections. -/
def total (f : Conn → Nat) (l : List Conn) : Nat := (l.map f).sum

theorem total_set (f : Conn → Nat) {l : List Conn} {k : Nat} {c d : Conn} (h : l[k]? = some c) :
    total f (l.set k d) + f c = total f l + f d := by
  induction l generalizing k with
  | nil => simp at h
  | cons a l ih =>
    cases k with
    | zero =>
      simp only [List.getElem?_cons_zero, Option.some.injEq] at h
      subst h
      simp only [total, List.set_cons_zero, List.map_cons, List.sum_cons]
      omega
    | succ k =>
      rw [List.getElem?_cons_succ] at h
      have := ih h
      simp only [total, List.set_cons_succ, List.map_cons, List.sum_cons] at this ⊢
      omega

def isReading (c : Conn) : Nat := if c.pc = .reading then 1 else 0

def work (c : Conn) : Nat := c.pc.rank + c.buf.length

/-- Decreases with every step after `stop()`. -/
def measure (s : Server) : Nat × Nat × Nat × Nat :=
  (s.run.rank, total isReading s.conns, total work s.conns, (s.left.getD []).length)

/-- The order on measures. -/
def Less : Nat × Nat × Nat × Nat → Nat × Nat × Nat × Nat → Prop :=
  Prod.Lex (· < ·) (Prod.Lex (· < ·) (Prod.Lex (· < ·) (· < ·)))

theorem less_wf : WellFounded Less :=
  (Prod.lex ⟨(· < ·), Nat.lt_wfRel.wf⟩ (Prod.lex ⟨(· < ·), Nat.lt_wfRel.wf⟩ (Prod.lex ⟨(· < ·), Nat.lt_wfRel.wf⟩ ⟨(· < ·), Nat.lt_wfRel.wf⟩))).wf

theorem front_le {b : Bytes} {n : Nat} (h : front b = some n) : 8 ≤ b.length ∧ n ≤ b.length := by
  unfold front at h
  split_ifs at h with h8
  split at h
  · split_ifs at h with hn
    injection h with h
    omega
  · cases h

theorem loop_less (c : Conn) (o : Outcome) (hp : c.pc = .looping) :
    isReading (loopStep false c o) = 0 ∧ work (loopStep false c o) < work c := by
  refine ⟨by rw [isReading, if_neg (loopStep_stopped c o hp)], ?_⟩
  unfold loopStep
  split
  · rename_i need hf
    have := front_le hf
    split_ifs
    · simp [work, hp, ConnPc.rank]
    · cases o <;> simp [work, hp, ConnPc.rank] <;> omega
  · split_ifs
    · simp [work, hp, ConnPc.rank]
    · simp [work, hp, ConnPc.rank]
    · exact absurd rfl ‹_›

theorem moves_less {s s' : Server} (hi : Inv s) (ha : s.left ≠ none) (h : Moves s s') : Less (measure s') (measure s) := by
  obtain ⟨hacc, hfr⟩ := hi.stopped ha
  obtain ⟨hne, h⟩ := h
  rcases h with ⟨a, sent, rfl⟩ | ⟨k, r, o, rfl⟩ | rfl
  · apply Prod.Lex.left
    simp only [step, runStep] at hne ⊢
    split
    · exact absurd ‹_› hfr
    · rename_i hr
      simp [hacc, hr, RunPc.rank]
    · rename_i hr
      cases a <;> simp [hr, RunPc.rank]
    · rename_i hr
      split_ifs <;> simp [hr, RunPc.rank]
    · rename_i k hr
      obtain ⟨c, hc, _⟩ := hi.hello k (.inr hr)
      simp [hc, hr, RunPc.rank]
    · rename_i hr
      simp [hr] at hne
  · cases hc : s.conns[k]? with
    | none => simp [step, hc] at hne
    | some c =>
      simp only [step, hc] at hne ⊢
      have hr := fun d => total_set isReading (d := d) hc
      have hw := fun d => total_set work (d := d) hc
      have same : ∀ (d : Conn) (ch : List Nat), isReading d = isReading c → work d < work c →
          Less (measure { s with channels := ch, conns := s.conns.set k d }) (measure s) := fun d ch h1 h2 => by
        have := hr d
        have := hw d
        unfold measure
        simp only
        rw [show total isReading (s.conns.set k d) = total isReading s.conns by omega]
        exact .right _ (.right _ (.left _ _ (by omega)))
      unfold connStep at hne ⊢
      cases hp : c.pc with
      | made => simp [hp] at hne
      | adding => exact same _ (k :: s.channels) (by simp [isReading, hp]) (by simp [work, hp, ConnPc.rank])
      | looping =>
        have := loop_less c o hp
        rw [hacc]
        exact same _ s.channels (by rw [this.1]; simp [isReading, hp]) this.2
      | reading =>
        have h1 : isReading (readStep c r) = 0 := by
          unfold readStep
          split <;> simp [isReading]
        have := hr (readStep c r)
        have h2 : isReading c = 1 := by simp [isReading, hp]
        exact .right _ (.left _ _ (by show total isReading (s.conns.set k _) < _; omega))
      | closing => exact same _ s.channels (by simp [isReading, hp]) (by simp [work, hp, ConnPc.rank])
      | removing => exact same _ (s.channels.erase k) (by simp [isReading, hp]) (by simp [work, hp, ConnPc.rank])
      | ended => simp [hp] at hne
      | died => simp [hp] at hne
  · cases hl : s.left with
    | none => exact absurd hl ha
    | some l =>
      cases l with
      | nil => simp [step, hl] at hne
      | cons k ks =>
        simp only [step, hl] at hne ⊢
        cases hc : s.conns[k]? with
        | none =>
          unfold measure
          simp only [hl]
          exact .right _ (.right _ (.right _ (by simp)))
        | some c =>
          have hr := total_set isReading (d := { c with closed := true }) hc
          have hw := total_set work (d := { c with closed := true }) hc
          simp only [isReading, work] at hr hw
          unfold measure
          simp only [hl]
          rw [show total isReading (s.conns.set k { c with closed := true }) = total isReading s.conns by omega,
            show total work (s.conns.set k { c with closed := true }) = total work s.conns by omega]
          exact .right _ (.right _ (.right _ (by simp)))

/-- C65: after `stop()` has been called, there is no infinite sequence of steps of the server's threads. -/
theorem C65_winds_down (s : Server) (h : Reachable s) (ha : s.left ≠ none) : Acc (fun s' s => Moves s s') s := by
  have hi := inv_reach h
  clear h
  have key : ∀ m, ∀ s, measure s = m → Inv s → s.left ≠ none → Acc (fun s' s => Moves s s') s := by
    intro m
    induction m using less_wf.induction with
    | _ m ih =>
      intro s hm hi ha
      constructor
      intro s' h
      obtain ⟨hne, hstep⟩ := id h
      have hs' : Inv s' ∧ s'.left ≠ none := by
        rcases hstep with ⟨a, sent, rfl⟩ | ⟨k, r, o, rfl⟩ | rfl
        · exact ⟨inv_step hi _, left_step ha _⟩
        · exact ⟨inv_step hi _, left_step ha _⟩
        · exact ⟨inv_step hi _, left_step ha _⟩
      exact ih (measure s') (hm ▸ moves_less hi ha h) s' rfl hs'.1 hs'.2
  exact key _ s rfl hi ha

/-- The socket is closed when the accept loop has ended, and with lucky steps every connection that has no thread yet is about to get one. -/
structure Inv2 (lucky : Prop) (s : Server) : Prop where
  shut : s.run = .ended → s.listening = false
  made : lucky → ∀ (k : Nat) (c : Conn), s.conns[k]? = some c → c.pc = .made → s.run = .hello k ∨ s.run = .spawn k

theorem inv2_set {lucky : Prop} {s : Server} (h : Inv2 lucky s) {k : Nat} {c d : Conn} (hc : s.conns[k]? = some c)
    (hd : d.pc = .made → c.pc = .made) : Inv2 lucky { s with conns := s.conns.set k d } := by
  refine ⟨h.shut, fun hl j e he hp => ?_⟩
  rcases get_set he ⟨c, hc⟩ with ⟨rfl, rfl⟩ | ⟨_, he⟩
  · exact h.made hl j c hc (hd hp)
  · exact h.made hl j e he hp

theorem loopStep_made (a : Bool) (c : Conn) (o : Outcome) (h : (loopStep a c o).pc = .made) : c.pc = .made := by
  unfold loopStep at h
  split at h
  · split_ifs at h
    · cases o
      · exact h
      all_goals simp at h
  · split_ifs at h <;> simp at h

theorem inv2_step {lucky : Prop} {s : Server} (hi : Inv s) (h : Inv2 lucky s) (op : Op) (ho : lucky → op.Lucky) : Inv2 lucky (step s op) := by
  cases op with
  | start =>
    simp only [step]
    split_ifs with hf
    · refine ⟨by simp, fun hl k c hc hp => ?_⟩
      rcases h.made hl k c hc hp with h | h <;> rw [hf] at h <;> cases h
    · exact h
  | run a sent =>
    simp only [step, runStep]
    split
    · exact h
    · rename_i hr
      split_ifs
      · refine ⟨by simp, fun hl k c hc hp => ?_⟩
        rcases h.made hl k c hc hp with h | h <;> rw [hr] at h <;> cases h
      · refine ⟨by simp, fun hl k c hc hp => ?_⟩
        rcases h.made hl k c hc hp with h | h <;> rw [hr] at h <;> cases h
    · rename_i hr
      have hm : lucky → ∀ (k : Nat) (c : Conn), s.conns[k]? = some c → c.pc ≠ .made := fun hl k c hc hp => by
        rcases h.made hl k c hc hp with h | h <;> rw [hr] at h <;> cases h
      split
      · exact ⟨by simp, fun hl k c hc hp => absurd hp (hm hl k c hc)⟩
      · exact ⟨by simp, fun hl k c hc hp => absurd hp (hm hl k c hc)⟩
      · refine ⟨by simp, fun hl k c hc hp => .inl ?_⟩
        have hc : (s.conns ++ [(⟨.made, false, [], [], 0⟩ : Conn)])[k]? = some c := hc
        rcases Nat.lt_trichotomy k s.conns.length with hlt | heq | hgt
        · rw [List.getElem?_append_left hlt] at hc
          exact absurd hp (hm hl k c hc)
        · rw [heq]
        · rw [List.getElem?_eq_none (by simp; omega)] at hc
          cases hc
    · rename_i k hr
      split_ifs with hs
      · refine ⟨by simp, fun hl j c hc hp => .inr ?_⟩
        rcases h.made hl j c hc hp with h | h <;> rw [hr] at h <;> cases h
        rfl
      · exact ⟨by simp, fun hl => absurd (ho hl).2 hs⟩
    · rename_i k hr
      split
      · rename_i c hc
        refine ⟨by simp, fun hl j e he hp => ?_⟩
        rcases get_set he ⟨c, hc⟩ with ⟨rfl, rfl⟩ | ⟨hj, he⟩
        · simp at hp
        · rcases h.made hl j e he hp with h | h <;> rw [hr] at h <;> cases h
          exact absurd rfl hj
      · exact h
    · exact h
  | conn k r o =>
    simp only [step]
    split
    · rename_i c hc
      unfold connStep
      split
      · exact h
      · have := inv2_set (d := { c with pc := .looping }) h hc (by simp)
        exact ⟨this.shut, this.made⟩
      · exact inv2_set h hc (loopStep_made _ _ _)
      · rename_i hp
        refine inv2_set h hc ?_
        unfold readStep
        split <;> simp
      · exact inv2_set h hc (by simp)
      · have := inv2_set (d := { c with pc := .ended }) h hc (by simp)
        exact ⟨this.shut, this.made⟩
      · exact h
      · exact h
    · exact h
  | stop => simp only [step]; split_ifs <;> exact ⟨h.shut, h.made⟩
  | close =>
    simp only [step]
    split
    · split
      · rename_i c hc
        have := inv2_set (d := { c with closed := true }) h hc (fun h => h)
        exact ⟨this.shut, this.made⟩
      · exact ⟨h.shut, h.made⟩
    · exact h
  | user k =>
    simp only [step]
    split
    · rename_i c hc
      exact inv2_set (d := { c with closed := true }) h hc (fun h => h)
    · exact h

theorem inv2_runs {lucky : Prop} (ops : List Op) (ho : lucky → ∀ op ∈ ops, op.Lucky) {s : Server} (hi : Inv s) (h : Inv2 lucky s) :
    Inv2 lucky (runs s ops) := by
  induction ops generalizing s with
  | nil => exact h
  | cons op ops ih => exact ih (fun hl o h => ho hl o (by simp [h])) (inv_step hi op) (inv2_step hi h op fun hl => ho hl op (by simp))

theorem inv2_fresh (lucky : Prop) : Inv2 lucky fresh := ⟨by simp [fresh], by simp [fresh]⟩

/-- C65: when no thread can make a step after `stop()` has been called, then `stop()` has closed all channels it had to close, the accept
loop has ended, the socket is closed, and every connection has ended, except those which were never given a thread because their hello
could not be sent, and those from which an exception came; also the latter are closed. -/
theorem C65_at_rest (s : Server) (h : Reachable s) (ha : s.left ≠ none) (hr : ∀ s', ¬ Moves s s') :
    s.left = some [] ∧ s.run = .ended ∧ s.listening = false ∧
    ∀ (k : Nat) (c : Conn), s.conns[k]? = some c → c.pc = .made ∨ c.closed = true ∧ (c.pc = .ended ∨ c.pc = .died) := by
  have hi := inv_reach h
  have hacc := hi.stopped ha
  have hrun : ∀ a sent, step s (.run a sent) = s := fun a sent => Classical.byContradiction fun hne => hr _ ⟨hne, .inl ⟨a, sent, rfl⟩⟩
  have hconn : ∀ k r o, step s (.conn k r o) = s := fun k r o => Classical.byContradiction fun hne => hr _ ⟨hne, .inr (.inl ⟨k, r, o, rfl⟩)⟩
  have hclose : step s .close = s := Classical.byContradiction fun hne => hr _ ⟨hne, .inr (.inr rfl)⟩
  have hleft : s.left = some [] := by
    cases hl : s.left with
    | none => exact absurd hl ha
    | some l =>
      cases l with
      | nil => rfl
      | cons k ks =>
        have h1 : (step s .close).left = some ks := by
          simp only [step, hl]
          split <;> rfl
        rw [hclose, hl] at h1
        simp at h1
  have hended : s.run = .ended := by
    have h1 := congrArg Server.run (hrun .timeout true)
    cases hp : s.run with
    | fresh => exact absurd hp hacc.2
    | top => simp [step, runStep, hp, hacc.1] at h1
    | accept => simp [step, runStep, hp] at h1
    | hello k => simp [step, runStep, hp] at h1
    | spawn k =>
      obtain ⟨c, hc, _⟩ := hi.hello k (.inr hp)
      simp [step, runStep, hp, hc] at h1
    | ended => rfl
  refine ⟨hleft, hended, ?_, ?_⟩
  · obtain ⟨ops, rfl⟩ := h
    exact (inv2_runs (lucky := False) ops (fun h => h.elim) inv_fresh (inv2_fresh _)).shut hended
  · intro k c hc
    have h1 := congrArg (fun s : Server => s.conns[k]?) (hconn k .timeout .returns)
    simp only [step, hc] at h1
    have hcl := hi.closed k c hc
    have hle := hi.left [] hleft k c hc
    cases hp : c.pc with
    | made => exact .inl rfl
    | adding =>
      simp only [connStep, hp, set_self hc, Option.some.injEq] at h1
      rw [← h1] at hp; simp at hp
    | looping =>
      simp only [connStep, hp, set_self hc, Option.some.injEq] at h1
      have := (loop_less c .returns hp).2
      rw [hacc.1] at h1
      rw [h1] at this
      omega
    | reading =>
      simp only [connStep, hp, set_self hc, Option.some.injEq] at h1
      have : (readStep c .timeout).reads = c.reads + 1 := rfl
      rw [h1] at this
      omega
    | closing =>
      simp only [connStep, hp, set_self hc, Option.some.injEq] at h1
      rw [← h1] at hp; simp at hp
    | removing =>
      simp only [connStep, hp, set_self hc, Option.some.injEq] at h1
      rw [← h1] at hp; simp at hp
    | ended => exact .inr ⟨hcl (.inr hp), .inl rfl⟩
    | died =>
      simp [hp] at hle
      exact .inr ⟨hle, .inr rfl⟩

/-- C65, provided that no exception gets out of handlers, `accept()` and the sending of hellos: at rest all connections have ended, all channels are
closed, and the set is empty. (Partial: see `C65_raised_refuted` and `C65_hello_refuted`.) -/
theorem C65_nothing_left_partial (ops : List Op) (hc : ∀ op ∈ ops, op.Calm ∧ op.Lucky) (ha : (runs fresh ops).left ≠ none)
    (hr : ∀ s', ¬ Moves (runs fresh ops) s') :
    (runs fresh ops).channels = [] ∧ ∀ c ∈ (runs fresh ops).conns, c.pc = .ended ∧ c.closed = true := by
  have hreach : Reachable (runs fresh ops) := ⟨ops, rfl⟩
  have hi := inv_reach hreach
  obtain ⟨_, hend, _, hall⟩ := C65_at_rest _ hreach ha hr
  have hd := calm_runs ops (s := fresh) (by simp [fresh]) fun op ho => (hc op ho).1
  have h2 := inv2_runs (lucky := True) ops (fun _ op ho => (hc op ho).2) inv_fresh (inv2_fresh _)
  have key : ∀ (k : Nat) (c : Conn), (runs fresh ops).conns[k]? = some c → c.pc = .ended ∧ c.closed = true := by
    intro k c hk
    rcases hall k c hk with hm | ⟨h1, h3 | h3⟩
    · rcases h2.made trivial k c hk hm with h | h <;> rw [hend] at h <;> cases h
    · exact ⟨h3, h1⟩
    · exact absurd h3 (hd c (List.mem_of_getElem? hk))
  constructor
  · apply List.eq_nil_iff_forall_not_mem.2
    intro k hk
    obtain ⟨c, hc, hp⟩ := (hi.set k).1 hk
    simp [InSet, (key k c hc).1] at hp
  · intro c hc
    obtain ⟨k, hk⟩ := List.mem_iff_getElem?.1 hc
    exact key k c hk

/-- A stopped server with a connection in a read, and one that has been accepted but has no thread yet. -/
example : ∃ ops, (∀ op ∈ ops, op.Calm ∧ op.Lucky) ∧ (runs fresh ops).left = some [0] ∧
    (runs fresh ops).conns.map Conn.pc = [.reading, .made] :=
  ⟨[.start, .run .client true, .run .client true, .run .client true, .run .client true, .conn 0 .timeout .returns,
    .conn 0 .timeout .returns, .run .client true, .run .client true, .stop], by simp [Op.Calm, Op.Lucky, defaultWrapper], by decide, by decide⟩

/-- A server at rest after one connection. -/
example : ∃ ops, (∀ op ∈ ops, op.Calm ∧ op.Lucky) ∧ (runs fresh ops).left ≠ none ∧ (runs fresh ops).conns.length = 1 ∧
    ∀ s', ¬ Moves (runs fresh ops) s' := by
  refine ⟨[.start, .run .client true, .run .client true, .run .client true, .run .client true, .conn 0 .timeout .returns,
    .conn 0 .timeout .returns, .stop, .close, .conn 0 .timeout .returns, .conn 0 .timeout .returns, .conn 0 .timeout .returns,
    .conn 0 .timeout .returns, .run .timeout true, .run .timeout true], by simp [Op.Calm, Op.Lucky, defaultWrapper], by decide, by decide, ?_⟩
  rintro s' ⟨hne, ⟨a, sent, rfl⟩ | ⟨k, r, o, rfl⟩ | rfl⟩
  · exact hne rfl
  · cases k with
    | zero => exact hne rfl
    | succ k => exact hne rfl
  · exact hne rfl

/-- C65 is false if a handler raises an exception: the channel stays in the set for ever. -/
theorem C65_raised_refuted : ∃ ops, (runs fresh ops).left ≠ none ∧ (∀ s', ¬ Moves (runs fresh ops) s') ∧ (runs fresh ops).channels = [0] := by
  refine ⟨[.start, .run .client true, .run .client true, .run .client true, .run .client true, .conn 0 .timeout .returns,
    .conn 0 .timeout .returns, .conn 0 (.data [4, 2, 0, 8, 0, 0, 0, 0]) .returns, .conn 0 .timeout .raises, .stop, .close,
    .run .timeout true, .run .timeout true], by decide, ?_, by decide +kernel⟩
  rintro s' ⟨hne, ⟨a, sent, rfl⟩ | ⟨k, r, o, rfl⟩ | rfl⟩
  · exact hne rfl
  · cases k with
    | zero => exact hne rfl
    | succ k => exact hne rfl
  · exact hne rfl

/-- C65 is false if a hello cannot be sent: the connection is never closed. -/
theorem C65_hello_refuted : ∃ ops, (runs fresh ops).left ≠ none ∧ (∀ s', ¬ Moves (runs fresh ops) s') ∧
    (runs fresh ops).conns.map Conn.closed = [false] := by
  refine ⟨[.start, .run .client true, .run .client true, .run .client false, .stop], by decide, ?_, by decide⟩
  rintro s' ⟨hne, ⟨a, sent, rfl⟩ | ⟨k, r, o, rfl⟩ | rfl⟩
  · exact hne rfl
  · cases k with
    | zero => exact hne rfl
    | succ k => exact hne rfl
  · exact hne rfl

end Twink.Srv
