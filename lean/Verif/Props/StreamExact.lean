import Verif.Props.StreamServer

/-!
# The stream server: exactly when a connection is left behind (C63, C64, C65)
-/

namespace Twink.Srv

/-- Some time in the history `ops` of a server, `P` held of the state and of the next step. -/
def Once (P : Server → Op → Prop) (ops : List Op) : Prop := ∃ a op b, ops = a ++ op :: b ∧ P (runs fresh a) op

/-- An exception leaves the loop of connection `k`: its handler raised one (other than ChannelClose) when given a complete message, or `recv` of the socket raised one
that the wrapper of base.py:30-45 lets through. -/
def Escapes (k : Nat) (s : Server) (op : Op) : Prop := ∃ c r o, s.conns[k]? = some c ∧ op = .conn k r o ∧
  (c.pc = .looping ∧ o = .raises ∧ (∃ need, front c.buf = some need ∧ need ≠ 0) ∨ c.pc = .reading ∧ ∃ e, defaultWrapper r = .error e)

/-- The hello to connection `k` cannot be sent. -/
def HelloFails (k : Nat) (s : Server) (op : Op) : Prop := s.run = .hello k ∧ ∃ a, op = .run a false

theorem snoc_ind {P : List Op → Prop} (h0 : P []) (hs : ∀ ops op, P ops → P (ops ++ [op])) (ops : List Op) : P ops := by
  have : ∀ l : List Op, P l.reverse := fun l => by
    induction l with
    | nil => exact h0
    | cons a l ih => rw [List.reverse_cons]; exact hs _ _ ih
  rw [← List.reverse_reverse ops]
  exact this _

theorem once_nil (P : Server → Op → Prop) : ¬ Once P [] := by
  rintro ⟨a, op, b, h, _⟩
  simp at h

theorem once_snoc (P : Server → Op → Prop) (ops : List Op) (op : Op) : Once P (ops ++ [op]) ↔ Once P ops ∨ P (runs fresh ops) op := by
  constructor
  · rintro ⟨a, x, b, h, hp⟩
    rcases List.eq_nil_or_concat b with rfl | ⟨b, y, rfl⟩
    · obtain ⟨rfl, h2⟩ := List.append_inj' h rfl
      injection h2 with h2
      subst h2
      exact .inr hp
    · rw [List.concat_eq_append, ← List.cons_append, ← List.append_assoc] at h
      obtain ⟨rfl, _⟩ := List.append_inj' h rfl
      exact .inl ⟨a, x, b, rfl, hp⟩
  · rintro (⟨a, x, b, rfl, hp⟩ | hp)
    · exact ⟨a, x, b ++ [op], by simp, hp⟩
    · exact ⟨ops, op, [], rfl, hp⟩

theorem runs_snoc (s : Server) (ops : List Op) (op : Op) : runs s (ops ++ [op]) = step (runs s ops) op := by
  rw [runs_append]; rfl

/-- Where connection `k` is. -/
def pcAt (s : Server) (k : Nat) : Option ConnPc := (s.conns[k]?).map Conn.pc

theorem pcAt_set {s : Server} {t : Server} {j : Nat} {c d : Conn} (hc : s.conns[j]? = some c) (ht : t.conns = s.conns.set j d) (k : Nat) :
    pcAt t k = if k = j then some d.pc else pcAt s k := by
  unfold pcAt
  rw [ht]
  split_ifs with h
  · subst h; rw [set_self hc]; rfl
  · rw [set_other h]

theorem loop_died (a : Bool) (c : Conn) (o : Outcome) (hp : c.pc = .looping) :
    (loopStep a c o).pc = .died ↔ o = .raises ∧ ∃ need, front c.buf = some need ∧ need ≠ 0 := by
  unfold loopStep
  split
  · rename_i need hf
    by_cases h0 : need = 0
    · rw [if_pos h0]
      simp [hf, h0]
    · rw [if_neg h0]
      cases o <;> simp [hf, h0, hp]
  · rename_i hf
    split_ifs <;> simp [hf]

theorem read_died (c : Conn) (r : Raw) : (readStep c r).pc = .died ↔ ∃ e, defaultWrapper r = .error e := by
  unfold readStep
  split <;> simp_all

theorem died_iff_step {s : Server} (h : Inv s) (op : Op) (k : Nat) :
    pcAt (step s op) k = some .died ↔ pcAt s k = some .died ∨ Escapes k s op := by
  have same : ∀ t : Server, t.conns = s.conns → (∀ r o, op ≠ .conn k r o) → (pcAt t k = some .died ↔ pcAt s k = some .died ∨ Escapes k s op) := by
    intro t ht hn
    have : ¬ Escapes k s op := fun ⟨c, r, o, _, he, _⟩ => hn r o he
    simp [pcAt, ht, this]
  have keep : ∀ (t : Server) (j : Nat) (c d : Conn), s.conns[j]? = some c → t.conns = s.conns.set j d → (d.pc = .died ↔ c.pc = .died) → (∀ r o, op ≠ .conn k r o) →
      (pcAt t k = some .died ↔ pcAt s k = some .died ∨ Escapes k s op) := by
    intro t j c d hc ht hd hn
    have : ¬ Escapes k s op := fun ⟨c, r, o, _, he, _⟩ => hn r o he
    rw [pcAt_set hc ht]
    split_ifs with hj
    · subst hj; simp [pcAt, hc, hd, this]
    · simp [this]
  cases op with
  | start => simp only [step]; split_ifs <;> exact same _ rfl (by simp)
  | run a sent =>
    simp only [step, runStep]
    split
    · exact same _ rfl (by simp)
    · split_ifs <;> exact same _ rfl (by simp)
    · split
      · exact same _ rfl (by simp)
      · exact same _ rfl (by simp)
      · have hn : ¬ Escapes k s (.run .client sent) := fun ⟨c, r, o, _, he, _⟩ => by cases he
        simp only [pcAt, hn, or_false]
        by_cases hk : k < s.conns.length
        · rw [List.getElem?_append_left hk]
        · rw [List.getElem?_append_right (by omega), List.getElem?_eq_none (l := s.conns) (by omega)]
          cases hi : k - s.conns.length <;> simp
    · split_ifs <;> exact same _ rfl (by simp)
    · rename_i j hj
      obtain ⟨c, hc, hm⟩ := h.hello j (.inr hj)
      rw [hc]
      exact keep _ j c _ hc rfl (by simp [hm]) (by simp)
    · exact same _ rfl (by simp)
  | conn j r o =>
    by_cases hj : j = k
    · subst hj
      cases hc : s.conns[j]? with
      | none =>
        have hn : ¬ Escapes j s (.conn j r o) := fun ⟨c, _, _, he, _⟩ => by rw [hc] at he; cases he
        simp [step, hc, hn]
      | some c =>
        have hE : Escapes j s (.conn j r o) ↔ (c.pc = .looping ∧ o = .raises ∧ (∃ need, front c.buf = some need ∧ need ≠ 0) ∨
            c.pc = .reading ∧ ∃ e, defaultWrapper r = .error e) := by
          constructor
          · rintro ⟨c', r', o', h1, h2, h3⟩
            rw [hc] at h1
            injection h1 with h1
            injection h2 with _ h2 h4
            subst h1 h2 h4
            exact h3
          · exact fun h => ⟨c, r, o, hc, rfl, h⟩
        rw [hE]
        have hp0 : pcAt s j = some c.pc := by simp [pcAt, hc]
        rw [hp0]
        simp only [step, hc]
        unfold connStep
        split
        · rename_i hp; rw [hp0]; simp [hp]
        · rename_i hp; rw [pcAt_set hc rfl]; simp [hp]
        · rename_i hp; rw [pcAt_set hc rfl, if_pos rfl, Option.some_inj, loop_died _ _ _ hp]; simp [hp]
        · rename_i hp; rw [pcAt_set hc rfl, if_pos rfl, Option.some_inj, read_died]; simp [hp]
        · rename_i hp; rw [pcAt_set hc rfl]; simp [hp]
        · rename_i hp; rw [pcAt_set hc rfl]; simp [hp]
        · rename_i hp; rw [hp0]; simp [hp]
        · rename_i hp; rw [hp0]; simp [hp]
    · have hn : ¬ Escapes k s (.conn j r o) := fun ⟨_, _, _, _, he, _⟩ => by injection he with he; exact hj he
      have hs : pcAt (step s (.conn j r o)) k = pcAt s k := by
        simp only [step]
        split
        · rename_i c hc
          unfold connStep
          split <;> first | rfl | (rw [pcAt_set hc rfl, if_neg (fun e => hj e.symm)])
        · rfl
      simp [hs, hn]
  | stop => simp only [step]; split_ifs <;> exact same _ rfl (by simp)
  | close =>
    simp only [step]
    split
    · split
      · rename_i c hc
        exact keep _ _ c _ hc rfl Iff.rfl (by simp)
      · exact same _ rfl (by simp)
    · exact same _ rfl (by simp)
  | user j =>
    simp only [step]
    split
    · rename_i c hc
      exact keep _ _ c _ hc rfl Iff.rfl (by simp)
    · exact same _ rfl (by simp)

theorem died_iff (ops : List Op) (k : Nat) : pcAt (runs fresh ops) k = some .died ↔ Once (Escapes k) ops := by
  induction ops using snoc_ind with
  | h0 => simp [once_nil, pcAt, runs, fresh]
  | hs ops op ih => rw [runs_snoc, died_iff_step (inv_reach ⟨ops, rfl⟩), once_snoc, ih]

/-- C64, exactly: a connection whose thread is no longer at work on it is in the set of channels if and only if an exception has left its loop.  For all other connections:
in the set from the beginning of the loop until they are closed and removed. -/
theorem C64_exact (ops : List Op) (k : Nat) :
    k ∈ (runs fresh ops).channels ↔
      Once (Escapes k) ops ∨ ∃ c, (runs fresh ops).conns[k]? = some c ∧ (c.pc = .looping ∨ c.pc = .reading ∨ c.pc = .closing ∨ c.pc = .removing) := by
  rw [(C64_set _ ⟨ops, rfl⟩).2, ← died_iff]
  simp only [pcAt, Option.map_eq_some_iff]
  constructor
  · rintro ⟨c, hc, h | h | h | h | h⟩
    · exact .inr ⟨c, hc, .inl h⟩
    · exact .inr ⟨c, hc, .inr (.inl h)⟩
    · exact .inr ⟨c, hc, .inr (.inr (.inl h))⟩
    · exact .inr ⟨c, hc, .inr (.inr (.inr h))⟩
    · exact .inl ⟨c, hc, h⟩
  · rintro (⟨c, hc, h⟩ | ⟨c, hc, h⟩)
    · exact ⟨c, hc, .inr (.inr (.inr (.inr h)))⟩
    · exact ⟨c, hc, by rcases h with h | h | h | h <;> simp [h]⟩

/-- A connection without a thread waits for its hello, or for its thread, or its hello could not be sent. -/
theorem made_iff_step {s : Server} (h : Inv s) (op : Op) (k : Nat) (F : Prop)
    (hF : F → s.run = .ended)
    (hm : pcAt s k = some .made ↔ s.run = .hello k ∨ s.run = .spawn k ∨ F) :
    pcAt (step s op) k = some .made ↔ (step s op).run = .hello k ∨ (step s op).run = .spawn k ∨ (F ∨ HelloFails k s op) := by
  have same : ∀ t : Server, t.conns = s.conns → t.run = s.run → (∀ a, op ≠ .run a false) →
      (pcAt t k = some .made ↔ t.run = .hello k ∨ t.run = .spawn k ∨ (F ∨ HelloFails k s op)) := by
    intro t ht hr hn
    have : ¬ HelloFails k s op := fun ⟨_, a, he⟩ => hn a he
    have h1 : pcAt t k = pcAt s k := by simp [pcAt, ht]
    rw [h1, hm, hr]
    simp [this]
  have keep : ∀ (t : Server) (j : Nat) (c d : Conn), s.conns[j]? = some c → t.conns = s.conns.set j d → t.run = s.run → (d.pc = .made ↔ c.pc = .made) →
      (∀ a, op ≠ .run a false) → (pcAt t k = some .made ↔ t.run = .hello k ∨ t.run = .spawn k ∨ (F ∨ HelloFails k s op)) := by
    intro t j c d hc ht hr hd hn
    have : ¬ HelloFails k s op := fun ⟨_, a, he⟩ => hn a he
    rw [pcAt_set hc ht, hr]
    have h1 : (if k = j then some d.pc else pcAt s k) = some .made ↔ pcAt s k = some .made := by
      split_ifs with hj
      · subst hj; simp [pcAt, hc, hd]
      · rfl
    rw [h1, hm]
    simp [this]
  cases op with
  | start =>
    simp only [step]
    split_ifs with hf
    · have hn : ¬ HelloFails k s .start := fun ⟨_, a, he⟩ => by cases he
      have hnF : ¬ F := fun f => by rw [hF f] at hf; cases hf
      have h1 : pcAt { s with accepting := true, listening := true, run := .top } k = pcAt s k := rfl
      rw [h1, hm, hf]
      simp [hn, hnF]
    · exact same _ rfl rfl (by simp)
  | run a sent =>
    simp only [step, runStep]
    split
    · rename_i hr
      have hn : ¬ HelloFails k s (.run a sent) := fun ⟨h1, _⟩ => by rw [hr] at h1; cases h1
      rw [hm]; simp [hr, hn]
    · rename_i hr
      have hn : ¬ HelloFails k s (.run a sent) := fun ⟨h1, _⟩ => by rw [hr] at h1; cases h1
      have h1 : ¬ pcAt s k = some .made := by rw [hm, hr]; simp; exact fun f => by rw [hF f] at hr; cases hr
      have h2 : ¬ F := fun f => h1 (hm.2 (.inr (.inr f)))
      split_ifs
      · show pcAt s k = some .made ↔ _
        simp [h1, hn, h2]
      · show pcAt s k = some .made ↔ _
        simp [h1, hn, h2]
    · rename_i hr
      have hn : ¬ HelloFails k s (.run a sent) := fun ⟨h1, _⟩ => by rw [hr] at h1; cases h1
      have h1 : ¬ pcAt s k = some .made := by rw [hm, hr]; simp; exact fun f => by rw [hF f] at hr; cases hr
      have h2 : ¬ F := fun f => h1 (hm.2 (.inr (.inr f)))
      split
      · show pcAt s k = some .made ↔ _
        simp [h1, hn, h2]
      · show pcAt s k = some .made ↔ _
        simp [h1, hn, h2]
      · simp only [hn, h2, or_false, RunPc.hello.injEq, reduceCtorEq]
        show ((s.conns ++ [_])[k]?).map Conn.pc = _ ↔ _
        by_cases hk : k < s.conns.length
        · rw [List.getElem?_append_left hk]
          show pcAt s k = _ ↔ _
          simp only [h1, false_iff]
          omega
        · rw [List.getElem?_append_right (by omega)]
          by_cases he : s.conns.length = k
          · subst he; simp
          · have : k - s.conns.length ≠ 0 := by omega
            obtain ⟨m, hm'⟩ := Nat.exists_eq_succ_of_ne_zero this
            rw [hm']; simp [he]
    · rename_i j hr
      split_ifs with hs
      · subst hs
        have hn : ¬ HelloFails k s (.run a true) := fun ⟨_, a, he⟩ => by cases he
        show pcAt s k = some .made ↔ _
        have h2 : ¬ F := fun f => by rw [hF f] at hr; cases hr
        rw [hm, hr]
        simp [hn, h2]
      · have hs : sent = false := by simpa using hs
        subst hs
        show pcAt s k = some .made ↔ _
        have h2 : ¬ F := fun f => by rw [hF f] at hr; cases hr
        rw [hm, hr]
        simp only [h2, or_false, false_or, HelloFails, hr, reduceCtorEq, Op.run.injEq]
        constructor
        · exact fun h => ⟨h, a, rfl, trivial⟩
        · exact fun h => h.1
    · rename_i j hr
      obtain ⟨c, hc, hcm⟩ := h.hello j (.inr hr)
      rw [hc]
      have hn : ¬ HelloFails k s (.run a sent) := fun ⟨h1, _⟩ => by rw [hr] at h1; cases h1
      have h2 : ¬ F := fun f => by rw [hF f] at hr; cases hr
      simp only [hn, h2, or_false, reduceCtorEq, iff_false]
      rw [pcAt_set hc rfl]
      split_ifs with hj
      · simp
      · rw [hm, hr]
        simp [h2]
        exact fun e => hj e.symm
    · rename_i hr
      have hn : ¬ HelloFails k s (.run a sent) := fun ⟨h1, _⟩ => by rw [hr] at h1; cases h1
      rw [hm]; simp [hn]
  | conn j r o =>
    simp only [step]
    split
    · rename_i c hc
      unfold connStep
      split
      · exact same _ rfl rfl (by simp)
      · rename_i hp; exact keep _ j c _ hc rfl rfl (by simp [hp]) (by simp)
      · rename_i hp
        exact keep _ j c _ hc rfl rfl ⟨fun h => loopStep_made _ _ _ h, fun h => by rw [hp] at h; cases h⟩ (by simp)
      · rename_i hp
        refine keep _ j c _ hc rfl rfl ⟨fun h => ?_, fun h => by rw [hp] at h; cases h⟩ (by simp)
        unfold readStep at h
        split at h <;> cases h
      · rename_i hp; exact keep _ j c _ hc rfl rfl (by simp [hp]) (by simp)
      · rename_i hp; exact keep _ j c _ hc rfl rfl (by simp [hp]) (by simp)
      · exact same _ rfl rfl (by simp)
      · exact same _ rfl rfl (by simp)
    · exact same _ rfl rfl (by simp)
  | stop => simp only [step]; split_ifs <;> exact same _ rfl rfl (by simp)
  | close =>
    simp only [step]
    split
    · split
      · rename_i c hc
        exact keep _ _ c _ hc rfl rfl Iff.rfl (by simp)
      · exact same _ rfl rfl (by simp)
    · exact same _ rfl rfl (by simp)
  | user j =>
    simp only [step]
    split
    · rename_i c hc
      exact keep _ _ c _ hc rfl rfl Iff.rfl (by simp)
    · exact same _ rfl rfl (by simp)

theorem fails_ended (ops : List Op) (k : Nat) (h : Once (HelloFails k) ops) : (runs fresh ops).run = .ended := by
  obtain ⟨a, op, b, rfl, hr, x, rfl⟩ := h
  rw [runs_append]
  exact (ended_runs (s := step (runs fresh a) (.run x false)) (by simp [step, runStep, hr]) b).1

theorem made_iff (ops : List Op) (k : Nat) :
    pcAt (runs fresh ops) k = some .made ↔ (runs fresh ops).run = .hello k ∨ (runs fresh ops).run = .spawn k ∨ Once (HelloFails k) ops := by
  induction ops using snoc_ind with
  | h0 => simp [once_nil, pcAt, runs, fresh]
  | hs ops op ih =>
    have hi := inv_reach (s := runs fresh ops) ⟨ops, rfl⟩
    rw [runs_snoc, once_snoc]
    exact made_iff_step hi op k _ (fails_ended ops k) ih

/-- C65, exactly: when no thread can make a step any more after `stop()`, the set of channels is empty if and only if no exception ever left the loop of a connection; and
all connections have ended, closed and removed, if and only if moreover every hello could be sent. -/
theorem C65_exact (ops : List Op) (ha : (runs fresh ops).left ≠ none) (hr : ∀ s', ¬ Moves (runs fresh ops) s') :
    ((runs fresh ops).channels = [] ↔ ∀ k, ¬ Once (Escapes k) ops) ∧
    ((∀ c ∈ (runs fresh ops).conns, c.pc = .ended ∧ c.closed = true) ↔ ∀ k, ¬ Once (Escapes k) ops ∧ ¬ Once (HelloFails k) ops) := by
  obtain ⟨_, hend, _, hall⟩ := C65_at_rest _ ⟨ops, rfl⟩ ha hr
  have hno : ∀ (k : Nat) (c : Conn), (runs fresh ops).conns[k]? = some c → ¬ (c.pc = .looping ∨ c.pc = .reading ∨ c.pc = .closing ∨ c.pc = .removing) := by
    intro k c hc hp
    rcases hall k c hc with h | ⟨_, h | h⟩ <;> simp [h] at hp
  have hmade : ∀ k, pcAt (runs fresh ops) k = some .made ↔ Once (HelloFails k) ops := by
    intro k; rw [made_iff, hend]; simp
  constructor
  · rw [List.eq_nil_iff_forall_not_mem]
    refine forall_congr' fun k => not_congr ?_
    rw [C64_exact]
    exact ⟨fun h => h.elim id fun ⟨c, hc, hp⟩ => absurd hp (hno k c hc), .inl⟩
  · constructor
    · intro h k
      rw [← died_iff, ← hmade]
      simp only [pcAt, Option.map_eq_some_iff, not_exists, not_and]
      constructor
      · intro c hc hp
        rw [(h c (List.mem_of_getElem? hc)).1] at hp; cases hp
      · intro c hc hp
        rw [(h c (List.mem_of_getElem? hc)).1] at hp; cases hp
    · intro h c hc
      obtain ⟨k, hk⟩ := List.mem_iff_getElem?.1 hc
      obtain ⟨h1, h2⟩ := h k
      rw [← died_iff] at h1
      rw [← hmade] at h2
      simp only [pcAt, hk, Option.map_some, Option.some_inj] at h1 h2
      rcases hall k c hk with hp | ⟨hcl, hp | hp⟩
      · exact absurd hp h2
      · exact ⟨hp, hcl⟩
      · exact absurd hp h1

/-- Servers at rest: one whose hello could not be sent, and one with a handler that raised. -/
example : (∃ ops, (runs fresh ops).left ≠ none ∧ (∀ s', ¬ Moves (runs fresh ops) s') ∧ Once (HelloFails 0) ops) ∧
    (∃ ops, (runs fresh ops).left ≠ none ∧ (∀ s', ¬ Moves (runs fresh ops) s') ∧ Once (Escapes 0) ops) := by
  constructor
  · refine ⟨[.start, .run .client true, .run .client true, .run .client false, .stop], by decide, ?_, ?_⟩
    · rintro s' ⟨hne, ⟨a, sent, rfl⟩ | ⟨k, r, o, rfl⟩ | rfl⟩
      · exact hne rfl
      · cases k with
        | zero => exact hne rfl
        | succ k => exact hne rfl
      · exact hne rfl
    · exact ⟨[.start, .run .client true, .run .client true], .run .client false, [.stop], rfl, by decide, .client, rfl⟩
  · refine ⟨[.start, .run .client true, .run .client true, .run .client true, .run .client true, .conn 0 .timeout .returns,
      .conn 0 .timeout .returns, .conn 0 (.data [4, 2, 0, 8, 0, 0, 0, 0]) .returns, .conn 0 .timeout .raises, .stop, .close,
      .run .timeout true, .run .timeout true], by decide, ?_, (died_iff _ 0).1 (by decide +kernel)⟩
    rintro s' ⟨hne, ⟨a, sent, rfl⟩ | ⟨k, r, o, rfl⟩ | rfl⟩
    · exact hne rfl
    · cases k with
      | zero => exact hne rfl
      | succ k => exact hne rfl
    · exact hne rfl

/-! ## C63 -/

/-- What ends the accept loop: `accept()` raises something else than a timeout, or the hello to the new client cannot be sent. -/
def LoopFails (s : Server) (op : Op) : Prop := (s.run = .accept ∧ ∃ sent, op = .run .error sent) ∨ ∃ k, HelloFails k s op

theorem fails_step {s : Server} (h : Up s) {op : Op} (hn : op ≠ .stop) :
    (LoopFails s op → (step s op).run = .ended ∧ (step s op).listening = false) ∧ (¬ LoopFails s op → Up (step s op)) := by
  constructor
  · rintro (⟨hr, sent, rfl⟩ | ⟨k, hr, a, rfl⟩) <;> simp [step, runStep, hr]
  · intro hf
    cases op with
    | run a sent =>
      obtain ⟨h1, h2, h3, h4⟩ := h
      simp only [step, runStep]
      split
      · exact ⟨h1, h2, h3, h4⟩
      · simp [Up, h1, h2]
      · rename_i hr
        cases a
        · simp [Up, h1, h2]
        · simp [Up, h1, h2]
        · exact absurd (.inl ⟨hr, sent, rfl⟩) hf
      · rename_i k hr
        cases sent
        · exact absurd (.inr ⟨k, hr, a, rfl⟩) hf
        · simp [Up, h1, h2]
      · split <;> simp_all [Up]
      · exact ⟨h1, h2, h3, h4⟩
    | stop => exact absurd rfl hn
    | start => exact up_step h trivial hn
    | conn k r o => exact up_step h trivial hn
    | close => exact up_step h trivial hn
    | user k => exact up_step h trivial hn

/-- C63, exactly: a server that has been started and not been stopped listens if and only if no `accept()` ever raised anything but a timeout and every hello could be
sent. -/
theorem C63_exact (ops : List Op) (hs : Op.start ∈ ops) (hn : Op.stop ∉ ops) :
    (runs fresh ops).listening = true ↔ ¬ Once LoopFails ops := by
  have key : ∀ ops : List Op, Op.stop ∉ ops → (Op.start ∉ ops ∧ runs fresh ops = fresh ∧ ¬ Once LoopFails ops) ∨
      (Op.start ∈ ops ∧ (Up (runs fresh ops) ∧ ¬ Once LoopFails ops ∨
        ((runs fresh ops).run = .ended ∧ (runs fresh ops).listening = false) ∧ Once LoopFails ops)) := by
    intro ops
    induction ops using snoc_ind with
    | h0 => exact fun _ => .inl ⟨by simp, rfl, once_nil _⟩
    | hs ops op ih =>
      intro hn
      simp only [List.mem_append, List.mem_singleton, not_or] at hn
      rw [runs_snoc, once_snoc]
      rcases ih hn.1 with ⟨h1, h2, h3⟩ | ⟨h1, ⟨h2, h3⟩ | ⟨⟨h2, h3⟩, h4⟩⟩
      · have hf : ¬ LoopFails (runs fresh ops) op := by
          rw [h2]
          rintro (⟨hr, _⟩ | ⟨k, hr, _⟩) <;> cases hr
        by_cases ho : op = .start
        · subst ho
          refine .inr ⟨by simp, .inl ⟨by rw [h2]; simp [step, fresh, Up], by simp [h3, hf]⟩⟩
        · refine .inl ⟨by simp [h1]; exact fun e => ho e.symm, by rw [h2, fresh_step ho], by simp [h3, hf]⟩
      · obtain ⟨f1, f2⟩ := fails_step h2 (op := op) (fun e => hn.2 e.symm)
        refine .inr ⟨by simp [h1], ?_⟩
        by_cases hf : LoopFails (runs fresh ops) op
        · exact .inr ⟨f1 hf, .inr hf⟩
        · exact .inl ⟨f2 hf, by simp [h3, hf]⟩
      · refine .inr ⟨by simp [h1], .inr ⟨?_, .inl h4⟩⟩
        obtain ⟨e1, e2, _⟩ := ended_runs (s := runs fresh ops) h2 [op]
        exact ⟨e1, e2.trans h3⟩
  rcases key ops hn with ⟨h1, _⟩ | ⟨_, ⟨h2, h3⟩ | ⟨⟨h2, h3⟩, h4⟩⟩
  · exact absurd hs h1
  · simp [h2.2.1, h3]
  · simp [h3, h4]

/-- The server of the example of C63 above, when the hello fails. -/
example : Once LoopFails [.start, .run .client true, .run .client true, .run .client false] :=
  ⟨[.start, .run .client true, .run .client true], .run .client false, [], rfl, .inr ⟨0, by decide, .client, rfl⟩⟩

end Twink.Srv
