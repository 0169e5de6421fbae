import Verif.Props.StreamServer
import Verif.Proof.HelloSpec

/-! # Property C105: the stream server handles the messages of every client -/

namespace Twink.Srv
open Twink Spec

/-! ## Specification -/

/-- The bytes that the transport of connection `k` hands over in one step. -/
def gotStep (k : Nat) (s : Server) : Op → Bytes
  | .conn j (.data b) _ =>
    match s.conns[j]? with
    | some c => if j = k ∧ c.pc = .reading then b else []
    | none => []
  | _ => []

/-- All bytes that the transport of connection `k` hands over. -/
def got (k : Nat) : Server → List Op → Bytes
  | _, [] => []
  | s, op :: ops => gotStep k s op ++ got k (step s op) ops

/-- The handler of connection `k` ends normally whenever it is called. -/
def Op.Returns (k : Nat) : Op → Prop
  | .conn j _ o => j = k → o = .returns
  | _ => True

/-! ## Lemmas -/

theorem front_some {b : Bytes} {n : Nat} (h : front b = some n) : 8 ≤ b.length ∧ announced b = n ∧ n ≤ b.length := by
  unfold front at h
  split at h
  · rename_i h8
    rw [parseHeader_fields b h8] at h
    simp only at h
    split at h
    · injection h with h
      refine ⟨h8, ?_, by omega⟩
      rw [← h]
      match b, h8 with
      | a :: b :: c :: d :: _, _ => rfl
    · cases h
  · cases h

theorem front_none {b : Bytes} (h : front b = none) : ¬ Complete b := by
  rintro ⟨h8, hc⟩
  unfold front at h
  rw [if_pos h8, parseHeader_fields b h8] at h
  simp only at h
  split at h
  · cases h
  · rename_i hn
    apply hn
    refine le_trans (le_of_eq ?_) hc
    match b, h8 with
    | a :: b :: c :: d :: _, _ => rfl

theorem announced_append {b c : Bytes} (h : 4 ≤ b.length) : announced (b ++ c) = announced b := by
  match b, h with
  | a :: b :: c :: d :: _, _ => rfl

/-- How the buffer and the messages come about. -/
inductive Took : Bytes → List Bytes → Bytes → Prop
  | nil : Took [] [] []
  | more {S hs b} (x : Bytes) : Took S hs b → Took (S ++ x) hs (b ++ x)
  | take {S hs b n} : Took S hs b → front b = some n → Took S (hs ++ [b.take n]) (b.drop n)

theorem took_flatten {S hs b} (h : Took S hs b) : hs.flatten ++ b = S := by
  induction h with
  | nil => rfl
  | more x _ ih => rw [← ih, List.append_assoc]
  | take _ _ ih => simpa using ih

theorem took_prefix {S hs b} (h : Took S hs b) {msgs : List Bytes} {tail : Bytes} (hwf : ∀ m ∈ msgs, WellFormed m) (ht : ¬ Complete tail) :
    ∀ fut, S ++ fut = msgs.flatten ++ tail → ∃ rest, msgs = hs ++ rest ∧ b ++ fut = rest.flatten ++ tail := by
  induction h with
  | nil => exact fun fut h => ⟨msgs, rfl, h⟩
  | more x _ ih => exact fun fut h => by rw [List.append_assoc] at h ⊢; exact ih _ h
  | @take S hs b n _ hf ih =>
    intro fut h
    obtain ⟨rest, h1, h2⟩ := ih fut h
    obtain ⟨h8, ha, hn⟩ := front_some hf
    cases rest with
    | nil =>
      exfalso
      apply ht
      rw [List.flatten_nil, List.nil_append] at h2
      rw [← h2]
      refine ⟨by simp; omega, ?_⟩
      rw [announced_append (by omega), ha]
      simp; omega
    | cons m ms =>
      obtain ⟨m8, ma⟩ := hwf m (by rw [h1]; simp)
      rw [List.flatten_cons, List.append_assoc] at h2
      have e : n = m.length := by
        have := congrArg announced h2
        rw [announced_append (by omega), announced_append (by omega), ha, ma] at this
        exact this
      have e1 : b.take n = m := by
        have := congrArg (List.take n) h2
        rwa [List.take_append_of_le_length hn, e, List.take_left, ← e] at this
      have e2 : b.drop n ++ fut = ms.flatten ++ tail := by
        have := congrArg (List.drop n) h2
        rwa [List.drop_append_of_le_length hn, e, List.drop_left, ← e] at this
      exact ⟨ms, by rw [h1, e1]; simp, e2⟩

/-- What holds of a connection that was given the bytes `S`; `calm`: its handler has always returned. -/
structure Fed (calm : Prop) (S : Bytes) (c : Conn) : Prop where
  took : Took S c.handled c.buf
  reading : c.pc = .reading → front c.buf = none
  done : calm → c.pc = .closing ∨ c.pc = .removing ∨ c.pc = .ended → front c.buf = none ∨ front c.buf = some 0

theorem fed_loop {calm : Prop} {S : Bytes} {c : Conn} (h : Fed calm S c) (acc : Bool) {o : Outcome} (ho : calm → o = .returns)
    (hp : c.pc = .looping) : Fed calm S (loopStep acc c o) := by
  unfold loopStep
  split
  · rename_i need hf
    split
    · rename_i h0
      subst h0
      exact ⟨h.took, fun h => by simp at h, fun _ _ => .inr hf⟩
    · cases o with
      | returns => exact ⟨h.took.take hf, fun h => by simp [hp] at h, fun _ h => by simp [hp] at h⟩
      | close => exact ⟨h.took.take hf, fun h => by simp at h, fun hc _ => by cases ho hc⟩
      | raises => exact ⟨h.took.take hf, fun h => by simp at h, fun hc _ => by cases ho hc⟩
  · rename_i hf
    repeat' split
    all_goals exact ⟨h.took, fun _ => hf, fun _ _ => .inl hf⟩

theorem fed_read {calm : Prop} {S : Bytes} {c : Conn} (h : Fed calm S c) (r : Raw) (hp : c.pc = .reading) :
    Fed calm (S ++ match r with | .data b => b | _ => []) (readStep c r) := by
  have hf := h.reading hp
  have same : ∀ (c' : Conn), c'.handled = c.handled → c'.buf = c.buf → c'.pc ≠ .reading → Fed calm (S ++ []) c' := by
    intro c' e1 e2 e3
    rw [List.append_nil]
    exact ⟨by rw [e1, e2]; exact h.took, fun e => absurd e e3, fun _ _ => .inl (by rw [e2]; exact hf)⟩
  cases r with
  | data b =>
    cases b with
    | nil => exact same _ rfl rfl (by simp [readStep, defaultWrapper])
    | cons x b => exact ⟨h.took.more _, fun e => by simp [readStep, defaultWrapper] at e, fun _ e => by simp [readStep, defaultWrapper] at e⟩
  | timeout => exact same _ rfl rfl (by simp [readStep, defaultWrapper])
  | sockErr e => cases e <;> exact same _ rfl rfl (by simp [readStep, defaultWrapper])
  | keyboard => exact same _ rfl rfl (by simp [readStep, defaultWrapper])
  | exc e => exact same _ rfl rfl (by simp [readStep, defaultWrapper])

/-- Changes of the program counter and of `closed` only. -/
theorem fed_pc {calm : Prop} {S : Bytes} {c c' : Conn} (h : Fed calm S c) (e1 : c'.handled = c.handled) (e2 : c'.buf = c.buf)
    (e3 : c'.pc = .reading → c.pc = .reading)
    (e4 : c'.pc = .closing ∨ c'.pc = .removing ∨ c'.pc = .ended → c.pc = .closing ∨ c.pc = .removing ∨ c.pc = .ended) : Fed calm S c' :=
  ⟨by rw [e1, e2]; exact h.took, fun e => by rw [e2]; exact h.reading (e3 e), fun hc e => by rw [e2]; exact h.done hc (e4 e)⟩

/-- All connections are as their bytes say. -/
def AllFed (k : Nat) (calm : Prop) (S : Bytes) (s : Server) : Prop := (s.conns[k]? = none → S = []) ∧ ∀ c, s.conns[k]? = some c → Fed calm S c

theorem fed_set {k j : Nat} {calm : Prop} {S : Bytes} {s : Server} (h : AllFed k calm S s) {c d : Conn} (hc : s.conns[j]? = some c)
    {s' : Server} (hs : s'.conns = s.conns.set j d) {S' : Bytes} (hne : j ≠ k → S' = S) (heq : j = k → Fed calm S c → Fed calm S' d) :
    AllFed k calm S' s' := by
  unfold AllFed
  rw [hs, List.getElem?_set]
  by_cases e : j = k
  · subst e
    have hl := (List.getElem?_eq_some_iff.1 hc).1
    rw [if_pos rfl, if_pos hl]
    refine ⟨fun e => (by cases e), fun c' e => ?_⟩
    injection e with e
    exact e ▸ heq rfl (h.2 c hc)
  · rw [if_neg e, hne e]; exact h

theorem gotStep_other {k : Nat} {s : Server} {j : Nat} {r : Raw} {o : Outcome} {c : Conn} (hc : s.conns[j]? = some c)
    (h : ¬ (j = k ∧ c.pc = .reading)) : gotStep k s (.conn j r o) = [] := by
  cases r <;> simp only [gotStep, hc, if_neg h]

theorem fed_step {k : Nat} {calm : Prop} {S : Bytes} {s : Server} (h : AllFed k calm S s) (op : Op) (ho : calm → op.Returns k) :
    AllFed k calm (S ++ gotStep k s op) (step s op) := by
  have keep : ∀ s' : Server, s'.conns = s.conns → AllFed k calm (S ++ []) s' := fun s' e => by
    unfold AllFed; rw [List.append_nil, e]; exact h
  cases op with
  | start => simp only [gotStep, step]; split <;> exact keep _ rfl
  | stop => simp only [gotStep, step]; split <;> exact keep _ rfl
  | close =>
    simp only [gotStep, step]
    split
    · split
      · rename_i hc
        rw [List.append_nil]
        refine fed_set h hc rfl (fun _ => rfl) fun _ f => ?_; exact fed_pc f rfl rfl id id
      · exact keep _ rfl
    · exact keep _ rfl
  | user j =>
    simp only [gotStep, step]
    split
    · rename_i hc
      rw [List.append_nil]
      refine fed_set h hc rfl (fun _ => rfl) fun _ f => ?_; exact fed_pc f rfl rfl id id
    · exact keep _ rfl
  | run a sent =>
    simp only [gotStep, step, runStep]
    split
    · exact keep _ rfl
    · split <;> exact keep _ rfl
    · split
      · exact keep _ rfl
      · exact keep _ rfl
      · rw [List.append_nil]
        simp only [AllFed, List.getElem?_append]
        split
        · exact h
        · rename_i hl
          have hS := h.1 (by simp; omega)
          subst hS
          refine ⟨fun _ => rfl, fun c hc => ?_⟩
          have : c = ⟨.made, false, [], [], 0⟩ := by
            have := List.mem_of_getElem? hc
            simpa using this
          subst this
          exact ⟨.nil, fun e => (by simp at e), fun _ e => (by simp at e)⟩
    · split <;> exact keep _ rfl
    · split
      · rename_i hc
        rw [List.append_nil]
        refine fed_set h hc rfl (fun _ => rfl) fun _ f => ?_; exact fed_pc f rfl rfl (by simp) (by simp)
      · exact keep _ rfl
    · exact keep _ rfl
  | conn j r o =>
    cases hc : s.conns[j]? with
    | none =>
      have e : gotStep k s (.conn j r o) = [] := by cases r <;> simp [gotStep, hc]
      rw [e]
      simp only [step, hc]
      exact keep _ rfl
    | some c =>
      simp only [step, hc, connStep]
      cases hp : c.pc with
      | reading =>
        refine fed_set h hc rfl (fun e => ?_) (fun e f => ?_)
        · rw [gotStep_other hc (by simp [e]), List.append_nil]
        · have := fed_read f r hp
          subst e
          cases r <;> simpa [gotStep, hc, hp] using this
      | looping =>
        rw [gotStep_other hc (by simp [hp]), List.append_nil]
        refine fed_set h hc rfl (fun _ => rfl) fun e f => ?_; exact fed_loop f _ (fun hcalm => ho hcalm e) hp
      | made => rw [gotStep_other hc (by simp [hp])]; exact keep _ rfl
      | ended => rw [gotStep_other hc (by simp [hp])]; exact keep _ rfl
      | died => rw [gotStep_other hc (by simp [hp])]; exact keep _ rfl
      | adding =>
        rw [gotStep_other hc (by simp [hp]), List.append_nil]
        refine fed_set h hc rfl (fun _ => rfl) fun _ f => ?_; exact fed_pc f rfl rfl (by simp) (by simp)
      | closing =>
        rw [gotStep_other hc (by simp [hp]), List.append_nil]
        refine fed_set h hc rfl (fun _ => rfl) fun _ f => ?_; exact fed_pc f rfl rfl (by simp) (by simp [hp])
      | removing =>
        rw [gotStep_other hc (by simp [hp]), List.append_nil]
        refine fed_set h hc rfl (fun _ => rfl) fun _ f => ?_; exact fed_pc f rfl rfl (by simp) (by simp [hp])

theorem fed_runs {k : Nat} {calm : Prop} (ops : List Op) {S : Bytes} {s : Server} (h : AllFed k calm S s)
    (ho : calm → ∀ op ∈ ops, op.Returns k) : AllFed k calm (S ++ got k s ops) (runs s ops) := by
  induction ops generalizing S s with
  | nil => simpa [got, runs] using h
  | cons op ops ih =>
    have := ih (fed_step h op fun hc => ho hc op (by simp)) fun hc o hm => ho hc o (by simp [hm])
    simpa [got, runs, List.append_assoc] using this

theorem fed_fresh (k : Nat) (calm : Prop) : AllFed k calm [] fresh := ⟨fun _ => rfl, fun _ h => by simp [fresh] at h⟩

/-! ## C105 -/

/-- **C105, bytes.** However the threads of the server run: what was handed to the handler of a connection, in order, followed by what its
buffer holds is what its own transport has handed over; nothing of another connection is among it, nothing is lost or repeated. -/
theorem C105_bytes (ops : List Op) (k : Nat) (c : Conn) (hk : (runs fresh ops).conns[k]? = some c) :
    c.handled.flatten ++ c.buf = got k fresh ops := by
  have h := (fed_runs ops (fed_fresh k False) (fun h => h.elim)).2 c hk
  simpa using took_flatten h.took

/-- **C105, messages.** If the bytes are well-formed messages and an unfinished one, the handler was given the first of these messages, each
once, whole, and in order; and, if the connection waits for its transport, all of them. -/
theorem C105_messages (ops : List Op) (k : Nat) (c : Conn) (hk : (runs fresh ops).conns[k]? = some c) (msgs : List Bytes) (tail : Bytes)
    (hwf : ∀ m ∈ msgs, WellFormed m) (ht : ¬ Complete tail) (hg : got k fresh ops = msgs.flatten ++ tail) :
    (∃ rest, msgs = c.handled ++ rest) ∧ (c.pc = .reading → c.handled = msgs ∧ c.buf = tail) := by
  have h := (fed_runs ops (fed_fresh k False) (fun h => h.elim)).2 c hk
  obtain ⟨rest, h1, h2⟩ := took_prefix h.took hwf ht [] (by simpa using hg)
  refine ⟨⟨rest, h1⟩, fun hp => ?_⟩
  rw [List.append_nil] at h2
  cases rest with
  | nil => exact ⟨by simpa using h1.symm, by simpa using h2⟩
  | cons m ms =>
    obtain ⟨m8, ma⟩ := hwf m (by rw [h1]; simp)
    refine absurd ?_ (front_none (h.reading hp))
    rw [h2, List.flatten_cons, List.append_assoc]
    exact ⟨by simp; omega, by rw [announced_append (by omega), ma]; simp⟩

/-- **C105, end of a connection.** If in addition the handler always returns, a connection whose loop has ended, by the end of the
stream, by `stop()` or because somebody closed the channel, has handled all messages that its transport handed over. -/
theorem C105_all (ops : List Op) (k : Nat) (c : Conn) (hk : (runs fresh ops).conns[k]? = some c) (msgs : List Bytes) (tail : Bytes)
    (hwf : ∀ m ∈ msgs, WellFormed m) (ht : ¬ Complete tail) (hg : got k fresh ops = msgs.flatten ++ tail)
    (hr : ∀ op ∈ ops, op.Returns k) (hp : c.pc = .closing ∨ c.pc = .removing ∨ c.pc = .ended) : c.handled = msgs ∧ c.buf = tail := by
  have h := (fed_runs ops (fed_fresh k True) (fun _ => hr)).2 c hk
  obtain ⟨rest, h1, h2⟩ := took_prefix h.took hwf ht [] (by simpa using hg)
  rw [List.append_nil] at h2
  cases rest with
  | nil => exact ⟨by simpa using h1.symm, by simpa using h2⟩
  | cons m ms =>
    obtain ⟨m8, ma⟩ := hwf m (by rw [h1]; simp)
    have hb : announced c.buf = m.length ∧ Complete c.buf := by
      rw [h2, List.flatten_cons, List.append_assoc]
      have e := announced_append (b := m) (c := ms.flatten ++ tail) (by omega)
      exact ⟨by rw [e, ma], by simp; omega, by rw [e, ma]; simp⟩
    rcases h.done trivial hp with h0 | h0
    · exact absurd hb.2 (front_none h0)
    · have := (front_some h0).2.1
      omega

/-- Two clients whose bytes arrive in pieces and interleaved; both messages of the first are handled. -/
example : ∃ ops c, (runs fresh ops).conns[0]? = some c ∧ c.pc = .reading ∧
    got 0 fresh ops = [[4, 2, 0, 8, 0, 0, 0, 1], [4, 0, 0, 8, 0, 0, 0, 2]].flatten ++ [4] ∧ (∀ op ∈ ops, op.Returns 0) ∧
    got 1 fresh ops = [4, 2, 0, 8] ∧ c.handled.length = 2 := by
  refine ⟨[.start, .run .client true, .run .client true, .run .client true, .run .client true, .run .client true, .run .client true,
    .run .client true, .run .client true,
    .conn 0 .timeout .returns, .conn 0 .timeout .returns, .conn 1 .timeout .returns, .conn 1 .timeout .returns,
    .conn 0 (.data [4, 2, 0, 8, 0, 0]) .returns, .conn 1 (.data [4, 2, 0, 8]) .returns, .conn 0 .timeout .returns,
    .conn 0 (.data [0, 1, 4, 0, 0, 8, 0, 0, 0, 2, 4]) .returns, .conn 0 .timeout .returns, .conn 0 .timeout .returns, .conn 0 .timeout .returns],
    _, rfl, by decide +kernel, by decide +kernel, by simp [Op.Returns], by decide +kernel, by decide +kernel⟩

end Twink.Srv
