import Verif.Spec.Rule2
import Verif.Props.Ovs

/-!
# Invariants of `rule2ofp`
-/

namespace Twink.Rule2
open Spec Ovs

theorem runs_append (addr : Str) (s : St) (a b : List Op) : runs addr s (a ++ b) = runs addr (runs addr s a) b := by
  induction a generalizing s with
  | nil => rfl
  | cons op a ih => exact ih _

theorem runs_snoc (addr : Str) (s : St) (a : List Op) (op : Op) : runs addr s (a ++ [op]) = step addr (runs addr s a) op := by
  rw [runs_append]; rfl

theorem messages_append (a b : List Rule) : messages (a ++ b) = messages a ++ messages b := by
  induction a with
  | nil => rfl
  | cons r a ih => simp [messages, ih]

/-! ## The server -/

/-- The caller is still before `stop()`. -/
def Main.before : Main → Prop
  | .loop _ | .busy .. | .stop _ => True
  | .join _ | .ended _ => False

structure Server (s : St) : Prop where
  fresh : s.starter = .fresh → s.accepting = false
  flagged : s.starter ≠ .fresh → s.main.before → s.accepting = true
  runner : s.runner ≠ .none ↔ s.starter = .done
  listening : (s.starter = .listened ∨ s.starter = .done) → s.runner ≠ .ended → s.listening = true
  silent : (s.starter = .fresh ∨ s.starter = .flagged) → s.listening = false
  over : s.runner = .ended → s.accepting = false ∧ s.listening = false
  joined : Over s → s.starter = .done

theorem server_init (v : Nat) (rules : List Rule) : Server (init v rules) :=
  ⟨fun _ => rfl, by simp [init], by simp [init], by simp [init], fun _ => rfl, by simp [init], by simp [init, Over]⟩

theorem server_main (addr : Str) {s : St} (h : Server s) : Server (mainStep addr s) := by
  obtain ⟨h1, h2, h3, h4, h5, h6, h7⟩ := h
  unfold mainStep
  split
  · rename_i e; exact ⟨h1, fun a _ => h2 a (by simp [e, Main.before]), h3, h4, h5, h6, by simp [Over]⟩
  · rename_i e; exact ⟨h1, fun a _ => h2 a (by simp [e, Main.before]), h3, h4, h5, h6, by simp [Over]⟩
  · exact ⟨h1, h2, h3, h4, h5, h6, h7⟩
  · exact ⟨fun _ => rfl, fun _ hb => by simp [Main.before] at hb, h3, h4, h5, fun a => ⟨rfl, (h6 a).2⟩, by simp [Over]⟩
  · split
    · rename_i hd; exact ⟨h1, fun _ hb => by simp [Main.before] at hb, h3, h4, h5, h6, fun _ => hd⟩
    · exact ⟨h1, h2, h3, h4, h5, h6, h7⟩
  · exact ⟨h1, h2, h3, h4, h5, h6, h7⟩

theorem server_start {s : St} (h : Server s) : Server (startStep s) := by
  obtain ⟨h1, h2, h3, h4, h5, h6, h7⟩ := h
  unfold startStep
  split
  · rename_i e
    have hn : s.runner = .none := by
      by_contra hc; rw [h3.1 hc] at e; simp at e
    exact ⟨by simp, fun _ _ => rfl, by simp [hn], by simp, fun _ => h5 (.inl e), by simp [hn], fun hh => by have := h7 hh; rw [e] at this; simp at this⟩
  · rename_i e
    have hn : s.runner = .none := by
      by_contra hc; rw [h3.1 hc] at e; simp at e
    exact ⟨by simp, fun _ hb => h2 (by simp [e]) hb, by simp [hn], fun _ _ => rfl, by simp, by simp [hn], fun hh => by have := h7 hh; rw [e] at this; simp at this⟩
  · rename_i e
    have hn : s.runner ≠ .ended := by
      intro hc; have := h3.1 (by simp [hc]); rw [e] at this; simp at this
    exact ⟨by simp, fun _ hb => h2 (by simp [e]) hb, by simp, fun _ _ => h4 (.inl e) hn, by simp, by simp, fun _ => rfl⟩
  · exact ⟨h1, h2, h3, h4, h5, h6, h7⟩

theorem server_run {s : St} (h : Server s) (t : Bool) : Server (runStep s t) := by
  have hh := h
  obtain ⟨h1, h2, h3, h4, h5, h6, h7⟩ := h
  unfold runStep
  split
  · exact hh
  · rename_i e
    have hd : s.starter = .done := h3.1 (by simp [e])
    split
    · exact ⟨h1, h2, by simp [hd], fun a _ => h4 a (by simp [e]), h5, by simp, h7⟩
    · rename_i ha
      exact ⟨h1, h2, by simp [hd], by simp, fun _ => rfl, fun _ => ⟨by simpa using ha, rfl⟩, h7⟩
  · rename_i e
    have hd : s.starter = .done := h3.1 (by simp [e])
    split
    · exact ⟨h1, h2, by simp [hd], fun a _ => h4 a (by simp [e]), h5, by simp, h7⟩
    · split
      · rename_i em
        split
        · exact ⟨h1, fun a _ => h2 a (by simp [em, Main.before]), by simp [hd], fun a _ => h4 a (by simp [e]), h5, by simp, by simp [Over]⟩
        · exact hh
      · exact hh
  · exact hh

theorem server_client {s : St} (h : Server s) : Server (clientStep s) := by
  have hh := h
  obtain ⟨h1, h2, h3, h4, h5, h6, h7⟩ := h
  have key : ∀ m : Main, s.main.before → (∀ r, m ≠ .ended r) → Server { s with main := m } := fun m hb hm =>
    ⟨h1, fun a _ => h2 a hb, h3, h4, h5, h6, by rintro ⟨r, hr⟩; exact absurd hr (hm r)⟩
  unfold clientStep
  split
  · rename_i em
    have hb : s.main.before := by simp [em, Main.before]
    split
    · exact key _ hb (by simp)
    · split <;> exact key _ hb (by simp)
  · rename_i em
    have hb : s.main.before := by simp [em, Main.before]
    split
    · split
      · exact key _ hb (by simp)
      · exact hh
    · exact hh
  · exact hh

theorem server_serve {s : St} (h : Server s) : Server (serveStep s) := by
  have hh := h
  obtain ⟨h1, h2, h3, h4, h5, h6, h7⟩ := h
  unfold serveStep
  split
  · rename_i em
    split
    · exact ⟨h1, fun a _ => h2 a (by simp [em, Main.before]), h3, h4, h5, h6, by simp [Over]⟩
    · exact hh
  · exact hh

theorem server_step (addr : Str) {s : St} (h : Server s) (op : Op) : Server (step addr s op) := by
  cases op with
  | main => exact server_main addr h
  | starter => exact server_start h
  | run t => exact server_run h t
  | client => exact server_client h
  | serve => exact server_serve h

theorem server_runs (addr : Str) {s : St} (h : Server s) (ops : List Op) : Server (runs addr s ops) := by
  induction ops generalizing s with
  | nil => exact h
  | cons op ops ih => exact ih (server_step addr h op)

/-! ## The results -/

/-- What has happened to the rules. -/
def Progress (addr : Str) (v : Nat) (rules : List Rule) (s : St) : Prop :=
  s.version = v ∧
  match s.main with
  | .loop todo => ∃ ready, rules = ready ++ todo ∧ s.results = messages ready ∧ (∀ r ∈ ready, Understood r) ∧ s.cmds = ready.map (fun r => command v addr r.text)
  | .busy r todo c => ∃ ready, rules = ready ++ r :: todo ∧ (∀ r ∈ ready, Understood r) ∧ s.cmds = (ready ++ [r]).map (fun r => command v addr r.text) ∧
      match c with
      | .connecting => s.results = messages ready
      | .queued => s.results = messages ready ∧ Understood r
      | .accepted toServer toClient => ∃ ms x handled, r.mods = some (ms, x) ∧ script v ms x = handled ++ toServer ∧
          s.results = messages ready ++ flowMods handled ∧ toClient = barrierReplies handled
  | .stop none | .join none => s.results = messages rules ∧ (∀ r ∈ rules, Understood r) ∧ s.cmds = rules.map (fun r => command v addr r.text)
  | .stop (some e) | .join (some e) | .ended (.error e) => e = .other ∧ ∃ ready r todo, rules = ready ++ r :: todo ∧ (∀ r ∈ ready, Understood r) ∧
      s.cmds = (ready ++ [r]).map (fun r => command v addr r.text)
  | .ended (.ok rs) => rs = messages rules ∧ (∀ r ∈ rules, Understood r) ∧ s.cmds = rules.map (fun r => command v addr r.text)

theorem flowMods_append (a b : List Bytes) : flowMods (a ++ b) = flowMods a ++ flowMods b := by simp [flowMods]

theorem barrierReplies_append (a b : List Bytes) : barrierReplies (a ++ b) = barrierReplies a ++ barrierReplies b := by simp [barrierReplies]

theorem flowMods_all {ms : List Bytes} (h : ∀ m ∈ ms, u8 m 1 = 14) : flowMods ms = ms := by
  simpa [flowMods] using h

theorem hello_type (v : Nat) : u8 (helloMsg v) 1 = 0 ∧ 8 ≤ (helloMsg v).length := by simp [helloMsg, u8]

theorem barrier_type (v x : Nat) : (u8 (barrierReq v x) 1 = 18 ∨ u8 (barrierReq v x) 1 = 20) ∧ (barrierReq v x).length = 8 := by
  constructor
  · unfold barrierReq; split <;> simp [u8]
  · simp [barrierReq, encBE]

theorem script_long {v : Nat} {ms : List Bytes} {x : Nat} (h : ∀ m ∈ ms, 8 ≤ m.length) : ∀ m ∈ script v ms x, 8 ≤ m.length := by
  intro m hm
  simp only [script, List.mem_cons, List.mem_append, List.not_mem_nil, or_false] at hm
  rcases hm with rfl | hm | rfl
  · exact (hello_type v).2
  · exact h m hm
  · exact Nat.le_of_eq (barrier_type v x).2.symm

theorem script_mods {v : Nat} {ms : List Bytes} {x : Nat} (h : ∀ m ∈ ms, u8 m 1 = 14) : flowMods (script v ms x) = ms := by
  have e : script v ms x = [helloMsg v] ++ (ms ++ [barrierReq v x]) := rfl
  rw [e, flowMods_append, flowMods_append, flowMods_all h]
  have h1 : flowMods [helloMsg v] = [] := by simp [flowMods, (hello_type v).1]
  have h2 : flowMods [barrierReq v x] = [] := by rcases (barrier_type v x).1 with e | e <;> simp [flowMods, e]
  simp [h1, h2]

/-- A barrier reply is due only when everything has been handled. -/
theorem script_reply {v : Nat} {ms handled rest : List Bytes} {x : Nat} (h : ∀ m ∈ ms, u8 m 1 = 14) (e : script v ms x = handled ++ rest)
    (hb : barrierReplies handled ≠ []) : rest = [] := by
  by_contra hr
  obtain ⟨rest', b, rfl⟩ : ∃ l b, rest = l ++ [b] := ⟨rest.dropLast, rest.getLast hr, (List.dropLast_concat_getLast hr).symm⟩
  have e' : helloMsg v :: ms = handled ++ rest' := by
    have : (helloMsg v :: ms) ++ [barrierReq v x] = (handled ++ rest') ++ [b] := by simpa [script] using e
    exact (List.append_inj' this rfl).1
  apply hb
  have : ∀ m ∈ handled, u8 m 1 = 0 ∨ u8 m 1 = 14 := by
    intro m hm
    have : m ∈ helloMsg v :: ms := by rw [e']; simp [hm]
    rcases List.mem_cons.1 this with rfl | hm
    · exact .inl (hello_type v).1
    · exact .inr (h m hm)
  simp only [barrierReplies, List.map_eq_nil_iff, List.filter_eq_nil_iff, decide_eq_true_eq]
  intro m hm
  rcases this m hm with e | e <;> simp [e]

theorem progress_step (addr : Str) {v : Nat} {rules : List Rule} (hs : ∀ r ∈ rules, Sane r) {s : St} (h : Progress addr v rules s) (op : Op) :
    Progress addr v rules (step addr s op) := by
  have hh := h
  obtain ⟨hv, hm⟩ := h
  cases op with
  | main =>
    simp only [step, mainStep]
    split
    · rename_i em
      rw [em] at hm
      obtain ⟨ready, h1, h2, h3, h4⟩ := hm
      simp only [List.append_nil] at h1; subst h1
      exact ⟨hv, h2, h3, h4⟩
    · rename_i r todo em
      rw [em] at hm
      obtain ⟨ready, h1, h2, h3, h4⟩ := hm
      exact ⟨hv, ready, h1, h3, by simp [h4, hv], h2⟩
    · exact hh
    · rename_i e em
      rw [em] at hm
      cases e <;> exact ⟨hv, hm⟩
    · rename_i e em
      split
      · rw [em] at hm
        cases e with
        | none => exact ⟨hv, hm⟩
        | some e => exact ⟨hv, hm⟩
      · exact hh
    · exact hh
  | starter =>
    simp only [step, startStep]
    split <;> exact ⟨hv, hm⟩
  | run t =>
    simp only [step, runStep]
    split
    · exact hh
    · split <;> exact ⟨hv, hm⟩
    · split
      · exact ⟨hv, hm⟩
      · split
        · rename_i r todo em
          split
          · rename_i mods x er
            rw [em] at hm
            obtain ⟨ready, h1, h2, h3, h4⟩ := hm
            exact ⟨hv, ready, h1, h2, h3, mods, x, [], er, by simp [hv], by simp [h4.1, flowMods], rfl⟩
          · exact hh
        · exact hh
    · exact hh
  | client =>
    simp only [step, clientStep]
    split
    · rename_i r todo em
      rw [em] at hm
      obtain ⟨ready, h1, h2, h3, h4⟩ := hm
      split
      · exact ⟨hv, rfl, ready, r, todo, h1, h2, h3⟩
      · rename_i p er
        split
        · exact ⟨hv, ready, h1, h2, h3, h4, by simp [Understood, er]⟩
        · exact ⟨hv, rfl, ready, r, todo, h1, h2, h3⟩
    · rename_i r todo ts tc em
      rw [em] at hm
      obtain ⟨ready, h1, h2, h3, ms, x, handled, h4, h5, h6, h7⟩ := hm
      split
      · rename_i ms' x' er
        rw [h4] at er
        simp only [Option.some.injEq, Prod.mk.injEq] at er
        obtain ⟨rfl, rfl⟩ := er
        split
        · rename_i hb
          have hsr := hs r (by rw [h1]; simp) ms x h4
          have hts : ts = [] := script_reply (fun m hm => (hsr.2 m hm).2) h5 (by rw [← h7]; exact List.ne_nil_of_mem hb)
          subst hts
          simp only [List.append_nil] at h5
          refine ⟨hv, ready ++ [r], by simp [h1], ?_, ?_, h3⟩
          · rw [h6, ← h5, script_mods (fun m hm => (hsr.2 m hm).2), messages_append]
            simp [messages, h4]
          · intro r' hr'
            rcases List.mem_append.1 hr' with hr' | hr'
            · exact h2 r' hr'
            · simp only [List.mem_singleton] at hr'; subst hr'; simp [Understood, h4]
        · exact hh
      · exact hh
    · exact hh
  | serve =>
    simp only [step, serveStep]
    split
    · rename_i r todo m ts tc em
      rw [em] at hm
      obtain ⟨ready, h1, h2, h3, ms, x, handled, h4, h5, h6, h7⟩ := hm
      have hsr := hs r (by rw [h1]; simp) ms x h4
      have hl : 8 ≤ m.length := script_long (v := v) (x := x) (fun m hm => (hsr.2 m hm).1) m (by rw [h5]; simp)
      rw [ruleHandle_eq _ m hl]
      refine ⟨hv, ready, h1, h2, h3, ms, x, handled ++ [m], h4, by simp [h5], ?_, ?_⟩
      · simp [h6, flowMods_append]
      · simp [h7, barrierReplies_append]
    · exact hh

theorem progress_init (addr : Str) (v : Nat) (rules : List Rule) : Progress addr v rules (init v rules) :=
  ⟨rfl, [], rfl, rfl, by simp, rfl⟩

theorem progress_runs (addr : Str) {v : Nat} {rules : List Rule} (hs : ∀ r ∈ rules, Sane r) {s : St} (h : Progress addr v rules s) (ops : List Op) :
    Progress addr v rules (runs addr s ops) := by
  induction ops generalizing s with
  | nil => exact h
  | cons op ops ih => exact ih (progress_step addr hs h op)

end Twink.Rule2
