import Verif.Spec.Rate

/-! # Property C35: rate limited tasks -/

namespace Twink
open Spec

/-- The task that has been taken from the queue and has no thread yet. -/
def inHand : Option LFrame → List Nat
  | some f =>
    match f.pc with
    | .bindF t | .bindA t | .bindK t | .append t | .spawn t => [t]
    | _ => []
  | none => []

/-- The call of `loop` has not taken a task yet. -/
def freshLoop : Option LFrame → Nat
  | some f =>
    match f.pc with
    | .outer | .inner | .pop => 1
    | _ => 0
  | none => 0

structure RInv (s : Rate) : Prop where
  order : s.popped ++ s.cold = List.range s.submitted
  hand : s.proxies.map (·.owner) ++ inHand s.frames.getLast? = s.popped
  count : s.cold.length ≤ s.pending + s.waiting + freshLoop s.frames.getLast?

theorem rlast {l : List LFrame} {f : LFrame} (h : l[l.length - 1]? = some f) : ∃ i, l = i ++ [f] := by
  rw [← List.getLast?_eq_getElem?] at h
  exact ⟨l.dropLast, by
    have hne : l ≠ [] := by rintro rfl; simp at h
    rw [List.getLast?_eq_some_getLast hne] at h
    injection h with h
    rw [← h]; exact (List.dropLast_concat_getLast hne).symm⟩

theorem rset {i : List LFrame} {f g : LFrame} : (i ++ [f]).set ((i ++ [f]).length - 1) g = i ++ [g] := by
  simp [List.set_append]

theorem rinv_step {s : Rate} (h : RInv s) (op : ROp) : RInv (rstep s op) := by
  obtain ⟨h1, h2, h3⟩ := h
  cases op with
  | submit =>
    refine ⟨?_, h2, ?_⟩
    · simp only [rstep, ← List.append_assoc, h1, List.range_succ]
    · simp only [rstep, List.length_append, List.length_singleton]; omega
  | spawnLoop =>
    simp only [rstep]
    split
    · exact ⟨h1, h2, by simp only; omega⟩
    · exact ⟨h1, h2, h3⟩
  | acquire =>
    simp only [rstep]
    split
    · rename_i hc
      have he : inHand s.frames.getLast? = [] ∧ freshLoop s.frames.getLast? = 0 := by
        cases hl : s.frames.getLast? with
        | none => exact ⟨rfl, rfl⟩
        | some f =>
          have : f.pc = .ended := by
            have := List.all_eq_true.1 hc.2 f (List.mem_of_getLast? hl)
            simpa using this
          simp [inHand, freshLoop, this]
      rw [he.1] at h2
      rw [he.2] at h3
      refine ⟨h1, ?_, ?_⟩
      · simpa [inHand] using h2
      · simp only [List.getLast?_append, List.getLast?_singleton, Option.some_or, freshLoop]; omega
    · exact ⟨h1, h2, h3⟩
  | loop pick =>
    simp only [rstep]
    split
    · rename_i f hf
      obtain ⟨i, hi⟩ := rlast hf
      have hset : ∀ g, s.frames.set (s.frames.length - 1) g = i ++ [g] := by
        intro g; rw [hi]; exact rset
      have hlast : s.frames.getLast? = some f := by rw [hi]; simp
      rw [hlast] at h2 h3
      unfold loopStep
      cases hpc : f.pc with
      | outer =>
        simp only [hpc, inHand, freshLoop] at h2 h3 ⊢
        split
        · rename_i hcold
          refine ⟨h1, ?_, ?_⟩
          · simpa [hset, inHand] using h2
          · simp [hcold]
        · refine ⟨h1, ?_, ?_⟩
          · simpa [hset, inHand] using h2
          · simpa [hset, freshLoop] using h3
      | inner =>
        simp only [hpc, inHand, freshLoop] at h2 h3 ⊢
        split
        · refine ⟨h1, ?_, ?_⟩
          · simpa [hset, inHand] using h2
          · simpa [hset, freshLoop] using h3
        · refine ⟨h1, ?_, ?_⟩
          · simpa [hset, inHand] using h2
          · simpa [hset, freshLoop] using h3
      | pop =>
        simp only [hpc, inHand, freshLoop] at h2 h3 ⊢
        cases hcold : s.cold with
        | nil =>
          refine ⟨by simpa [hcold] using h1, ?_, ?_⟩
          · simpa [hset, inHand] using h2
          · simp
        | cons t ts =>
          rw [hcold] at h1 h3
          refine ⟨by simpa using h1, ?_, ?_⟩
          · simp only [List.append_nil] at h2
            simp [hset, inHand, h2]
          · simp only [List.length_cons] at h3
            simp [hset, freshLoop]; omega
      | spawn t =>
        simp only [hpc, inHand, freshLoop] at h2 h3 ⊢
        refine ⟨h1, ?_, ?_⟩
        · simpa [hset, inHand] using h2
        · simpa [hset, freshLoop] using h3
      | check =>
        simp only [hpc, inHand, freshLoop] at h2 h3 ⊢
        split
        · refine ⟨h1, ?_, ?_⟩
          · simpa [hset, inHand] using h2
          · simpa [hset, freshLoop] using h3
        · refine ⟨h1, ?_, ?_⟩
          · simpa [hset, inHand] using h2
          · simpa [hset, freshLoop] using h3
      | join =>
        simp only [hpc, inHand, freshLoop] at h2 h3 ⊢
        refine ⟨h1, ?_, ?_⟩
        · simpa [hset, inHand] using h2
        · simp [hset, freshLoop]; omega
      | ended =>
        refine ⟨h1, ?_, ?_⟩
        · simpa [hlast] using h2
        · simpa [hlast] using h3
      | _ t =>
        simp only [hpc, inHand, freshLoop] at h2 h3 ⊢
        refine ⟨h1, ?_, ?_⟩
        · simpa [hset, inHand] using h2
        · simpa [hset, freshLoop] using h3
    · exact ⟨h1, h2, h3⟩
  | proxy j raises =>
    simp only [rstep]
    split
    · rename_i p hp
      have hown : ∀ q : RProxy, q.owner = p.owner → (s.proxies.set j q).map (·.owner) = s.proxies.map (·.owner) := by
        intro q hq
        apply List.ext_getElem?
        intro n
        simp only [List.getElem?_map, List.getElem?_set]
        by_cases hn : j = n
        · subst hn
          rw [if_pos rfl, hp]
          split
          · simp [hq]
          · rename_i hl
            have := (List.getElem?_eq_some_iff.1 hp).1
            exact absurd this hl
        · simp [hn]
      unfold proxyStep
      split
      · exact ⟨h1, h2, h3⟩
      · rename_i f hf
        cases hpc : p.pc with
        | removing =>
          simp only
          cases ht : f.task with
          | none =>
            simp only
            exact ⟨h1, by simp only [hown { p with pc := .done } rfl]; exact h2, h3⟩
          | some t =>
            simp only
            have hl : ∀ (F : Option LFrame → List Nat) (G : Option LFrame → Nat), F = inHand → G = freshLoop →
                F (s.frames.set p.frame { f with hot := f.hot.erase t }).getLast? = F s.frames.getLast? ∧
                G (s.frames.set p.frame { f with hot := f.hot.erase t }).getLast? = G s.frames.getLast? := by
              rintro _ _ rfl rfl
              have hlt := (List.getElem?_eq_some_iff.1 hf).1
              rw [List.getLast?_eq_getElem?, List.getLast?_eq_getElem?, List.length_set, List.getElem?_set]
              by_cases he : p.frame = s.frames.length - 1
              · rw [if_pos he, ← he, hf]
                simp [hlt, inHand, freshLoop]
              · rw [if_neg he]; exact ⟨rfl, rfl⟩
            obtain ⟨e1, e2⟩ := hl _ _ rfl rfl
            refine ⟨h1, ?_, ?_⟩
            · have := hown { p with pc := .done } rfl
              simp only [this]; rw [← ht, e1]; exact h2
            · simp only; rw [← ht, e2]; exact h3
        | done => exact ⟨h1, h2, h3⟩
        | _ => exact ⟨h1, by simp only; rw [hown _ (by rfl)]; exact h2, h3⟩
    · exact ⟨h1, h2, h3⟩

theorem rinv_run {s : Rate} (h : RInv s) (ops : List ROp) : RInv (rrun s ops) := by
  induction ops generalizing s with
  | nil => exact h
  | cons op ops ih => exact ih (rinv_step h op)

theorem rinv_fresh (size : Nat) : RInv (freshRate size) := ⟨rfl, rfl, by simp [freshRate]⟩

/-- **C35, provable part for all schedules**: tasks are taken up in the order of submission, one thread is started for each, and
once no thread of the rate limiter is left, a thread has been started for every submitted task. (Partial: the thread may call the
wrong task, `C35_refuted_once`; the limit is not kept, `C35_refuted_limit`.) -/
theorem C35_started_partial (size : Nat) (ops : List ROp) :
    let s := rrun (freshRate size) ops
    (∃ rest, s.proxies.map (·.owner) ++ rest = List.range s.submitted) ∧
    (NoLoops s → s.proxies.map (·.owner) = List.range s.submitted) := by
  intro s
  obtain ⟨h1, h2, h3⟩ := rinv_run (rinv_fresh size) ops
  refine ⟨⟨_, by rw [← h1, ← h2, List.append_assoc]⟩, fun hn => ?_⟩
  obtain ⟨n1, n2, n3⟩ := hn
  have he : inHand s.frames.getLast? = [] ∧ freshLoop s.frames.getLast? = 0 := by
    cases hl : s.frames.getLast? with
    | none => exact ⟨rfl, rfl⟩
    | some f => simp [inHand, freshLoop, n3 f (List.mem_of_getLast? hl)]
  have hc : s.cold = [] := by
    have : s.cold.length ≤ 0 := by
      have := h3
      change s.cold.length ≤ s.pending + s.waiting + freshLoop s.frames.getLast? at this
      omega
    exact List.length_eq_zero_iff.1 (by omega)
  have h1' : s.popped ++ s.cold = List.range s.submitted := h1
  have h2' : s.proxies.map (·.owner) ++ inHand s.frames.getLast? = s.popped := h2
  rw [hc] at h1'
  rw [he.1] at h2'
  simp only [List.append_nil] at h1' h2'
  rw [h2', h1']

/-! ### Prompt schedules -/

/-- What a thread has read so far belongs to its task. -/
def readOk (p : RProxy) : Prop :=
  match p.pc with
  | .gotF x => x = some p.owner
  | .gotA x y => x = some p.owner ∧ y = some p.owner
  | _ => True

def cellsOk (f : LFrame) (t : Nat) : Prop := f.func = some t ∧ f.args = some t ∧ f.kwargs = some t

/-- What has been bound so far. -/
def boundOk (f : LFrame) : Prop :=
  match f.pc with
  | .bindA t => f.func = some t
  | .bindK t => f.func = some t ∧ f.args = some t
  | .append t | .spawn t => cellsOk f t
  | _ => True

def binding (f : LFrame) : Bool :=
  match f.pc with
  | .bindA _ | .bindK _ | .append _ | .spawn _ => true
  | _ => false

structure PInv (s : Rate) : Prop where
  run : ∀ p ∈ s.proxies, unstarted p = false → p.called = some (callOf p.owner)
  wait : ∀ p ∈ s.proxies, unstarted p = true →
    p.called = none ∧ readOk p ∧ ∃ f, s.frames[p.frame]? = some f ∧ cellsOk f p.owner
  bound : ∀ f, s.frames.getLast? = some f → boundOk f ∧
    (binding f = true → ∀ p ∈ s.proxies, p.frame = s.frames.length - 1 → unstarted p = false)
  lt : ∀ p ∈ s.proxies, p.frame < s.frames.length

theorem pinv_fresh (size : Nat) : PInv (freshRate size) := by
  constructor <;> simp [freshRate]

/-- A loop step that only changes the active call of `loop` and leaves the closure variables of waiting threads alone. -/
theorem pinv_frame {s s' : Rate} (h : PInv s) {i : List LFrame} {f g : LFrame} (hf : s.frames = i ++ [f])
    (hg : s'.frames = i ++ [g]) (hp : s'.proxies = s.proxies)
    (hc : (g.func = f.func ∧ g.args = f.args ∧ g.kwargs = f.kwargs) ∨
      ∀ p ∈ s.proxies, p.frame = s.frames.length - 1 → unstarted p = false)
    (hb : boundOk g) (hcl : binding g = true → ∀ p ∈ s.proxies, p.frame = s.frames.length - 1 → unstarted p = false) :
    PInv s' := by
  obtain ⟨h1, h2, _, h4⟩ := h
  have hlen : s'.frames.length = s.frames.length := by rw [hf, hg]; simp
  refine ⟨by rw [hp]; exact h1, ?_, ?_, ?_⟩
  · rw [hp]
    intro p hpm hu
    obtain ⟨a, b, f', hf', c⟩ := h2 p hpm hu
    refine ⟨a, b, ?_⟩
    by_cases he : p.frame = i.length
    · have e1 : s.frames[p.frame]? = some f := by rw [hf, he]; simp
      have e2 : s'.frames[p.frame]? = some g := by rw [hg, he]; simp
      rw [e1] at hf'; injection hf' with hf'; subst hf'
      refine ⟨g, e2, ?_⟩
      rcases hc with ⟨x, y, z⟩ | hc
      · exact ⟨x ▸ c.1, y ▸ c.2.1, z ▸ c.2.2⟩
      · have := hc p hpm (by rw [hf]; simpa using he)
        rw [this] at hu; cases hu
    · refine ⟨f', ?_, c⟩
      have hlt := h4 p hpm
      rw [hf] at hlt
      simp only [List.length_append, List.length_singleton] at hlt
      rw [hf, List.getElem?_append_left (by omega)] at hf'
      rw [hg, List.getElem?_append_left (by omega)]; exact hf'
  · intro x hx
    rw [hg] at hx
    simp only [List.getLast?_append, List.getLast?_singleton, Option.some_or, Option.some.injEq] at hx
    subst hx
    rw [hp, hlen]
    exact ⟨hb, hcl⟩
  · rw [hp, hlen]; exact h4

theorem mem_set_of {α : Type} {l : List α} {j : Nat} {p q x : α} (_ : l[j]? = some p) (h : x ∈ l.set j q) : x = q ∨ x ∈ l := by
  rcases List.mem_or_eq_of_mem_set h with h | h
  · exact .inr h
  · exact .inl h

/-- A step of one proxy thread. -/
theorem pinv_proxy {s s' : Rate} (h : PInv s) {j : Nat} {p q : RProxy} (hj : s.proxies[j]? = some p)
    (hp : s'.proxies = s.proxies.set j q)
    (hfr : s'.frames.length = s.frames.length) (hcell : ∀ (k : Nat) (f : LFrame), s.frames[k]? = some f → ∃ g, s'.frames[k]? = some g ∧ g.pc = f.pc ∧
      g.func = f.func ∧ g.args = f.args ∧ g.kwargs = f.kwargs)
    (hq : q.frame = p.frame) (hu : unstarted p = false → unstarted q = false)
    (hrun : unstarted q = false → q.called = some (callOf q.owner))
    (hwait : unstarted q = true → q.called = none ∧ readOk q ∧ q.owner = p.owner) : PInv s' := by
  obtain ⟨h1, h2, h3, h4⟩ := h
  have hpm : p ∈ s.proxies := List.mem_of_getElem? hj
  refine ⟨?_, ?_, ?_, ?_⟩
  · rw [hp]; intro x hx hux
    rcases mem_set_of hj hx with rfl | hx
    · exact hrun hux
    · exact h1 x hx hux
  · rw [hp]; intro x hx hux
    rcases mem_set_of hj hx with rfl | hx
    · obtain ⟨a, b, c⟩ := hwait hux
      have hup : unstarted p = true := by
        cases hu' : unstarted p with
        | true => rfl
        | false => rw [hu hu'] at hux; cases hux
      obtain ⟨_, _, f, hf, hc⟩ := h2 p hpm hup
      obtain ⟨g, g1, _, g3, g4, g5⟩ := hcell _ _ hf
      exact ⟨a, b, g, by rw [hq]; exact g1, by rw [c]; exact ⟨g3 ▸ hc.1, g4 ▸ hc.2.1, g5 ▸ hc.2.2⟩⟩
    · obtain ⟨a, b, f, hf, hc⟩ := h2 x hx hux
      obtain ⟨g, g1, _, g3, g4, g5⟩ := hcell _ _ hf
      exact ⟨a, b, g, g1, g3 ▸ hc.1, g4 ▸ hc.2.1, g5 ▸ hc.2.2⟩
  · intro g hg
    rw [List.getLast?_eq_getElem?, hfr] at hg
    have hlt : s.frames.length - 1 < s.frames.length := by
      have := (List.getElem?_eq_some_iff.1 hg).1; omega
    obtain ⟨g', g1, g2, g3, g4, g5⟩ := hcell (s.frames.length - 1) _ (List.getElem?_eq_getElem hlt)
    rw [hg] at g1; injection g1 with g1; subst g1
    obtain ⟨b1, b2⟩ := h3 (s.frames[s.frames.length - 1]) (by rw [List.getLast?_eq_getElem?]; exact List.getElem?_eq_getElem hlt)
    constructor
    · unfold boundOk cellsOk at *
      rw [g2, g3, g4, g5]; exact b1
    · intro hbi
      have : binding s.frames[s.frames.length - 1] = true := by
        unfold binding at *; rw [← g2]; exact hbi
      have b2 := b2 this
      rw [hp, hfr]; intro x hx hxf
      rcases mem_set_of hj hx with rfl | hx
      · exact hu (b2 p hpm (by rw [← hq]; exact hxf))
      · exact b2 x hx hxf
  · rw [hp, hfr]; intro x hx
    rcases mem_set_of hj hx with rfl | hx
    · rw [hq]; exact h4 p hpm
    · exact h4 x hx

theorem pinv_step {s : Rate} (h : PInv s) (op : ROp)
    (hprompt : ∀ pick, op = .loop pick → (∃ f t, s.frames[s.frames.length - 1]? = some f ∧ f.pc = .bindF t) →
      ∀ p ∈ s.proxies, p.frame = s.frames.length - 1 → unstarted p = false) : PInv (rstep s op) := by
  cases op with
  | submit => exact ⟨h.1, h.2, h.3, h.4⟩
  | spawnLoop =>
    simp only [rstep]; split
    · exact ⟨h.1, h.2, h.3, h.4⟩
    · exact h
  | acquire =>
    simp only [rstep]; split
    · obtain ⟨h1, h2, h3, h4⟩ := h
      refine ⟨h1, ?_, ?_, ?_⟩
      · intro p hp hu
        obtain ⟨a, b, f, hf, c⟩ := h2 p hp hu
        exact ⟨a, b, f, by simp only; rw [List.getElem?_append_left (h4 p hp)]; exact hf, c⟩
      · intro f hf
        simp only [List.getLast?_append, List.getLast?_singleton, Option.some_or, Option.some.injEq] at hf
        subst hf
        simp [boundOk, binding]
      · intro p hp
        have := h4 p hp
        simp only [List.length_append, List.length_singleton]; omega
    · exact h
  | loop pick =>
    simp only [rstep]
    split
    · rename_i f hf
      obtain ⟨i, hi⟩ := rlast hf
      have hset : ∀ g, s.frames.set (s.frames.length - 1) g = i ++ [g] := by
        intro g; rw [hi]; exact rset
      have hlast : s.frames.getLast? = some f := by rw [hi]; simp
      have hprompt := hprompt pick rfl
      obtain ⟨hb, hcl⟩ := h.3 f hlast
      unfold loopStep
      cases hpc : f.pc with
      | outer =>
        simp only
        split
        · exact pinv_frame h hi (hset _) rfl (.inl ⟨rfl, rfl, rfl⟩) (by simp [boundOk]) (by simp [binding])
        · exact pinv_frame h hi (hset _) rfl (.inl ⟨rfl, rfl, rfl⟩) (by simp [boundOk]) (by simp [binding])
      | inner =>
        simp only
        split
        · exact pinv_frame h hi (hset _) rfl (.inl ⟨rfl, rfl, rfl⟩) (by simp [boundOk]) (by simp [binding])
        · exact pinv_frame h hi (hset _) rfl (.inl ⟨rfl, rfl, rfl⟩) (by simp [boundOk]) (by simp [binding])
      | pop =>
        simp only
        split
        · exact pinv_frame h hi (hset _) rfl (.inl ⟨rfl, rfl, rfl⟩) (by simp [boundOk]) (by simp [binding])
        · exact pinv_frame h hi (hset _) rfl (.inl ⟨rfl, rfl, rfl⟩) (by simp [boundOk]) (by simp [binding])
      | bindF t =>
        have hc := hprompt ⟨f, t, hf, hpc⟩
        exact pinv_frame h hi (hset _) rfl (.inr hc) (by simp [boundOk]) (fun _ => hc)
      | bindA t =>
        have hc := hcl (by simp [binding, hpc])
        simp only [boundOk, hpc] at hb
        exact pinv_frame h hi (hset _) rfl (.inr hc) (by simp [boundOk, hb]) (fun _ => hc)
      | bindK t =>
        have hc := hcl (by simp [binding, hpc])
        simp only [boundOk, hpc] at hb
        exact pinv_frame h hi (hset _) rfl (.inr hc) (by simp [boundOk, cellsOk, hb]) (fun _ => hc)
      | append t =>
        have hc := hcl (by simp [binding, hpc])
        simp only [boundOk, hpc] at hb
        exact pinv_frame h hi (hset _) rfl (.inr hc) (by simpa [boundOk, cellsOk] using hb) (fun _ => hc)
      | spawn t =>
        simp only [boundOk, hpc] at hb
        have hI := pinv_frame (s' := { s with frames := s.frames.set (s.frames.length - 1) { f with pc := .check, children := f.children ++ [t] } })
          h hi (hset _) rfl (.inl ⟨rfl, rfl, rfl⟩) (by simp [boundOk]) (by simp [binding])
        obtain ⟨h1, h2, h3, h4⟩ := hI
        simp only
        have hl : s.frames.length - 1 < s.frames.length := by rw [hi]; simp
        have hmem : ∀ (P : RProxy → Prop), (∀ p ∈ s.proxies, P p) → P ⟨s.frames.length - 1, t, .start, none⟩ →
            ∀ p ∈ s.proxies ++ [⟨s.frames.length - 1, t, .start, none⟩], P p := by
          intro P hP hn p hp
          rcases List.mem_append.1 hp with hp | hp
          · exact hP p hp
          · rw [List.mem_singleton] at hp; rw [hp]; exact hn
        refine ⟨?_, ?_, ?_, ?_⟩
        · exact hmem _ h1 (by simp [unstarted])
        · refine hmem _ h2 ?_
          intro _
          refine ⟨rfl, trivial, { f with pc := .check, children := f.children ++ [t] }, ?_, hb⟩
          simp only [hset]
          rw [hi]; simp
        · intro g hg
          simp only [hset] at hg
          simp only [List.getLast?_append, List.getLast?_singleton, Option.some_or, Option.some.injEq] at hg
          subst hg
          simp [boundOk, binding]
        · refine hmem _ h4 ?_
          simp only [List.length_set]; exact hl
      | check =>
        simp only
        split
        · exact pinv_frame h hi (hset _) rfl (.inl ⟨rfl, rfl, rfl⟩) (by simp [boundOk]) (by simp [binding])
        · exact pinv_frame h hi (hset _) rfl (.inl ⟨rfl, rfl, rfl⟩) (by simp [boundOk]) (by simp [binding])
      | join => exact pinv_frame h hi (hset _) rfl (.inl ⟨rfl, rfl, rfl⟩) (by simp [boundOk]) (by simp [binding])
      | ended => exact h
    · exact h
  | proxy j raises =>
    simp only [rstep]
    split
    · rename_i p hj
      have hpm : p ∈ s.proxies := List.mem_of_getElem? hj
      have hrefl : ∀ (k : Nat) (f : LFrame), s.frames[k]? = some f → ∃ g, s.frames[k]? = some g ∧ g.pc = f.pc ∧
          g.func = f.func ∧ g.args = f.args ∧ g.kwargs = f.kwargs := fun k f hf => ⟨f, hf, rfl, rfl, rfl, rfl⟩
      unfold proxyStep
      split
      · exact h
      · rename_i f hf
        have hcells : unstarted p = true → readOk p ∧ cellsOk f p.owner ∧ p.called = none := by
          intro hu
          obtain ⟨a, b, f', hf', c⟩ := h.2 p hpm hu
          rw [hf] at hf'; injection hf' with hf'; subst hf'
          exact ⟨b, c, a⟩
        have hran := h.1 p hpm
        cases hpc : p.pc with
        | start =>
          have hu : unstarted p = true := by simp [unstarted, hpc]
          obtain ⟨_, c, d⟩ := hcells hu
          exact pinv_proxy h hj rfl rfl hrefl rfl (by rw [hu]; simp) (by simp [unstarted])
            (fun _ => ⟨d, by simpa [readOk] using c.1, rfl⟩)
        | gotF x =>
          have hu : unstarted p = true := by simp [unstarted, hpc]
          obtain ⟨b, c, d⟩ := hcells hu
          simp only [readOk, hpc] at b
          exact pinv_proxy h hj rfl rfl hrefl rfl (by rw [hu]; simp) (by simp [unstarted])
            (fun _ => ⟨d, by simpa [readOk] using ⟨b, c.2.1⟩, rfl⟩)
        | gotA x y =>
          have hu : unstarted p = true := by simp [unstarted, hpc]
          obtain ⟨b, c, d⟩ := hcells hu
          simp only [readOk, hpc] at b
          exact pinv_proxy h hj rfl rfl hrefl rfl (by rw [hu]; simp)
            (fun _ => by simp [callOf, b.1, b.2, c.2.2]) (by simp [unstarted])
        | running =>
          have hu : unstarted p = false := by simp [unstarted, hpc]
          have hu' : unstarted { p with pc := if raises then PPc.done else .removing } = false := by
            cases raises <;> simp [unstarted]
          exact pinv_proxy h hj rfl rfl hrefl rfl (fun _ => hu') (fun _ => hran hu) (by rw [hu']; simp)
        | removing =>
          have hu : unstarted p = false := by simp [unstarted, hpc]
          simp only
          split
          · refine pinv_proxy h hj rfl (by simp) ?_ rfl (fun _ => by simp [unstarted]) (fun _ => hran hu) (by simp [unstarted])
            intro k g hg
            simp only [List.getElem?_set]
            split
            · rename_i e
              subst e
              rw [hf] at hg; injection hg with hg; subst hg
              have := (List.getElem?_eq_some_iff.1 hf).1
              rw [if_pos this]
              exact ⟨_, rfl, rfl, rfl, rfl, rfl⟩
            · exact ⟨g, hg, rfl, rfl, rfl, rfl⟩
          · exact pinv_proxy h hj rfl rfl hrefl rfl (fun _ => by simp [unstarted]) (fun _ => hran hu) (by simp [unstarted])
        | done => exact h
    · exact h

theorem pinv_run {s : Rate} (h : PInv s) {ops : List ROp} (hp : PromptRun s ops) : PInv (rrun s ops) := by
  induction ops generalizing s with
  | nil => exact h
  | cons op ops ih =>
    cases op with
    | loop pick =>
      obtain ⟨h1, h2⟩ := hp
      refine ih (pinv_step h _ ?_) h2
      intro pick' _; exact h1
    | _ => exact ih (pinv_step h _ (by intro pick hc; cases hc)) hp

/-- **C35, provable part for prompt schedules**: if every task thread calls its task before `loop` takes up the next one, then every
call made is the right one and no task is called twice; once all threads of the rate limiter have ended and all task threads
have started, every submitted task has been called exactly once. -/
theorem C35_once_partial (size : Nat) (ops : List ROp) (hp : PromptRun (freshRate size) ops) :
    let s := rrun (freshRate size) ops
    (callsMade s).Sublist ((List.range s.submitted).map callOf) ∧
    (NoLoops s → (∀ p ∈ s.proxies, unstarted p = false) → callsMade s = (List.range s.submitted).map callOf) := by
  intro s
  have hI := pinv_run (pinv_fresh size) hp
  obtain ⟨⟨rest, hr⟩, hn⟩ := C35_started_partial size ops
  have key : ∀ l : List RProxy, (∀ p ∈ l, p ∈ s.proxies) → (l.filterMap (·.called)).Sublist ((l.map (·.owner)).map callOf) := by
    intro l hl
    induction l with
    | nil => simp
    | cons p l ih =>
      have ih := ih (fun p hp => hl p (by simp [hp]))
      cases hu : unstarted p with
      | false =>
        have := hI.1 p (hl p (by simp)) hu
        simp only [List.filterMap_cons, this, List.map_cons]
        exact ih.cons_cons _
      | true =>
        have := (hI.2 p (hl p (by simp)) hu).1
        simp only [List.filterMap_cons, this, List.map_cons]
        exact ih.cons _
  constructor
  · have h1 := key s.proxies (fun _ h => h)
    refine h1.trans ?_
    rw [← hr, List.map_append]
    exact List.sublist_append_left _ _
  · intro hno hst
    rw [← hn hno]
    have : ∀ l : List RProxy, (∀ p ∈ l, p.called = some (callOf p.owner)) → l.filterMap (·.called) = (l.map (·.owner)).map callOf := by
      intro l hl
      induction l with
      | nil => rfl
      | cons p l ih =>
        simp only [List.filterMap_cons, hl p (by simp), List.map_cons, ih (fun q hq => hl q (by simp [hq]))]
    exact this _ (fun p hp => hI.1 p hp (hst p hp))

/-! ### Refutations -/

/-- Submit a task and start its `loop` thread. -/
def submit1 : List ROp := [.submit, .spawnLoop]
/-- The thread in `loop` takes up and starts one task. -/
def takeOne : List ROp := List.replicate 8 (.loop 0)
/-- Task thread `j` gets as far as running its task. -/
def startTask (j : Nat) : List ROp := [.proxy j false, .proxy j false, .proxy j false]

/-- **C35 is false**: with limit 1 two tasks run at the same time (the first one outlives the wait of half a second). -/
theorem C35_refuted_limit : ∃ ops, PromptRun (freshRate 1) ops ∧ runningCount (rrun (freshRate 1) ops) = 2 := by
  refine ⟨submit1 ++ submit1 ++ [.acquire] ++ takeOne ++ startTask 0 ++ [.loop 0, .loop 0, .loop 0] ++ takeOne ++ startTask 1, ?_, ?_⟩
  · simp [submit1, takeOne, startTask, PromptRun, rstep, freshRate, loopStep, proxyStep, firstRuns, taskAfter, unstarted]
  · decide +kernel

/-- **C35 is false**: if the threads of the first two tasks start slowly, the second task is called twice and the first one never,
although all threads of the rate limiter have ended. -/
theorem C35_refuted_once : ∃ ops, NoLoops (rrun (freshRate 2) ops) ∧ (rrun (freshRate 2) ops).submitted = 2 ∧
    (∀ p ∈ (rrun (freshRate 2) ops).proxies, p.pc = .done) ∧ callsMade (rrun (freshRate 2) ops) = [callOf 1, callOf 1] := by
  refine ⟨submit1 ++ submit1 ++ [.acquire] ++ takeOne ++ [.loop 0, .loop 0] ++ List.replicate 9 (.loop 0) ++
    startTask 0 ++ startTask 1 ++ [.proxy 0 false, .proxy 0 false, .proxy 1 false, .proxy 1 false] ++
    List.replicate 3 (.loop 0) ++ [.acquire, .loop 0], ?_, ?_, ?_, ?_⟩
  · unfold NoLoops; decide +kernel
  · decide +kernel
  · decide +kernel
  · decide +kernel

/-- **C35 is false** in another way: if the thread of the first task reads `func` before and `args` and `kwargs` after the second task has been
taken up, it calls the first function with the second arguments. -/
theorem C35_refuted_mixed : ∃ ops, callsMade (rrun (freshRate 2) ops) = [(some 0, some 1, some 1)] := by
  refine ⟨submit1 ++ submit1 ++ [.acquire] ++ takeOne ++ [.proxy 0 false, .loop 0, .loop 0] ++ List.replicate 5 (.loop 0) ++
    [.proxy 0 false, .proxy 0 false], ?_⟩
  decide +kernel

/-- **C35 is false**: with limit 0 no task is ever called, whatever the schedule. -/
theorem C35_refuted_zero (ops : List ROp) : callsMade (rrun (freshRate 0) ops) = [] := by
  suffices h : ∀ s : Rate, s.size = 0 → s.proxies = [] → (∀ f ∈ s.frames, f.pc = .outer ∨ f.pc = .inner ∨ f.pc = .ended) →
      (rrun s ops).proxies = [] by
    simp [callsMade, h (freshRate 0) rfl rfl (by simp [freshRate])]
  induction ops with
  | nil => intro s _ hp _; exact hp
  | cons op ops ih =>
    intro s hs hp hf
    simp only [rrun]
    cases op with
    | submit => exact ih _ hs hp hf
    | spawnLoop => simp only [rstep]; split <;> exact ih _ hs hp hf
    | acquire =>
      simp only [rstep]; split
      · refine ih _ hs hp ?_
        intro f hm
        rcases List.mem_append.1 hm with hm | hm
        · exact hf f hm
        · rw [List.mem_singleton] at hm; subst hm; exact .inl rfl
      · exact ih _ hs hp hf
    | loop pick =>
      simp only [rstep]
      split
      · rename_i f hl
        have hm : ∀ g : LFrame, (g.pc = .outer ∨ g.pc = .inner ∨ g.pc = .ended) →
            ∀ x ∈ s.frames.set (s.frames.length - 1) g, x.pc = .outer ∨ x.pc = .inner ∨ x.pc = .ended := by
          intro g hg x hx
          rcases mem_set_of hl hx with rfl | hx
          · exact hg
          · exact hf x hx
        unfold loopStep
        rcases hf f (List.mem_of_getElem? hl) with e | e | e
        · rw [e]; simp only
          split <;> exact ih _ hs hp (hm _ (by simp))
        · rw [e]; simp only [hs, Nat.not_lt_zero, false_and, if_false]
          exact ih _ rfl hp (hm _ (by simp))
        · rw [e]; exact ih _ hs hp hf
      · exact ih _ hs hp hf
    | proxy j raises =>
      simp only [rstep, hp, List.getElem?_nil]
      exact ih _ hs hp hf

/-- Loops are counted: those not yet spawned, those waiting for the lock, and those that have had it, are as many as the submissions. -/
def LoopCount (s : Rate) : Prop := s.pending + s.waiting + s.frames.length = s.submitted

theorem loopCount_step {s : Rate} (h : LoopCount s) (op : ROp) : LoopCount (rstep s op) := by
  unfold LoopCount at *
  cases op with
  | submit => simp only [rstep]; omega
  | spawnLoop => simp only [rstep]; split <;> (try simp only) <;> omega
  | acquire =>
    simp only [rstep]; split
    · rename_i hc; simp only [List.length_append, List.length_singleton]; omega
    · exact h
  | loop pick =>
    simp only [rstep]; split
    · unfold loopStep
      split <;> (try split) <;> simp_all
    · exact h
  | proxy j raises =>
    simp only [rstep]; split
    · unfold proxyStep
      split
      · exact h
      · split <;> (try split) <;> simp_all
    · exact h

/-- **C35, the loops**: for all schedules, one loop is spawned for each submission, neither more nor fewer. -/
theorem C35_loops (size : Nat) (ops : List ROp) :
    let s := rrun (freshRate size) ops
    s.pending + s.waiting + s.frames.length = s.submitted := by
  suffices h : ∀ s : Rate, LoopCount s → LoopCount (rrun s ops) from h _ rfl
  induction ops with
  | nil => exact fun s h => h
  | cons op ops ih => exact fun s h => ih _ (loopCount_step h op)

/-- Non-vacuity of C35_once_partial: two tasks, each started promptly; the rate limiter comes to rest. -/
example : ∃ ops, PromptRun (freshRate 2) ops ∧ NoLoops (rrun (freshRate 2) ops) ∧
    (∀ p ∈ (rrun (freshRate 2) ops).proxies, unstarted p = false) ∧ (rrun (freshRate 2) ops).submitted = 2 := by
  refine ⟨submit1 ++ submit1 ++ [.acquire] ++ takeOne ++ startTask 0 ++ [.loop 0, .loop 0] ++ List.replicate 9 (.loop 0) ++
    startTask 1 ++ List.replicate 3 (.loop 0) ++ [.acquire, .loop 0], ?_, ?_, ?_, ?_⟩
  · simp [submit1, takeOne, startTask, PromptRun, rstep, freshRate, loopStep, proxyStep, firstRuns, taskAfter, unstarted]
  · unfold NoLoops; decide +kernel
  · decide +kernel
  · decide +kernel

end Twink
