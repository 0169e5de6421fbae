import Verif.Model.Bound

/-! # Property C96: the socket of a server is of the right kind and bound to the address asked for -/

namespace Twink.Bound
open Twink

variable {α β : Type}

/-! ## Specification -/

/-- `e` is the first entry of `l` with property `P`. -/
def First {γ : Type} (P : γ → Prop) (l : List γ) (e : γ) : Prop :=
  ∃ a b, l = a ++ e :: b ∧ P e ∧ ∀ x ∈ a, ¬ P x

/-- The operating system lets a socket of this family and type be bound to this address, address reuse being switched on before. -/
def Allows (os : Os α β) (family socktype : Nat) (addr : β) : Prop :=
  os.socket family socktype = none ∧ os.setsockopt ⟨family, socktype, false, none⟩ = none ∧
    os.bind ⟨family, socktype, true, none⟩ addr = none

theorem first_filter {γ : Type} (p : γ → Bool) (l : List γ) (e : γ) (t : List γ) (h : l.filter p = e :: t) :
    First (fun x => p x = true) l e := by
  induction l with
  | nil => cases h
  | cons x l ih =>
    by_cases hx : p x = true
    · rw [List.filter_cons, if_pos hx] at h
      cases h
      exact ⟨[], l, rfl, hx, by simp⟩
    · rw [List.filter_cons, if_neg hx] at h
      obtain ⟨a, b, e1, e2, e3⟩ := ih h
      refine ⟨x :: a, b, by rw [e1]; rfl, e2, ?_⟩
      intro y hy
      rcases List.mem_cons.mp hy with rfl | hy
      · exact hx
      · exact e3 y hy

theorem filter_first {γ : Type} (p : γ → Bool) (l : List γ) (e : γ) (h : First (fun x => p x = true) l e) :
    ∃ t, l.filter p = e :: t := by
  obtain ⟨a, b, rfl, h2, h3⟩ := h
  refine ⟨b.filter p, ?_⟩
  have : a.filter p = [] := List.filter_eq_nil_iff.mpr h3
  rw [List.filter_append, this, List.filter_cons, if_pos h2]; rfl

theorem make_ok (os : Os α β) (f t : Nat) (a : β) (s : Sock β) :
    make os f t a = .ok s ↔ Allows os f t a ∧ s = ⟨f, t, true, some a⟩ := by
  unfold make Allows
  cases h1 : os.socket f t <;> cases h2 : os.setsockopt ⟨f, t, false, none⟩ <;> cases h3 : os.bind ⟨f, t, true, none⟩ a <;>
    simp [eq_comm]

/-- **C96, what is returned.** For a name: a socket is returned iff the first address that is of the wanted type or of no particular type
can be bound; the socket then has the family and type of that entry, is bound to its address, and may reuse addresses.
For a path: a Unix socket of the wanted type bound to the path.  A socket is returned as it is.  Nothing else is accepted. -/
theorem C96_result (os : Os α β) (info : Info α β) (t : Nat) (s : Sock β) :
    boundSocket os info t = .ok s ↔
      info = .sock s ∨
      (∃ a l e, info = .args a ∧ os.lookup a = .ok l ∧ First (fun x => x.socktype = t ∨ x.socktype = 0) l e ∧
        Allows os e.family e.socktype e.sockaddr ∧ s = ⟨e.family, e.socktype, true, some e.sockaddr⟩) ∨
      (∃ p, info = .path p ∧ Allows os 1 t p ∧ s = ⟨1, t, true, some p⟩) := by
  have conv : ∀ l e, First (fun x : Entry β => x.socktype = t ∨ x.socktype = 0) l e ↔
      First (fun x : Entry β => (decide (x.socktype = t) || decide (x.socktype = 0)) = true) l e := by
    intro l e; simp [First]
  cases info with
  | sock s' =>
    constructor
    · intro h; cases h; exact .inl rfl
    · rintro (h | ⟨a, l, e, h, _⟩ | ⟨p, h, _⟩)
      · cases h; rfl
      · cases h
      · cases h
  | other =>
    constructor
    · intro h; cases h
    · rintro (h | ⟨a, l, e, h, _⟩ | ⟨p, h, _⟩) <;> cases h
  | path p =>
    constructor
    · intro h; obtain ⟨h1, h2⟩ := (make_ok os _ _ _ _).mp h; exact .inr (.inr ⟨p, rfl, h1, h2⟩)
    · rintro (h | ⟨a, l, e, h, _⟩ | ⟨p, h, h1, h2⟩)
      · cases h
      · cases h
      · cases h; exact (make_ok os _ _ _ _).mpr ⟨h1, h2⟩
  | args a =>
    constructor
    · intro h
      simp only [boundSocket] at h
      cases hl : os.lookup a with
      | error e => rw [hl] at h; cases h
      | ok l =>
        rw [hl] at h; simp only at h
        split at h
        · cases h
        · rename_i o r hf
          obtain ⟨h1, h2⟩ := (make_ok os _ _ _ _).mp h
          exact .inr (.inl ⟨a, l, o, rfl, hl, (conv _ _).mpr (first_filter _ _ _ _ hf), h1, h2⟩)
    · rintro (h | ⟨a', l, e, h, hl, hf, h1, h2⟩ | ⟨p, h, _⟩)
      · cases h
      · cases h
        obtain ⟨r, hr⟩ := filter_first _ _ _ ((conv _ _).mp hf)
        simp only [boundSocket, hl, hr]
        exact (make_ok os _ _ _ _).mpr ⟨h1, h2⟩
      · cases h

/-- **C96, errors of its own.** If the operating system raises nothing, the call fails only for names without an address of the wanted
or of no particular type (IndexError), and for values that are no socket, tuple, list or string (ValueError). -/
theorem C96_errors (os : Os α β) (h1 : ∀ f t, os.socket f t = none) (h2 : ∀ s, os.setsockopt s = none) (h3 : ∀ s a, os.bind s a = none)
    (h4 : ∀ a, ∃ l, os.lookup a = .ok l) (info : Info α β) (t : Nat) (e : Err) :
    boundSocket os info t = .error e ↔
      (info = .other ∧ e = .valueError) ∨
      (∃ a l, info = .args a ∧ os.lookup a = .ok l ∧ e = .indexError ∧ ∀ x ∈ l, x.socktype ≠ t ∧ x.socktype ≠ 0) := by
  have hm : ∀ f t a, make os f t a = .ok ⟨f, t, true, some a⟩ := fun f t a => (make_ok os f t a _).mpr ⟨⟨h1 _ _, h2 _, h3 _ _⟩, rfl⟩
  cases info with
  | sock s => simp [boundSocket]
  | other => simp [boundSocket, eq_comm]
  | path p => simp [boundSocket, hm]
  | args a =>
    obtain ⟨l, hl⟩ := h4 a
    simp only [boundSocket, hl]
    cases hf : l.filter (fun o => o.socktype = t || o.socktype = 0) with
    | nil =>
      have := List.filter_eq_nil_iff.mp hf
      constructor
      · intro h; cases h
        refine .inr ⟨a, l, rfl, hl, rfl, fun x hx => ?_⟩
        have := this x hx
        simpa using this
      · rintro (⟨h, _⟩ | ⟨a', l', h, _, h', _⟩)
        · cases h
        · rw [h']
    | cons o r =>
      simp only [hm]
      constructor
      · intro h; cases h
      · rintro (⟨h, _⟩ | ⟨a', l', h, hl', h', hx⟩)
        · cases h
        · cases h
          rw [hl] at hl'; cases hl'
          have ho : o ∈ l.filter (fun o => o.socktype = t || o.socktype = 0) := by rw [hf]; exact List.mem_cons_self
          have := List.mem_filter.mp ho
          have hx := hx o this.1
          simp [hx.1, hx.2] at this

/-- **C96, provable part of the type.** If the names found all have a type, the socket of a server that was not given a socket is of the
server's type and bound. (Missing: names of type 0, and sockets that are given: `C96_type_refuted`, `C96_given_refuted`.) -/
theorem C96_type_partial (os : Os α β) (info : Info α β) (t : Nat) (s : Sock β) (hs : ∀ s', info ≠ .sock s')
    (hz : ∀ a l, os.lookup a = .ok l → ∀ e ∈ l, e.socktype ≠ 0) (h : boundSocket os info t = .ok s) :
    s.socktype = t ∧ s.reuse = true ∧ s.bound ≠ none := by
  rcases (C96_result os info t s).mp h with h | ⟨a, l, e, _, hl, ⟨x, y, hxy, hp, _⟩, _, rfl⟩ | ⟨p, _, _, rfl⟩
  · exact absurd h (hs s)
  · refine ⟨?_, rfl, by simp⟩
    rcases hp with hp | hp
    · exact hp
    · exact absurd hp (hz a l hl e (by rw [hxy]; simp))
  · exact ⟨rfl, rfl, by simp⟩

/-- **C96, the two kinds.** `StreamServer` asks for type 1 (`SOCK_STREAM`), `DgramServer` for type 2 (`SOCK_DGRAM`). -/
theorem C96_kinds (os : Os α β) (p : β) (h : ∀ f t, Allows os f t p) :
    streamSocket os (.path p) = .ok ⟨1, 1, true, some p⟩ ∧ dgramSocket os (.path p) = .ok ⟨1, 2, true, some p⟩ :=
  ⟨(make_ok os _ _ _ _).mpr ⟨h _ _, rfl⟩, (make_ok os _ _ _ _).mpr ⟨h _ _, rfl⟩⟩

/-- A name with several addresses. -/
def exOs (l : List (Entry Nat)) (free : Nat → Bool) : Os Nat Nat where
  lookup _ := .ok l
  socket _ _ := none
  setsockopt _ := none
  bind _ a := if free a then none else some .other

/-- **C96 is false of the code**: an entry of no particular type makes it ask for a socket of type 0, not of the server's. -/
theorem C96_type_refuted : ∃ (os : Os Nat Nat) (s : Sock Nat), boundSocket os (.args 0) 1 = .ok s ∧ s.socktype ≠ 1 :=
  ⟨exOs [⟨2, 0, 5⟩] (fun _ => true), _, rfl, by decide⟩

/-- **C96 is false of the code**: a socket that is given is neither checked for its type nor for being bound. -/
theorem C96_given_refuted (os : Os Nat Nat) : ∃ s : Sock Nat, boundSocket os (.sock s) 1 = .ok s ∧ s.socktype ≠ 1 ∧ s.bound = none :=
  ⟨⟨2, 2, false, none⟩, rfl, by decide, rfl⟩

/-- **C96 is false of the code**: only the first address of the type is tried, though another one could be bound. -/
theorem C96_only_first_refuted : ∃ os : Os Nat Nat, boundSocket os (.args 0) 1 = .error .other ∧
    ∃ l e, os.lookup 0 = .ok l ∧ e ∈ l ∧ e.socktype = 1 ∧ Allows os e.family e.socktype e.sockaddr :=
  ⟨exOs [⟨10, 1, 5⟩, ⟨2, 1, 6⟩] (fun a => a = 6), rfl, _, ⟨2, 1, 6⟩, rfl, by decide, rfl, rfl, rfl, rfl⟩

/-- Non-vacuity: a name with an entry of another type before that of the wanted type. -/
example : boundSocket (exOs [⟨2, 2, 5⟩, ⟨2, 1, 6⟩] (fun _ => true)) (.args 0) 1 = .ok ⟨2, 1, true, some 6⟩ ∧
    boundSocket (exOs [⟨2, 2, 5⟩] (fun _ => true)) (.args 0) 1 = .error .indexError := ⟨rfl, rfl⟩

end Twink.Bound
