import Verif.PyLemmas
import Verif.Spec.Framing

/-! Helper lemmas about framing. -/

namespace Twink
open Spec

@[simp] theorem carried_nil : carried [] = [] := rfl
@[simp] theorem carried_cons (e : Ev) (es : List Ev) : carried (e :: es) = payload e ++ carried es := rfl
@[simp] theorem carried_append (a b : List Ev) : carried (a ++ b) = carried a ++ carried b := by
  simp [carried]

theorem chanRead_chunk {e : Ev} (h : IsChunk e) : ∃ x b, chanRead e = .ok (some (x :: b)) ∧ payload e = x :: b := by
  obtain ⟨x, b, rfl⟩ := h; exact ⟨x, b, rfl, rfl⟩

theorem chanRead_wait {e : Ev} (h : IsWait e) : chanRead e = .ok none ∧ payload e = [] := by
  rcases h with rfl | rfl <;> exact ⟨rfl, rfl⟩

theorem chanRead_empty {e : Ev} (h : IsEmptyRead e) : chanRead e = .ok (some []) ∧ payload e = [] := by
  rcases h with rfl | rfl | rfl | rfl | rfl | rfl | rfl <;> exact ⟨rfl, rfl⟩

theorem chanRead_some {e : Ev} {b : Bytes} (h : chanRead e = .ok (some b)) : payload e = b := by
  cases e with
  | closed => simp [chanRead] at h; subst h; rfl
  | stopping => simp [chanRead] at h; subst h; rfl
  | raw r =>
    cases r with
    | data b' => simp [chanRead, defaultWrapper] at h; subst h; rfl
    | timeout => simp [chanRead, defaultWrapper] at h
    | sockErr e => cases e <;> simp_all [chanRead, defaultWrapper, payload]
    | keyboard => simp [chanRead, defaultWrapper] at h; subst h; rfl
    | exc e => simp [chanRead, defaultWrapper] at h

theorem chanRead_none {e : Ev} (h : chanRead e = .ok none) : payload e = [] ∧ IsWait e := by
  cases e with
  | closed => simp [chanRead] at h
  | stopping => simp [chanRead] at h
  | raw r =>
    cases r with
    | data b' => simp [chanRead, defaultWrapper] at h
    | timeout => exact ⟨rfl, .inl rfl⟩
    | sockErr e => cases e <;> simp_all [chanRead, defaultWrapper, payload, IsWait]
    | keyboard => simp [chanRead, defaultWrapper] at h
    | exc e => simp [chanRead, defaultWrapper] at h

theorem chanRead_err {e : Ev} {x} (h : chanRead e = .error x) : payload e = [] := by
  cases e with
  | closed => simp [chanRead] at h
  | stopping => simp [chanRead] at h
  | raw r =>
    cases r with
    | data b' => simp [chanRead, defaultWrapper] at h
    | timeout => rfl
    | sockErr e => rfl
    | keyboard => rfl
    | exc e => rfl

theorem chanRead_empty_iff {e : Ev} : chanRead e = .ok (some []) ↔ IsEmptyRead e := by
  constructor
  · intro h
    cases e with
    | closed => exact .inl rfl
    | stopping => exact .inr (.inl rfl)
    | raw r =>
      cases r with
      | data b' => simp [chanRead, defaultWrapper] at h; subst h; simp [IsEmptyRead]
      | timeout => simp [chanRead, defaultWrapper] at h
      | sockErr e => cases e <;> simp_all [chanRead, defaultWrapper, IsEmptyRead]
      | keyboard => simp [IsEmptyRead]
      | exc e => simp [chanRead, defaultWrapper] at h
  · intro h; exact (chanRead_empty h).1

/-- What a read loop guarantees about the bytes and events, whatever the transport does. -/
theorem fill_spec (need : Nat) (buf : Bytes) (evs : List Ev) :
    match fill need buf evs with
    | .full buf' rest => ∃ used, evs = used ++ rest ∧ buf' = buf ++ carried used ∧ need ≤ buf'.length ∧
        (∀ p q, used = p ++ q → q ≠ [] → (buf ++ carried p).length < need)
    | .empty buf' rest => ∃ used e, evs = used ++ e :: rest ∧ IsEmptyRead e ∧ buf' = buf ++ carried used ∧
        buf'.length < need ∧ (∀ p q, used = p ++ q → (buf ++ carried p).length < need)
    | .raised _ buf' rest => ∃ used e, evs = used ++ e :: rest ∧ payload e = [] ∧ buf' = buf ++ carried used ∧
        buf'.length < need ∧ (∀ p q, used = p ++ q → (buf ++ carried p).length < need)
    | .blocked buf' => buf' = buf ++ carried evs ∧ buf'.length < need ∧
        (∀ p q, evs = p ++ q → (buf ++ carried p).length < need) := by
  induction evs generalizing buf with
  | nil =>
    unfold fill
    split
    · rename_i h h2; split at h2
      · cases h2; exact ⟨[], by simp_all⟩
      · cases h2
    · rename_i h h2; split at h2 <;> cases h2
    · rename_i h h2; split at h2 <;> cases h2
    · rename_i h h2; split at h2
      · cases h2
      · cases h2; refine ⟨by simp, by omega, ?_⟩
        intro p q hpq
        have : p = [] := (List.append_eq_nil_iff.1 hpq.symm).1
        subst this; simp; omega
  | cons e evs ih =>
    unfold fill
    by_cases hn : need ≤ buf.length
    · rw [if_pos hn]; exact ⟨[], by simp_all⟩
    · rw [if_neg hn]
      match hc : chanRead e with
      | .error x =>
        refine ⟨[], e, by simp, chanRead_err hc, by simp, by omega, ?_⟩
        intro p q hpq
        have : p = [] := (List.append_eq_nil_iff.1 hpq.symm).1
        subst this; simp; omega
      | .ok none =>
        have hp := (chanRead_none hc).1
        have := ih buf
        simp only
        split
        · rename_i h; rw [h] at this
          obtain ⟨used, h1, h2, h3, h4⟩ := this
          refine ⟨e :: used, by simp [h1], by simp [hp, h2], h3, ?_⟩
          intro p q hpq hq
          cases p with
          | nil => simp; omega
          | cons a p =>
            simp at hpq; obtain ⟨rfl, hpq⟩ := hpq
            have := h4 p q hpq hq; simpa [hp] using this
        · rename_i h; rw [h] at this
          obtain ⟨used, e', h1, h2, h3, h4, h5⟩ := this
          refine ⟨e :: used, e', by simp [h1], h2, by simp [hp, h3], h4, ?_⟩
          intro p q hpq
          cases p with
          | nil => simp; omega
          | cons a p =>
            simp at hpq; obtain ⟨rfl, hpq⟩ := hpq
            have := h5 p q hpq; simpa [hp] using this
        · rename_i h; rw [h] at this
          obtain ⟨used, e', h1, h2, h3, h4, h5⟩ := this
          refine ⟨e :: used, e', by simp [h1], h2, by simp [hp, h3], h4, ?_⟩
          intro p q hpq
          cases p with
          | nil => simp; omega
          | cons a p =>
            simp at hpq; obtain ⟨rfl, hpq⟩ := hpq
            have := h5 p q hpq; simpa [hp] using this
        · rename_i h; rw [h] at this
          obtain ⟨h1, h2, h3⟩ := this
          refine ⟨by simp [hp, h1], h2, ?_⟩
          intro p q hpq
          cases p with
          | nil => simp; omega
          | cons a p =>
            simp at hpq; obtain ⟨rfl, hpq⟩ := hpq
            have := h3 p q hpq; simpa [hp] using this
      | .ok (some []) =>
        refine ⟨[], e, by simp, chanRead_empty_iff.1 hc, by simp, by omega, ?_⟩
        intro p q hpq
        have : p = [] := (List.append_eq_nil_iff.1 hpq.symm).1
        subst this; simp; omega
      | .ok (some (x :: b)) =>
        have hp := chanRead_some hc
        have := ih (buf ++ x :: b)
        simp only
        split
        · rename_i h; rw [h] at this
          obtain ⟨used, h1, h2, h3, h4⟩ := this
          refine ⟨e :: used, by simp [h1], by simp [hp, h2], h3, ?_⟩
          intro p q hpq hq
          cases p with
          | nil => simp; omega
          | cons a p =>
            simp at hpq; obtain ⟨rfl, hpq⟩ := hpq
            have := h4 p q hpq hq; simpa [hp] using this
        · rename_i h; rw [h] at this
          obtain ⟨used, e', h1, h2, h3, h4, h5⟩ := this
          refine ⟨e :: used, e', by simp [h1], h2, by simp [hp, h3], h4, ?_⟩
          intro p q hpq
          cases p with
          | nil => simp; omega
          | cons a p =>
            simp at hpq; obtain ⟨rfl, hpq⟩ := hpq
            have := h5 p q hpq; simpa [hp] using this
        · rename_i h; rw [h] at this
          obtain ⟨used, e', h1, h2, h3, h4, h5⟩ := this
          refine ⟨e :: used, e', by simp [h1], h2, by simp [hp, h3], h4, ?_⟩
          intro p q hpq
          cases p with
          | nil => simp; omega
          | cons a p =>
            simp at hpq; obtain ⟨rfl, hpq⟩ := hpq
            have := h5 p q hpq; simpa [hp] using this
        · rename_i h; rw [h] at this
          obtain ⟨h1, h2, h3⟩ := this
          refine ⟨by simp [hp, h1], h2, ?_⟩
          intro p q hpq
          cases p with
          | nil => simp; omega
          | cons a p =>
            simp at hpq; obtain ⟨rfl, hpq⟩ := hpq
            have := h3 p q hpq; simpa [hp] using this

/-- Events that carry data or only make the reader wait. -/
def Good (e : Ev) : Prop := IsChunk e ∨ IsWait e

/-- A read loop over good events followed by an arbitrary continuation. -/
theorem fill_good (need : Nat) (buf : Bytes) (evs tl : List Ev) (hg : ∀ e ∈ evs, Good e) :
    (∃ used rest, evs = used ++ rest ∧ fill need buf (evs ++ tl) = .full (buf ++ carried used) (rest ++ tl) ∧
      need ≤ (buf ++ carried used).length) ∨
    ((buf ++ carried evs).length < need ∧ fill need buf (evs ++ tl) = fill need (buf ++ carried evs) tl) := by
  induction evs generalizing buf with
  | nil =>
    by_cases h : need ≤ buf.length
    · left; refine ⟨[], [], rfl, ?_, by simpa using h⟩
      cases tl <;> simp [fill, h]
    · right; exact ⟨by simpa using h, by simp⟩
  | cons e evs ih =>
    by_cases h : need ≤ buf.length
    · left; refine ⟨[], e :: evs, rfl, ?_, by simpa using h⟩
      simp [fill, h]
    · have hg' : ∀ e ∈ evs, Good e := fun x hx => hg x (List.mem_cons_of_mem _ hx)
      rcases hg e (List.mem_cons_self ..) with hc | hw
      · obtain ⟨x, b, h1, h2⟩ := chanRead_chunk hc
        rcases ih (buf ++ x :: b) hg' with ⟨used, rest, a1, a2, a3⟩ | ⟨a1, a2⟩
        · left; refine ⟨e :: used, rest, by simp [a1], ?_, by simpa [h2] using a3⟩
          simp only [List.cons_append, fill, if_neg h, h1]
          simpa [h2] using a2
        · right
          refine ⟨by simpa [h2] using a1, ?_⟩
          simp only [List.cons_append, fill, if_neg h, h1]
          simpa [h2] using a2
      · obtain ⟨h1, h2⟩ := chanRead_wait hw
        rcases ih buf hg' with ⟨used, rest, a1, a2, a3⟩ | ⟨a1, a2⟩
        · left; refine ⟨e :: used, rest, by simp [a1], ?_, by simpa [h2] using a3⟩
          simp only [List.cons_append, fill, if_neg h, h1]
          simpa [h2] using a2
        · right
          refine ⟨by simpa [h2] using a1, ?_⟩
          simp only [List.cons_append, fill, if_neg h, h1]
          simpa [h2] using a2

theorem fill_enough {need : Nat} {buf : Bytes} (evs : List Ev) (h : need ≤ buf.length) :
    fill need buf evs = .full buf evs := by
  cases evs <;> simp [fill, h]

theorem fill_empty {need : Nat} {buf : Bytes} {e : Ev} (tl : List Ev) (h : ¬ need ≤ buf.length)
    (he : IsEmptyRead e) : fill need buf (e :: tl) = .empty buf tl := by
  simp [fill, h, (chanRead_empty he).1]

/-- The header of a buffer of at least 8 bytes can always be parsed; its third field is the announced length. -/
theorem parseHeader_ok (b : Bytes) (h : 8 ≤ b.length) :
    ∃ v t x, parseHeader b = .ok (v, t, announced b, x) := by
  match b, h with
  | b0 :: b1 :: b2 :: b3 :: b4 :: b5 :: b6 :: b7 :: tl, _ =>
    refine ⟨b0.toNat, b1.toNat, decBE [b4, b5, b6, b7], ?_⟩
    simp [parseHeader, unpackFrom, hdrFmt, calcsize, Item.width, dec, announced, decBE, bind, Except.bind]
    omega

theorem announced_append (b c : Bytes) (h : 4 ≤ b.length) : announced (b ++ c) = announced b := by
  match b, h with
  | _ :: _ :: _ :: _ :: _, _ => rfl

theorem announced_take (b : Bytes) (n : Nat) (h : 4 ≤ n) : announced (b.take n) = announced b := by
  match n, h with
  | n + 4, _ =>
    match b with
    | [] => rfl
    | [_] => rfl
    | [_, _] => rfl
    | [_, _, _] => rfl
    | _ :: _ :: _ :: _ :: _ => rfl

/-- One `recv()` over good events followed by an arbitrary continuation:
either the message is complete and is delivered, or everything is buffered and the continuation decides. -/
theorem recv_good (buf : Bytes) (evs tl : List Ev) (hg : ∀ e ∈ evs, Good e) :
    (Complete (buf ++ carried evs) ∧
      ∃ used rest buf', evs = used ++ rest ∧
        recv buf (evs ++ tl) =
          .ret ((buf ++ carried evs).take (announced (buf ++ carried evs))) buf' (rest ++ tl) ∧
        buf' ++ carried rest = (buf ++ carried evs).drop (announced (buf ++ carried evs))) ∨
    (¬ Complete (buf ++ carried evs) ∧ recv buf (evs ++ tl) = recv (buf ++ carried evs) tl) := by
  rcases fill_good 8 buf evs tl hg with ⟨used, rest, h1, h2, h3⟩ | ⟨h1, h2⟩
  · -- header available
    have hg' : ∀ e ∈ rest, Good e := fun x hx => hg x (by simp [h1, hx])
    obtain ⟨v, t, x, hp⟩ := parseHeader_ok _ h3
    have hann : announced (buf ++ carried evs) = announced (buf ++ carried used) := by
      rw [h1, carried_append, ← List.append_assoc, announced_append]
      omega
    rcases fill_good (announced (buf ++ carried used)) (buf ++ carried used) rest tl hg' with
      ⟨used2, rest2, k1, k2, k3⟩ | ⟨k1, k2⟩
    · left
      have e1 : buf ++ carried evs = (buf ++ carried used ++ carried used2) ++ carried rest2 := by
        simp [h1, k1]
      refine ⟨⟨?_, ?_⟩, used ++ used2, rest2, (buf ++ carried used ++ carried used2).drop (announced (buf ++ carried used)), ?_, ?_, ?_⟩
      · rw [e1]; simp only [List.length_append] at *; omega
      · rw [hann, e1]; simp only [List.length_append] at *; omega
      · simp [h1, k1]
      · rw [hann]
        simp only [recv, h2, hp, k2]
        congr 1
        rw [e1, List.take_append_of_le_length k3]
        simp [slice]
      · rw [hann, e1, List.drop_append_of_le_length k3]
    · right
      have e1 : buf ++ carried evs = (buf ++ carried used) ++ carried rest := by simp [h1]
      refine ⟨?_, ?_⟩
      · rintro ⟨_, hc⟩; rw [hann, e1] at hc; omega
      · simp only [recv, h2, hp, k2]
        have h8 : 8 ≤ (buf ++ carried evs).length := by rw [e1]; simp only [List.length_append] at *; omega
        obtain ⟨v', t', x', hp'⟩ := parseHeader_ok _ h8
        rw [fill_enough tl h8]
        simp only [hp', hann]
        rw [e1]
  · right
    refine ⟨fun hc => by have := hc.1; omega, ?_⟩
    simp only [recv, h2]

/-- `recv()` on a buffer holding a complete message does not read. -/
theorem recv_complete (buf : Bytes) (evs : List Ev) (h : Complete buf) :
    recv buf evs = .ret (buf.take (announced buf)) (buf.drop (announced buf)) evs := by
  obtain ⟨v, t, x, hp⟩ := parseHeader_ok _ h.1
  simp only [recv, fill_enough evs h.1, hp, fill_enough evs h.2]
  simp [slice]

/-- On an incomplete buffer, `recv()` meets an empty read: it reports "no message" and keeps the buffer. -/
theorem recv_empty (buf : Bytes) (e : Ev) (tl : List Ev) (h : ¬ Complete buf) (he : IsEmptyRead e) :
    recv buf (e :: tl) = .ret [] buf tl := by
  by_cases h8 : 8 ≤ buf.length
  · have hn : ¬ announced buf ≤ buf.length := fun hc => h ⟨h8, hc⟩
    obtain ⟨v, t, x, hp⟩ := parseHeader_ok _ h8
    simp only [recv, fill_enough _ h8, hp, fill_empty tl hn he]
  · simp only [recv, fill_empty tl h8 he]

theorem recv_nil (buf : Bytes) (h : ¬ Complete buf) : recv buf [] = .blocked buf := by
  by_cases h8 : 8 ≤ buf.length
  · have hn : ¬ announced buf ≤ buf.length := fun hc => h ⟨h8, hc⟩
    obtain ⟨v, t, x, hp⟩ := parseHeader_ok _ h8
    simp [recv, fill, h8, hp, hn]
  · simp [recv, fill, h8]

/-- General accounting for one `recv()`. -/
theorem recv_spec (buf : Bytes) (evs : List Ev) :
    match recv buf evs with
    | .ret m buf' rest => ∃ used, evs = used ++ rest ∧ m ++ buf' = buf ++ carried used ∧
        (m ≠ [] → (∀ p q, used = p ++ q → q ≠ [] → ¬ Complete (buf ++ carried p)) ∧
          m.length = announced (buf ++ carried used) ∧ 8 ≤ (buf ++ carried used).length)
    | .raised _ buf' rest => ∃ used, evs = used ++ rest ∧ buf' = buf ++ carried used
    | .blocked buf' => buf' = buf ++ carried evs ∧ ¬ Complete buf' := by
  have f1 := fill_spec 8 buf evs
  match hf : fill 8 buf evs with
  | .blocked b =>
    rw [hf] at f1; simp only [recv, hf]
    exact ⟨f1.1, fun hc => by have := hc.1; omega⟩
  | .raised e b r =>
    rw [hf] at f1; simp only [recv, hf]
    obtain ⟨used, e', h1, h2, h3, _⟩ := f1
    exact ⟨used ++ [e'], by simp [h1], by simp [h2, h3]⟩
  | .empty b r =>
    rw [hf] at f1; simp only [recv, hf]
    obtain ⟨used, e', h1, h2, h3, _⟩ := f1
    exact ⟨used ++ [e'], by simp [h1], by simp [(chanRead_empty h2).2, h3], by simp⟩
  | .full b r =>
    rw [hf] at f1; simp only [recv, hf]
    obtain ⟨used, h1, h2, h3, h4⟩ := f1
    obtain ⟨v, t, x, hp⟩ := parseHeader_ok _ h3
    simp only [hp]
    have f2 := fill_spec (announced b) b r
    match hf2 : fill (announced b) b r with
    | .blocked b' =>
      rw [hf2] at f2; simp only
      refine ⟨by rw [f2.1, h2, h1]; simp, fun hc => ?_⟩
      have h' := hc.2
      rw [f2.1, announced_append _ _ (by omega)] at h'
      have := f2.2.1
      rw [f2.1] at this; omega
    | .raised e b' r' =>
      rw [hf2] at f2; simp only
      obtain ⟨used2, e', k1, k2, k3, _⟩ := f2
      exact ⟨used ++ used2 ++ [e'], by simp [h1, k1], by simp [h2, k2, k3]⟩
    | .empty b' r' =>
      rw [hf2] at f2; simp only
      obtain ⟨used2, e', k1, k2, k3, _⟩ := f2
      exact ⟨used ++ used2 ++ [e'], by simp [h1, k1], by simp [h2, (chanRead_empty k2).2, k3], by simp⟩
    | .full b' r' =>
      rw [hf2] at f2; simp only
      obtain ⟨used2, k1, k2, k3, k4⟩ := f2
      have hb' : b' = buf ++ carried (used ++ used2) := by simp [k2, h2]
      have ha : announced b' = announced b := by rw [k2, announced_append _ _ (by omega)]
      refine ⟨used ++ used2, by simp [h1, k1], by rw [← hb']; simp [slice], fun _ => ⟨?_, ?_, ?_⟩⟩
      · intro p q hpq hq hc
        rcases List.append_eq_append_iff.1 hpq with ⟨c, c1, c2⟩ | ⟨c, c1, c2⟩
        · -- used is a prefix of p
          have : (b ++ carried c).length < announced b := k4 c q c2 hq
          have e1 : buf ++ carried p = b ++ carried c := by simp [c1, h2]
          rw [e1] at hc
          have h' := hc.2
          rw [announced_append _ _ (by omega)] at h'; omega
        · by_cases hc0 : c = []
          · subst hc0; simp at c1 c2; subst c1; subst c2
            have : (b ++ carried []).length < announced b := k4 [] q (by simp) hq
            rw [← h2] at hc; have h' := hc.2; simp at this; omega
          · have := h4 p c c1 hc0
            have := hc.1; omega
      · rw [← hb', ha]; simp [slice]; omega
      · rw [← hb', k2]; simp; omega

end Twink
