import Verif.Proof.Of13Messages
import Verif.Proof.Of13Loop

/-!
# What the OpenFlow 1.3 parser does not give back
-/

namespace Twink.Of13
open Fmt Spec

theorem action_filled {a : Action} (h : a.Aligned) : a.wire = a.filled := by
  cases a with
  | setField t l f => simp only [Action.wire, Action.filled]; rw [fill8_aligned h, up8_of_mod h]
  | experimenter t l x d =>
    have h' : (8 + d.length) % 8 = 0 := by have : d.length % 8 = 0 := h; omega
    simp only [Action.wire, Action.filled]; rw [fill8_aligned h', up8_of_mod h']
  | _ => rfl

theorem mem_values {s : Seq α} {P : α → Prop} (h : s.All P) {a : α} (ha : a ∈ s.values) : P a := by
  cases s with
  | items l =>
    simp only [Seq.values, List.mem_filterMap] at ha
    obtain ⟨e, he, h2⟩ := ha
    obtain ⟨b, rfl, hb⟩ := h e he
    simp only [Option.some.injEq] at h2
    rwa [← h2]
  | _ => simp [Seq.values] at ha

theorem actions_filled {s : Seq Action} (h : s.All Action.Aligned) : s.values.map Action.wire = s.values.map Action.filled :=
  List.map_congr_left fun _ ha => action_filled (mem_values h ha)

theorem instr_filled {i : Instr} (h : i.Aligned) : i.wire = i.filled := by
  cases i with
  | actions t l s => simp only [Instr.wire, Instr.filled, wireActions]; rw [actions_filled h]
  | _ => rfl

theorem instrs_filled {s : Seq Instr} (h : s.All Instr.Aligned) : s.values.map Instr.wire = s.values.map Instr.filled :=
  List.map_congr_left fun _ ha => instr_filled (mem_values h ha)

theorem buckets_filled {s : Seq Bucket} (h : s.All (fun b => b.actions.All Action.Aligned)) :
    s.values.map Bucket.wire = s.values.map Bucket.filled :=
  List.map_congr_left fun b hb => by
    simp only [Bucket.wire, Bucket.filled, wireActions]
    rw [actions_filled (mem_values h hb)]

theorem fill8_ne {x : Nat} {b : Bytes} (h : (x + b.length) % 8 ≠ 0) : fill8 x b ≠ b := by
  intro he
  have h1 := fill8_length x b
  rw [he] at h1
  have := up8_mod (x + b.length)
  omega

/-- A loop that reads some records and then fails, fails. -/
theorem whileFetch_prefix {p : Bytes → Nat → Py (α × Nat)} {bs : Bytes} {as : List α} (h : Parts p bs as) {m n}
    (hm : At m n bs) {lim : Nat} (hl : n + bs.length < lim) {e : Err} (he : whileFetch (p m) lim (n + bs.length) = .error e) :
    whileFetch (p m) lim n = .error e := by
  induction h generalizing n with
  | nil => simpa using he
  | @cons b bs a as hb hpos hp ih =>
    have e1 : n + (b ++ bs).length = n + b.length + bs.length := by simp; omega
    rw [e1] at hl he
    have h2 := ih (hm.right (n + b.length) rfl) hl he
    rw [whileFetch, if_pos (by omega), hb.at hm.left]
    simp only
    rw [if_pos (by omega), h2]

/-- Reading records of `c` bytes. -/
theorem whileFetch_steps {fetch : Nat → Py (α × Nat)} {c : Nat} (hc : ∀ o a o', fetch o = .ok (a, o') → o' = o + c)
    {lim off r} (h : whileFetch fetch lim off = .ok r) : r.2 = off + c * r.1.length := by
  induction hk : lim - off using Nat.strong_induction_on generalizing off r with
  | _ k ih =>
    rw [whileFetch] at h
    split at h
    · rename_i hlt
      cases hf : fetch off with
      | error e => rw [hf] at h; simp at h
      | ok ao =>
        obtain ⟨a, o'⟩ := ao
        rw [hf] at h
        simp only at h
        split at h
        · cases hw : whileFetch fetch lim o' with
          | error e => rw [hw] at h; simp at h
          | ok r' =>
            rw [hw] at h
            simp only [ok_inj] at h
            subst h
            have := ih (lim - o') (by omega) hw rfl
            have h2 := hc _ _ _ hf
            simp only [List.length_cons]
            rw [this, h2, Nat.mul_add]; omega
        · simp at h
    · simp only [ok_inj] at h; subst h; simp

theorem portStats_len {r : Rec} {b : Bytes} (hr : r.replyType = some 4) (h : buildRec r = .ok b) : b.length = 112 := by
  cases r <;> simp [Rec.replyType] at hr
  simp only [buildRec, pack_eq_ok] at h
  obtain ⟨hf, rfl⟩ := h
  rw [enc_length _ _ hf]; rfl

theorem join_len {build : α → Py Bytes} {c : Nat} {l : List α} {bs : Bytes} (hc : ∀ a ∈ l, ∀ b, build a = .ok b → b.length = c)
    (h : join build (l.map .tup) = .ok bs) : bs.length = c * l.length := by
  induction l generalizing bs with
  | nil => rw [List.map_nil, join_ok_nil] at h; simp [h]
  | cons a l ih =>
    rw [List.map_cons, join_ok_cons] at h
    obtain ⟨b, bs', h1, h2, rfl⟩ := h
    rw [List.length_append, hc a (by simp) b h1, ih (fun a ha => hc a (by simp [ha])) h2]
    rw [List.length_cons, Nat.mul_add]; omega

/-- An experimenter band where the loop stands: it stays there. -/
theorem bands_diverge {n lim l r b e : Nat} {ms d : Bytes}
    (hm : At ms n (enc [H, H, I, I, I] [.int 0xffff, .int l, .int r, .int b, .int e] ++ d))
    (hf : fits [H, H, I, I, I] [.int 0xffff, .int l, .int r, .int b, .int e] = true) (hl : n < lim) :
    whileFetch (parseBand ms) lim n = .error .diverges := by
  have h1 : rd [H, H, I, I] ms n (four fun t _ _ _ => t) = .ok (0xffff, n + 12) := by
    have e1 : enc [H, H, I, I, I] [.int 0xffff, .int l, .int r, .int b, .int e] =
        enc [H, H, I, I] [.int 0xffff, .int l, .int r, .int b] ++ enc [I] [.int e] := by simp [enc]
    have hm' := hm.left
    rw [e1] at hm'
    exact rd_at hm'.left (by simp [fits] at hf ⊢; omega) (by simp [exact]) _ _ rfl
  have h2 := rd_at hm.left hf (by simp [exact]) (five fun a b c d e => (a, b, c, d, e)) (0xffff, l, r, b, e) rfl
  rw [whileFetch, if_pos hl]
  have h3 : parseBand ms n = .ok (.experimenter (some 0xffff) (some l) r b e (slice ms n (n + l)), n) := by
    rw [parseBand, h1, ok_bind]
    show parseBandOf 0xffff ms n = _
    have e0 : parseBandOf 0xffff ms n = (do
      let ((type, len, rate, burst, exp), _) ← rd [H, H, I, I, I] ms n (five fun a b c d e => (a, b, c, d, e))
      .ok (.experimenter (some type) (some len) rate burst exp (slice ms n (n + len)), n)) := rfl
    rw [e0, h2]; rfl
  rw [h3]
  simp

/-- A set-field action with length zero where the loop stands: it stays there. -/
theorem actions_diverge {n lim : Nat} {ms d : Bytes}
    (hm : At ms n (enc [H, H] [.int 25, .int 0] ++ d)) (hd : 4 ≤ d.length) (hl : n < lim) :
    whileFetch (parseAction ms) lim n = .error .diverges := by
  have h1 := peek4_at hm (by decide) (by simpa [calcsize] using hd) (fun a b => (a, b))
  have h2 := peek_at hm.left (by decide) (fun a b => (a, b))
  rw [whileFetch, if_pos hl]
  have h3 : parseAction ms n = .ok (.setField (some 25) (some 0) (slice ms (n + 4) n), n) := by
    rw [parseAction, h1, ok_bind]
    have e0 : parseActionOf 25 ms n = (do
      let ((type, len), o) ← rd [H, H] ms n (two fun a b => (a, b))
      .ok (.setField (some type) (some len) (slice ms o (n + len)), n + len)) := rfl
    show parseActionOf 25 ms n = _
    rw [e0, h2]; rfl
  rw [h3]
  simp

end Twink.Of13
