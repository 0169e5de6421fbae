import Verif.Spec.Cord

/-! The entries leave no choice but that of the bucket. -/

namespace Twink.Cord
open OfpTuple

theorem prefix_agree {a x y : Bytes} (hx : x <+: a) (hy : y <+: a) (hl : x.length = y.length) : x = y := by
  rw [List.prefix_iff_eq_take] at hx hy
  rw [hx, hy, hl]

theorem selects_agree {t : Nat} {p : Pkt} {f g : Flow} (hf : Selects t p f) (hg : Selects t p g) : f.acts = g.acts := by
  obtain ⟨f1, f2, f3⟩ := hf
  obtain ⟨g1, g2, g3⟩ := hg
  have e1 := f3 g g1 g2
  have e2 := g3 f f1 f2
  have he : f.prio = g.prio := Nat.le_antisymm e2 e1
  clear f3 g3 e1 e2
  have four : ∀ {m n : Match} {x y : Bytes}, m.Holds p → n.Holds p → m.nwDst = some x → n.nwDst = some y → x.length = y.length → x = y := by
    intro m n x y hm hn h1 h2 hl
    obtain ⟨a, a1, a2⟩ := hm.2.2.2.2.2.2.2.1 x h1
    obtain ⟨b, b1, b2⟩ := hn.2.2.2.2.2.2.2.1 y h2
    rw [a1] at b1
    cases b1
    exact prefix_agree a2 b2 hl
  have port : ∀ {m n : Match} {x y : Nat}, m.Holds p → n.Holds p → m.inPort = some x → n.inPort = some y → x = y := by
    intro m n x y hm hn h1 h2
    rw [← hm.1 x h1, hn.1 y h2]
  have tun : ∀ {m n : Match} {x y : Nat}, m.Holds p → n.Holds p → m.tunId = some x → n.tunId = some y → x = y := by
    intro m n x y hm hn h1 h2
    rw [← hm.2.2.2.2.2.2.2.2.2.2 x h1, hn.2.2.2.2.2.2.2.2.2.2 y h2]
  match t with
  | 0 =>
    simp only [table, List.mem_cons, List.not_mem_nil, or_false] at f1 g1
    rcases f1 with rfl | rfl | rfl | rfl | rfl | rfl | rfl | rfl | rfl | rfl <;>
      rcases g1 with rfl | rfl | rfl | rfl | rfl | rfl | rfl | rfl | rfl | rfl <;>
      first
      | rfl
      | (cases he; done)
      | (have := port f2 g2 rfl rfl; simp at this)
  | 1 =>
    simp only [table, List.mem_cons, List.not_mem_nil, or_false] at f1 g1
    rcases f1 with rfl | rfl | rfl | rfl | rfl | rfl <;> rcases g1 with rfl | rfl | rfl | rfl | rfl | rfl <;>
      first
      | rfl
      | (cases he; done)
      | (have := port f2 g2 rfl rfl; simp at this)
  | 2 =>
    simp only [table, List.mem_cons, List.not_mem_nil, or_false] at f1 g1
    rcases f1 with rfl | rfl | rfl | rfl | rfl | rfl | rfl | rfl <;> rcases g1 with rfl | rfl | rfl | rfl | rfl | rfl | rfl | rfl <;>
      first
      | rfl
      | (cases he; done)
  | 3 =>
    simp only [table, List.mem_cons, List.not_mem_nil, or_false] at f1 g1
    rw [f1, g1]
  | 4 =>
    simp only [table, List.mem_cons, List.not_mem_nil, or_false] at f1 g1
    rcases f1 with rfl | rfl | rfl | rfl <;> rcases g1 with rfl | rfl | rfl | rfl <;>
      first
      | rfl
      | (have := four f2 g2 rfl rfl rfl; simp at this)
  | 5 =>
    simp only [table, List.mem_cons, List.not_mem_nil, or_false] at f1 g1
    rcases f1 with rfl | rfl <;> rcases g1 with rfl | rfl <;>
      first
      | rfl
      | (have := tun f2 g2 rfl rfl; simp at this)
  | 6 =>
    simp only [table, List.mem_cons, List.not_mem_nil, or_false] at f1 g1
    rcases f1 with rfl | rfl <;> rcases g1 with rfl | rfl <;>
      first
      | rfl
      | (cases he; done)
  | n + 7 => simp [table] at f1

theorem bucket_out {b : List Act} {p q : Pkt} {v : Verdict} (hb : b ∈ buckets) (h : Does b p v q) : v = .out 1 ∨ v = .out 4 := by
  simp only [buckets, List.mem_cons, List.not_mem_nil, or_false] at hb
  rcases hb with rfl | rfl
  · rcases h with _ | _ | _ | _ | _ | _ | _ | ⟨_, h⟩
    rcases h with _ | _ | _ | _ | _ | _ | _ | _ | _ | ⟨_, h⟩
    rcases h with _ | _ | _ | _ | _ | _ | _ | _ | ⟨_, h⟩
    cases h
    exact .inl rfl
  · rcases h with _ | _ | _ | _ | _ | _ | _ | ⟨_, h⟩
    cases h
    exact .inr rfl

theorem does_unique {l : List Act} {p q q' : Pkt} {v v' : Verdict} (h : Does l p v q) (h' : Does l p v' q') :
    (v = v' ∧ q = q') ∨ ((v = .out 1 ∨ v = .out 4) ∧ (v' = .out 1 ∨ v' = .out 4)) := by
  induction h with
  | nothing p => cases h'; exact .inl ⟨rfl, rfl⟩
  | output n l p => cases h'; exact .inl ⟨rfl, rfl⟩
  | «local» l p => cases h'; exact .inl ⟨rfl, rfl⟩
  | controller l p => cases h'; exact .inl ⟨rfl, rfl⟩
  | entry l hs hd ih =>
    cases h' with
    | entry _ hs' hd' => exact ih (selects_agree hs hs' ▸ hd')
    | miss _ hm => exact absurd hs.2.1 (hm _ hs.1)
  | miss l hm =>
    cases h' with
    | entry _ hs' hd' => exact absurd hs'.2.1 (hm _ hs'.1)
    | miss _ _ => exact .inl ⟨rfl, rfl⟩
  | group l hb hd ih =>
    cases h' with
    | group _ hb' hd' => exact .inr ⟨bucket_out hb hd, bucket_out hb' hd'⟩
  | setEthDst m hd ih => cases h' with | setEthDst _ hd' => exact ih hd'
  | setTunId m hd ih => cases h' with | setTunId _ hd' => exact ih hd'
  | setTunDst m hd ih => cases h' with | setTunDst _ hd' => exact ih hd'
  | popVlan hd ih => cases h' with | popVlan hd' => exact ih hd'

end Twink.Cord
