import Verif.Proof.Race
import Verif.Props.Agent

/-!
# Property C121: the controller knows the ports of the software switch though they change while it asks
-/

namespace Twink.Race
open Of13 (PortT)

/-! ## What the controller knows -/

/-- **C121, exactly when the controller is right.** Let the switch start with a proper table, and let the two threads move in any order.  When the port manager is
at rest, and the last description of the ports that the switch has sent is `L`, the controller knows exactly the ports there are if and only if the deletion of no
port of `L` had been announced before `L` was sent, and every port there is is in `L` or was announced after `L` was sent. -/
theorem C121_exact (s : St) (hs : Fresh s) (ops : List Op) (hr : (runs s ops).mgr = .idle) (pre post : List Msg) (L : List PortT)
    (ho : (runs s ops).out = pre ++ .desc L :: post) (hl : ∀ l, Msg.desc l ∉ post) :
    Right (runs s ops) ↔ (∀ p ∈ L, Msg.del p ∉ pre) ∧ (∀ p ∈ ports (runs s ops), p ∈ L ∨ Msg.add p ∈ post) := by
  obtain ⟨ever, h⟩ := inv_runs (inv_fresh hs) ops
  generalize runs s ops = t at *
  have horder := h.order
  rw [ho] at horder
  obtain ⟨_, o2, o3⟩ := List.pairwise_append.1 horder
  obtain ⟨_, o2⟩ := List.pairwise_cons.1 o2
  have hmsgs : ∀ p, (Msg.add p ∈ post ∨ Msg.del p ∈ post) → p ∈ ever := by
    intro p hp
    apply h.msgs p
    rw [ho]
    rcases hp with hp | hp <;> simp [hp]
  have hLever : ∀ p ∈ L, p ∈ ever := h.descs L (by rw [ho]; simp)
  have hhere : ∀ p ∈ ports t, Msg.del p ∉ t.out := by
    intro p hp
    rcases h.here p hp with e | e
    · exact e
    · rw [hr] at e; simp at e
  have hgone : ∀ p ∈ ever, Msg.del p ∉ t.out → p ∈ ports t := by
    intro p hp hd
    rcases h.gone p hp with e | e | e
    · exact e
    · exact absurd e hd
    · rw [hr] at e; simp at e
  have hk : ∀ p, p ∈ knows t.out ↔ (p ∈ L ∧ ∀ m ∈ post, ¬ About p.portNo m) ∨ (Msg.add p ∈ post ∧ Msg.del p ∉ post) := by
    intro p
    have e : knows t.out = post.foldl learn L := by simp [knows, ho, learn]
    rw [e, mem_learnt L post hl p, mem_new ever h.distinct post hl hmsgs o2 p]
  have hafter : ∀ p, Msg.del p ∈ pre → ∀ m ∈ post, m ≠ .add p ∧ m ≠ .del p :=
    fun p hp m hm => (o3 (.del p) hp m (by simp [hm]) p).1 rfl
  have habout : ∀ p ∈ ever, ∀ m ∈ post, About p.portNo m → m = .add p ∨ m = .del p := by
    intro p hp m hm ha
    cases m with
    | add q => left; rw [h.distinct q (hmsgs q (.inl hm)) p hp ha]
    | del q => right; rw [h.distinct q (hmsgs q (.inr hm)) p hp ha]
    | desc l => exact absurd hm (hl l)
  constructor
  · intro hright
    refine ⟨fun p hp hd => ?_, fun p hp => ?_⟩
    · have : p ∈ knows t.out := (hk p).2 (.inl ⟨hp, fun m hm ha => by
        rcases habout p (hLever p hp) m hm ha with e | e
        · exact (hafter p hd m hm).1 e
        · exact (hafter p hd m hm).2 e⟩)
      exact hhere p ((hright p).1 this) (by rw [ho]; simp [hd])
    · rcases (hk p).1 ((hright p).2 hp) with ⟨e, _⟩ | ⟨e, _⟩
      · exact .inl e
      · exact .inr e
  · rintro ⟨c1, c2⟩ p
    rw [hk]
    constructor
    · rintro (⟨hp, hn⟩ | ⟨ha, hd⟩)
      · apply hgone p (hLever p hp)
        rw [ho]
        simp only [List.mem_append, List.mem_cons, reduceCtorEq, false_or, not_or]
        exact ⟨c1 p hp, fun hd => hn _ hd rfl⟩
      · apply hgone p (hmsgs p (.inl ha))
        rw [ho]
        simp only [List.mem_append, List.mem_cons, reduceCtorEq, false_or, not_or]
        exact ⟨fun hc => (hafter p hc _ ha).1 rfl, hd⟩
    · intro hp
      have hd : Msg.del p ∉ post := fun hc => hhere p hp (by rw [ho]; simp [hc])
      by_cases ha : Msg.add p ∈ post
      · exact .inr ⟨ha, hd⟩
      · left
        rcases c2 p hp with hL | e
        · refine ⟨hL, fun m hm hab => ?_⟩
          rcases habout p (h.sub p hp) m hm hab with rfl | rfl
          · exact ha hm
          · exact hd hm
        · exact absurd e ha

/-- The loop over the dictionary, undisturbed. -/
theorem collect : ∀ (rem : List PortT) (s : St) (n i : Nat) (seen : List PortT), s.loop = .iter n i seen → n = (ports s).length →
    (s.slots.drop i).filterMap id = rem → runs s (List.replicate (rem.length + 1) .next) = { s with loop := .reply (seen ++ rem) } := by
  intro rem
  induction rem with
  | nil =>
    intro s n i seen hl hn hrem
    have hspec := nextFrom_spec s.slots i
    have e : nextFrom s.slots i = none := by
      cases he : nextFrom s.slots i with
      | none => rfl
      | some pj => rw [he, hrem] at hspec; simp at hspec
    simp [runs, step, hl, hn, e]
  | cons p rem ih =>
    intro s n i seen hl hn hrem
    have hspec := nextFrom_spec s.slots i
    cases he : nextFrom s.slots i with
    | none => rw [he, hrem] at hspec; simp at hspec
    | some pj =>
      obtain ⟨q, j⟩ := pj
      rw [he, hrem] at hspec
      simp only [List.cons.injEq] at hspec
      obtain ⟨rfl, hj⟩ := hspec
      have e1 : step s .next = { s with loop := .iter n j (seen ++ [p]) } := by simp [step, hl, hn, he]
      rw [List.length_cons, List.replicate_succ, runs, e1]
      rw [ih { s with loop := .iter n j (seen ++ [p]) } n j (seen ++ [p]) rfl hn hj.symm]
      simp

/-- A request up to the message that answers it. -/
def asked (s : St) : List Op := .request :: List.replicate ((ports s).length + 1) .next

theorem runs_asked {s : St} (h : s.loop = .idle) : runs s (asked s) = { s with loop := .reply (ports s) } := by
  have e : step s .request = { s with loop := .iter (ports s).length 0 [] } := by simp [step, h]
  rw [asked, runs, e]
  have := collect (ports s) { s with loop := .iter (ports s).length 0 [] } (ports s).length 0 [] rfl rfl rfl
  simpa using this

theorem runs_answered {s : St} (h : s.loop = .idle) : runs s (asked s ++ [.send]) = { s with out := s.out ++ [.desc (ports s)] } := by
  rw [runs_append, runs_asked h]
  simp [runs, step, h]

theorem out_grows (s : St) (ops : List Op) (hns : Op.send ∉ ops) : ∃ post, (runs s ops).out = s.out ++ post ∧ ∀ l, Msg.desc l ∉ post := by
  induction ops generalizing s with
  | nil => exact ⟨[], by simp [runs], by simp⟩
  | cons op ops ih =>
    obtain ⟨post, h1, h2⟩ := ih (step s op) (fun hc => hns (by simp [hc]))
    have hop : op ≠ .send := fun hc => hns (by simp [hc])
    have : ∃ ms, (step s op).out = s.out ++ ms ∧ ∀ l, Msg.desc l ∉ ms := by
      cases op with
      | send => exact absurd rfl hop
      | mgr =>
        simp only [step]
        split
        · exact ⟨[_], rfl, by simp⟩
        · exact ⟨[_], rfl, by simp⟩
        · exact ⟨[], by simp, by simp⟩
        · exact ⟨[], by simp, by simp⟩
      | _ => refine ⟨[], ?_, by simp⟩; simp only [step]; (repeat' split) <;> simp
    obtain ⟨ms, h3, h4⟩ := this
    refine ⟨ms ++ post, by rw [runs, h1, h3, List.append_assoc], ?_⟩
    intro l hl
    rcases List.mem_append.1 hl with e | e
    · exact h4 l e
    · exact h2 l e

/-- **C121, the good case**: if the last request was answered while the port manager was at rest, then, whatever has happened before and whatever ports are added and
deleted afterwards, the controller knows exactly the ports there are whenever the port manager is at rest. -/
theorem C121_partial (s : St) (hs : Fresh s) (ops1 ops2 : List Op) (h1 : Rest (runs s ops1)) (hns : Op.send ∉ ops2)
    (hr : (runs s (ops1 ++ (asked (runs s ops1) ++ [.send]) ++ ops2)).mgr = .idle) :
    Right (runs s (ops1 ++ (asked (runs s ops1) ++ [.send]) ++ ops2)) := by
  have e1 : runs s (ops1 ++ (asked (runs s ops1) ++ [.send])) = { runs s ops1 with out := (runs s ops1).out ++ [.desc (ports (runs s ops1))] } := by
    rw [runs_append, runs_answered h1.2]
  obtain ⟨post, hp1, hp2⟩ := out_grows (runs s (ops1 ++ (asked (runs s ops1) ++ [.send]))) ops2 hns
  rw [← runs_append, e1] at hp1
  have ho : (runs s (ops1 ++ (asked (runs s ops1) ++ [.send]) ++ ops2)).out = (runs s ops1).out ++ .desc (ports (runs s ops1)) :: post := by
    rw [hp1]; simp
  rw [C121_exact s hs _ hr _ post _ ho hp2]
  obtain ⟨ever1, i1⟩ := inv_runs (inv_fresh hs) ops1
  obtain ⟨ever2, i2⟩ := inv_runs (inv_fresh hs) (ops1 ++ (asked (runs s ops1) ++ [.send]) ++ ops2)
  refine ⟨fun p hp => ?_, fun p hp => ?_⟩
  · rcases i1.here p hp with e | e
    · exact e
    · rw [h1.1] at e; simp at e
  · have hd : Msg.del p ∉ (runs s ops1).out := by
      intro hc
      rcases i2.here p hp with e | e
      · exact e (by rw [ho]; simp [hc])
      · rw [hr] at e; simp at e
    have hin : p ∈ ever1 → p ∈ ports (runs s ops1) := by
      intro hc
      rcases i1.gone p hc with e | e | e
      · exact e
      · exact absurd e hd
      · rw [h1.1] at e; simp at e
    rcases i2.told p hp with e | e | e
    · exact .inl (hin (i1.start p e))
    · rw [ho] at e
      simp only [List.mem_append, List.mem_cons, reduceCtorEq, false_or] at e
      rcases e with e | e
      · exact .inl (hin (i1.msgs p (.inl e)))
      · exact .inr e
    · rw [hr] at e; simp at e

/-- Full statement: the controller knows the ports.  Whenever both threads are at rest and there is a port, it may happen next that this port is deleted and the controller
believes for ever that it is there: `del_port` announces the deletion before it removes the port. -/
theorem C121_stale_refuted (s : St) (hs : Fresh s) (ops : List Op) (h : Rest (runs s ops)) (p : PortT) (hp : p ∈ ports (runs s ops)) :
    ∃ more, Rest (runs s (ops ++ more)) ∧ p ∈ knows (runs s (ops ++ more)).out ∧ p ∉ ports (runs s (ops ++ more)) := by
  obtain ⟨ever, hi⟩ := inv_runs (inv_fresh hs) ops
  generalize ht : runs s ops = t at *
  have hf : (ports t).find? (fun q => decide (q.portNo = p.portNo)) = some p := by
    cases hq : (ports t).find? (fun q => decide (q.portNo = p.portNo)) with
    | none => exact absurd (List.find?_eq_none.1 hq p hp) (by simp)
    | some q =>
      have h1 := List.mem_of_find?_eq_some hq
      have h2 : q.portNo = p.portNo := by simpa using List.find?_some hq
      rw [hi.distinct q (hi.sub q h1) p (hi.sub p hp) h2]
  have e1 : runs t [.del p.portNo, .mgr] = { t with out := t.out ++ [.del p], mgr := .remove p } := by
    simp [runs, step, h.1, hf]
  have e2 := runs_answered (s := runs t [.del p.portNo, .mgr]) (by rw [e1]; exact h.2)
  have e3 : runs t ([.del p.portNo, .mgr] ++ (asked (runs t [.del p.portNo, .mgr]) ++ [.send]) ++ [.mgr]) =
      { t with out := t.out ++ [.del p] ++ [.desc (ports t)], slots := t.slots.map (fun e => if e = some p then none else e), mgr := .idle } := by
    rw [runs_append, runs_append, e2, e1]
    rfl
  refine ⟨[.del p.portNo, .mgr] ++ (asked (runs t [.del p.portNo, .mgr]) ++ [.send]) ++ [.mgr], ?_⟩
  rw [runs_append, ht, e3]
  refine ⟨⟨rfl, h.2⟩, ?_, ?_⟩
  · simpa [knows, learn] using hp
  · show p ∉ (t.slots.map (fun e => if e = some p then none else e)).filterMap id
    rw [filterMap_clear]
    simp

/-- A device to be added. -/
def newOne (s : St) : PortT := (Agent.newPort (s.lastNo + 1) [0, 0, 0, 0, 0, 9] [116, 97, 112] none).desc

/-- Or that a port is added and the controller does not get to know it: the description was made before and is sent after it was announced. -/
theorem C121_lost_refuted (s : St) (hs : Fresh s) (ops : List Op) (h : Rest (runs s ops)) (hl : (runs s ops).lastNo + 1 ≠ 0xfffffffe) :
    ∃ more, Rest (runs s (ops ++ more)) ∧ ∃ p ∈ ports (runs s (ops ++ more)), p ∉ knows (runs s (ops ++ more)).out := by
  obtain ⟨ever, hi⟩ := inv_runs (inv_fresh hs) ops
  generalize ht : runs s ops = t at *
  have hslots : ((t.slots ++ [some (newOne t)]).filterMap id).Perm (newOne t :: ports t) := by
    rw [List.filterMap_append]
    exact List.perm_append_singleton _ _
  have hnew : newOne t ∉ ports t := by
    intro hc
    have hno : (newOne t).portNo = t.lastNo + 1 := rfl
    rcases hi.below _ (hi.sub _ hc) with e | e
    · omega
    · rw [hno] at e; exact hl e
  have e2 := runs_asked (s := t) h.2
  have e3 : runs t (asked t ++ [.add [0, 0, 0, 0, 0, 9] [116, 97, 112], .insert (t.slots ++ [some (newOne t)]), .mgr, .send]) =
      { t with lastNo := t.lastNo + 1, slots := t.slots ++ [some (newOne t)], out := t.out ++ [.add (newOne t)] ++ [.desc (ports t)], mgr := .idle, loop := .idle } := by
    rw [runs_append, e2]
    have a1 : step { t with loop := .reply (ports t) } (.add [0, 0, 0, 0, 0, 9] [116, 97, 112]) =
        { t with loop := .reply (ports t), lastNo := t.lastNo + 1, mgr := .insert (newOne t) } := by
      simp only [step, h.1]
      rw [if_neg hl, if_pos (by decide)]
      rfl
    rw [runs, a1]
    have a2 : step { t with loop := .reply (ports t), lastNo := t.lastNo + 1, mgr := .insert (newOne t) } (.insert (t.slots ++ [some (newOne t)])) =
        { t with loop := .reply (ports t), lastNo := t.lastNo + 1, mgr := .announce (newOne t), slots := t.slots ++ [some (newOne t)] } := by
      simp only [step]
      exact if_pos hslots
    rw [runs, a2]
    rfl
  refine ⟨asked t ++ [.add [0, 0, 0, 0, 0, 9] [116, 97, 112], .insert (t.slots ++ [some (newOne t)]), .mgr, .send], ?_⟩
  rw [runs_append, ht, e3]
  refine ⟨⟨rfl, rfl⟩, newOne t, ?_, ?_⟩
  · show newOne t ∈ (t.slots ++ [some (newOne t)]).filterMap id
    simp [List.filterMap_append]
  · simpa [knows, learn] using hnew

/-! ## The end of the thread -/

/-- What a step does to the thread of the connection. -/
theorem step_loop (s : St) (op : Op) :
    (step s op).loop = s.loop ∨ (op = .request ∧ s.loop = .idle ∧ (step s op).loop = .iter (ports s).length 0 []) ∨
    (op = .next ∧ ∃ n i seen, s.loop = .iter n i seen ∧ (((ports s).length ≠ n ∧ (step s op).loop = .dead) ∨
      ((ports s).length = n ∧ ((∃ j seen', (step s op).loop = .iter n j seen') ∨ ∃ seen', (step s op).loop = .reply seen')))) ∨
    (op = .send ∧ (∃ seen, s.loop = .reply seen) ∧ (step s op).loop = .idle) := by
  cases op with
  | request =>
    simp only [step]
    split
    · rename_i e; exact .inr (.inl ⟨trivial, e, rfl⟩)
    · exact .inl rfl
  | next =>
    simp only [step]
    split
    · rename_i n i seen e
      refine .inr (.inr (.inl ⟨trivial, n, i, seen, e, ?_⟩))
      split
      · rename_i c; exact .inl ⟨c, rfl⟩
      · rename_i c
        refine .inr ⟨not_not.1 c, ?_⟩
        split
        · exact .inl ⟨_, _, rfl⟩
        · exact .inr ⟨_, rfl⟩
    · exact .inl rfl
  | send =>
    simp only [step]
    split
    · rename_i seen e; exact .inr (.inr (.inr ⟨trivial, ⟨seen, e⟩, rfl⟩))
    · exact .inl rfl
  | _ => left; simp only [step]; (repeat' split) <;> rfl

theorem torn_snoc (s : St) (ops : List Op) (op : Op) : Torn s (ops ++ [op]) ↔ Torn s ops ∨ (op = .next ∧ ∃ a b, ops = a ++ .request :: b ∧ (runs s a).loop = .idle ∧
    (∀ b' b'', b = b' ++ b'' → Looping s (a ++ .request :: b')) ∧ (ports (runs s ops)).length ≠ (ports (runs s a)).length) := by
  constructor
  · rintro ⟨a, b, c, e, h1, h2, h3⟩
    rcases List.eq_nil_or_concat c with rfl | ⟨c', x, rfl⟩
    · have e' : ops ++ [op] = (a ++ .request :: b) ++ [.next] := by simpa using e
      obtain ⟨rfl, e2⟩ := List.append_inj' e' rfl
      simp only [List.cons.injEq, and_true] at e2
      exact .inr ⟨e2, a, b, rfl, h1, h2, h3⟩
    · have e' : ops ++ [op] = (a ++ .request :: (b ++ .next :: c')) ++ [x] := by simpa using e
      exact .inl ⟨a, b, c', (List.append_inj' e' rfl).1, h1, h2, h3⟩
  · rintro (⟨a, b, c, e, h1, h2, h3⟩ | ⟨rfl, a, b, e, h1, h2, h3⟩)
    · exact ⟨a, b, c ++ [op], by simp [e], h1, h2, h3⟩
    · exact ⟨a, b, [], by simp [e], h1, h2, by rw [← e]; exact h3⟩

/-- The iterator keeps the size it was made with. -/
theorem looping_size (s : St) (a : List Op) (h1 : (runs s a).loop = .idle) (b : List Op) (h2 : ∀ b' b'', b = b' ++ b'' → Looping s (a ++ .request :: b')) :
    ∃ i seen, (runs s (a ++ .request :: b)).loop = .iter (ports (runs s a)).length i seen := by
  induction b using List.reverseRecOn with
  | nil => exact ⟨0, [], by rw [runs_append]; simp [runs, step, h1]⟩
  | append_singleton b op ih =>
    obtain ⟨i, seen, e⟩ := ih (fun b' b'' hb => h2 b' (b'' ++ [op]) (by simp [hb]))
    obtain ⟨n, j, seen', e'⟩ := h2 (b ++ [op]) [] (by simp)
    have e3 : runs s (a ++ .request :: (b ++ [op])) = step (runs s (a ++ .request :: b)) op := by
      rw [← runs_snoc]; simp
    rw [e3] at e' ⊢
    rcases step_loop (runs s (a ++ .request :: b)) op with hs | ⟨_, hs, _⟩ | ⟨_, n', i', s', hs, hh⟩ | ⟨_, ⟨_, hs⟩, _⟩
    · exact ⟨i, seen, hs.trans e⟩
    · rw [e] at hs; simp at hs
    · rw [e] at hs
      simp only [Loop.iter.injEq] at hs
      obtain ⟨rfl, rfl, rfl⟩ := hs
      rcases hh with ⟨_, hd⟩ | ⟨_, ⟨j', s'', hd⟩ | ⟨s'', hd⟩⟩
      · rw [hd] at e'; simp at e'
      · exact ⟨j', s'', hd⟩
      · rw [hd] at e'; simp at e'
    · rw [e] at hs; simp at hs

theorem torn_runs (s : St) (h : s.loop = .idle) (ops : List Op) : ((runs s ops).loop = .dead ↔ Torn s ops) ∧
    (Looping s ops → ∃ a b, ops = a ++ .request :: b ∧ (runs s a).loop = .idle ∧ ∀ b' b'', b = b' ++ b'' → Looping s (a ++ .request :: b')) := by
  induction ops using List.reverseRecOn with
  | nil => simp [runs, h, Torn, Looping]
  | append_singleton ops op ih =>
    obtain ⟨ih1, ih2⟩ := ih
    have key : Looping s ops → Looping s (ops ++ [op]) → ∃ a b, ops ++ [op] = a ++ .request :: b ∧ (runs s a).loop = .idle ∧
        ∀ b' b'', b = b' ++ b'' → Looping s (a ++ .request :: b') := by
      intro hl hl'
      obtain ⟨a, b, e, h1, h2⟩ := ih2 hl
      refine ⟨a, b ++ [op], by simp [e], h1, ?_⟩
      intro b' b'' hb
      rcases List.eq_nil_or_concat b'' with rfl | ⟨b3, x, rfl⟩
      · simp only [List.append_nil] at hb
        rw [← hb]
        have : a ++ Op.request :: (b ++ [op]) = ops ++ [op] := by simp [e]
        rw [this]; exact hl'
      · have : b ++ [op] = (b' ++ b3) ++ [x] := by simpa using hb
        exact h2 b' b3 (List.append_inj' this rfl).1
    rw [torn_snoc, runs_snoc]
    have hlater : Looping s (ops ++ [op]) ↔ ∃ n i seen, (step (runs s ops) op).loop = .iter n i seen := by unfold Looping; rw [runs_snoc]
    have noNext : (runs s ops).loop ≠ .dead → ((step (runs s ops) op).loop ≠ .dead) → ¬ (Torn s ops ∨ (op = .next ∧ ∃ a b, ops = a ++ .request :: b ∧
        (runs s a).loop = .idle ∧ (∀ b' b'', b = b' ++ b'' → Looping s (a ++ .request :: b')) ∧ (ports (runs s ops)).length ≠ (ports (runs s a)).length)) := by
      rintro hd hd' (hc | ⟨rfl, a, b, e, h1, h2, h3⟩)
      · exact hd (ih1.2 hc)
      · obtain ⟨i, seen, e'⟩ := looping_size s a h1 b h2
        rw [← e] at e'
        apply hd'
        simp [step, e', h3]
    rcases step_loop (runs s ops) op with hs | ⟨rfl, hs, hs'⟩ | ⟨rfl, n, i, seen, hs, hh⟩ | ⟨rfl, ⟨seen, hs⟩, hs'⟩
    · rw [hs]
      constructor
      · constructor
        · intro hd; exact .inl (ih1.1 hd)
        · intro hc
          by_contra hd
          exact noNext hd (by rw [hs]; exact hd) hc
      · intro hl'
        obtain ⟨n, i, seen, hl⟩ := hlater.1 hl'
        exact key ⟨n, i, seen, hs ▸ hl⟩ hl'
    · constructor
      · constructor
        · intro hd; rw [hs'] at hd; simp at hd
        · intro hc; exact absurd hc (noNext (by rw [hs]; simp) (by rw [hs']; simp))
      · intro _
        refine ⟨ops, [], rfl, hs, ?_⟩
        intro b' b'' hb
        have : b' = [] := by have := hb.symm; simp at this; exact this.1
        subst this
        exact hlater.2 ⟨_, _, _, hs'⟩
    · rcases hh with ⟨hne, hd⟩ | ⟨heq, hh⟩
      · obtain ⟨a, b, e, h1, h2⟩ := ih2 ⟨n, i, seen, hs⟩
        obtain ⟨i', seen', e'⟩ := looping_size s a h1 b h2
        rw [← e, hs] at e'
        simp only [Loop.iter.injEq] at e'
        constructor
        · exact ⟨fun _ => .inr ⟨rfl, a, b, e, h1, h2, by rw [← e'.1]; exact hne⟩, fun _ => hd⟩
        · intro hl'
          obtain ⟨_, _, _, hl⟩ := hlater.1 hl'
          rw [hd] at hl; simp at hl
      · have hnd : (step (runs s ops) .next).loop ≠ .dead := by
          rcases hh with ⟨_, _, e⟩ | ⟨_, e⟩ <;> (rw [e]; simp)
        constructor
        · exact ⟨fun hd => absurd hd hnd, fun hc => absurd hc (noNext (by rw [hs]; simp) hnd)⟩
        · exact fun hl' => key ⟨n, i, seen, hs⟩ hl'
    · constructor
      · constructor
        · intro hd; rw [hs'] at hd; simp at hd
        · intro hc; exact absurd hc (noNext (by rw [hs]; simp) (by rw [hs']; simp))
      · intro hl'
        obtain ⟨_, _, _, hl⟩ := hlater.1 hl'
        rw [hs'] at hl; simp at hl

/-- **C121, exactly when the thread of the connection ends by an exception**: if and only if, at some round of a loop over the ports, their number differs from the number
at the beginning of that loop. -/
theorem C121_dies_exact (s : St) (h : s.loop = .idle) (ops : List Op) : (runs s ops).loop = .dead ↔ Torn s ops := (torn_runs s h ops).1

/-- It may end whenever both threads are at rest: a port is added while the ports are being listed.  No request is answered any more. -/
theorem C121_dies_refuted (s : St) (h : Rest s) (hl : s.lastNo + 1 ≠ 0xfffffffe) :
    ∃ ops, ∀ more, (runs s (ops ++ more)).loop = .dead ∧ ∀ l, Msg.desc l ∈ (runs s (ops ++ more)).out → Msg.desc l ∈ s.out := by
  have hslots : ((s.slots ++ [some (newOne s)]).filterMap id).Perm (newOne s :: ports s) := by
    rw [List.filterMap_append]
    exact List.perm_append_singleton _ _
  have e : runs s [.request, .add [0, 0, 0, 0, 0, 9] [116, 97, 112], .insert (s.slots ++ [some (newOne s)]), .next] =
      { s with lastNo := s.lastNo + 1, slots := s.slots ++ [some (newOne s)], mgr := .announce (newOne s), loop := .dead } := by
    have a0 : step s .request = { s with loop := .iter (ports s).length 0 [] } := by simp [step, h.2]
    have a1 : step { s with loop := .iter (ports s).length 0 [] } (.add [0, 0, 0, 0, 0, 9] [116, 97, 112]) =
        { s with loop := .iter (ports s).length 0 [], lastNo := s.lastNo + 1, mgr := .insert (newOne s) } := by
      simp only [step, h.1]
      rw [if_neg hl, if_pos (by decide)]
      rfl
    have a2 : step { s with loop := .iter (ports s).length 0 [], lastNo := s.lastNo + 1, mgr := .insert (newOne s) } (.insert (s.slots ++ [some (newOne s)])) =
        { s with loop := .iter (ports s).length 0 [], lastNo := s.lastNo + 1, mgr := .announce (newOne s), slots := s.slots ++ [some (newOne s)] } := by
      simp only [step]
      exact if_pos hslots
    rw [runs, a0, runs, a1, runs, a2]
    simp [runs, step, ports, List.filterMap_append]
  have hdead : ∀ (more : List Op) (t : St), t.loop = .dead → (runs t more).loop = .dead ∧ ∀ l, Msg.desc l ∈ (runs t more).out → Msg.desc l ∈ t.out := by
    intro more
    induction more with
    | nil => intro t ht; exact ⟨ht, fun l hl => hl⟩
    | cons op more ih =>
      intro t ht
      have h1 : (step t op).loop = .dead := by
        rcases step_loop t op with hs | ⟨_, hs, _⟩ | ⟨_, _, _, _, hs, _⟩ | ⟨_, ⟨_, hs⟩, _⟩
        · exact hs.trans ht
        · rw [ht] at hs; simp at hs
        · rw [ht] at hs; simp at hs
        · rw [ht] at hs; simp at hs
      have h2 : ∀ l, Msg.desc l ∈ (step t op).out → Msg.desc l ∈ t.out := by
        intro l hl
        by_cases hop : op = .send
        · subst hop; simpa [step, ht] using hl
        · obtain ⟨ms, h3, h4⟩ := out_grows t [op] (by simpa using fun h => hop h.symm)
          have h3 : (step t op).out = t.out ++ ms := h3
          rw [h3] at hl
          rcases List.mem_append.1 hl with e | e
          · exact e
          · exact absurd e (h4 l)
      obtain ⟨g1, g2⟩ := ih (step t op) h1
      exact ⟨g1, fun l hl => h2 l (g2 l hl)⟩
  refine ⟨[.request, .add [0, 0, 0, 0, 0, 9] [116, 97, 112], .insert (s.slots ++ [some (newOne s)]), .next], fun more => ?_⟩
  rw [runs_append, e]
  exact hdead more _ rfl

/-! ## One after the other -/

/-- **C121, the link to the sequential model**: a call of `add_port` that is not interrupted does what `Agent.addPort` does, to the table and to the controller. -/
theorem C121_add_serial (st : Agent.St) (s : St) (hp : (st.ports.map (fun e => e.2.desc)).Perm (ports s)) (hl : st.lastNo = s.lastNo) (hr : s.mgr = .idle)
    (hk : ∀ e ∈ st.ports, e.1 ≠ st.lastNo + 1) (hmax : st.lastNo + 1 ≠ 0xfffffffe) (rnd : Nat) (dev mac hw : Bytes) (sock : Option Nat)
    (hhw : Agent.a2bHex (mac.take 12) = .ok hw) (h6 : hw.length = 6) (h16 : dev.length ≤ 16) :
    let r := Agent.addPort rnd st dev mac true (some sock)
    let p := (Agent.newPort (st.lastNo + 1) hw dev sock).desc
    ∃ slots, let t := runs s [.add hw dev, .insert slots, .mgr]
      (r.1.ports.map (fun e => e.2.desc)).Perm (ports t) ∧ r.1.lastNo = t.lastNo ∧ t.mgr = .idle ∧ t.out = s.out ++ [.add p] ∧
      ∀ m, Agent.statusMsg rnd 0 p = .ok m → r.2.1 = [.send m] := by
  intro r p
  have hpp : (Agent.newPort (s.lastNo + 1) hw dev none).desc = p := by simp only [p, hl]; rfl
  refine ⟨s.slots ++ [some p], ?_⟩
  intro t
  have hslots : ((s.slots ++ [some p]).filterMap id).Perm (p :: ports s) := by
    rw [List.filterMap_append]
    exact List.perm_append_singleton _ _
  have ht : t = { s with lastNo := s.lastNo + 1, slots := s.slots ++ [some p], out := s.out ++ [.add p], mgr := .idle } := by
    have a1 : step s (.add hw dev) = { s with lastNo := s.lastNo + 1, mgr := .insert p } := by
      simp only [step, hr]
      rw [if_neg (by rw [← hl]; exact hmax), if_pos ⟨h6, h16⟩, hpp]
    have a2 : step { s with lastNo := s.lastNo + 1, mgr := .insert p } (.insert (s.slots ++ [some p])) =
        { s with lastNo := s.lastNo + 1, mgr := .announce p, slots := s.slots ++ [some p] } := by
      simp only [step]
      exact if_pos hslots
    simp only [t, runs, a1, a2]
    rfl
  have hany : st.ports.any (fun e => e.1 == st.lastNo + 1) = false := by
    simp only [List.any_eq_false, beq_iff_eq]
    exact hk
  have hports : r.1.ports = st.ports ++ [(st.lastNo + 1, Agent.newPort (st.lastNo + 1) hw dev sock)] ∧ r.1.lastNo = st.lastNo + 1 ∧
      ∀ m, Agent.statusMsg rnd 0 p = .ok m → r.2.1 = [.send m] := by
    simp only [r, Agent.addPort, if_neg hmax, hhw, Bool.true_eq_false, if_false, Agent.put, hany]
    split
    · rename_i e he
      refine ⟨rfl, rfl, fun m hm => ?_⟩
      have he : Agent.statusMsg rnd 0 p = .error e := he
      rw [he] at hm; cases hm
    · rename_i m he
      refine ⟨rfl, rfl, fun m' hm => ?_⟩
      have he : Agent.statusMsg rnd 0 p = .ok m := he
      rw [he] at hm; cases hm; rfl
  obtain ⟨q1, q2, q3⟩ := hports
  rw [ht, q1]
  refine ⟨?_, by rw [q2, hl], rfl, rfl, q3⟩
  show List.Perm _ ((s.slots ++ [some p]).filterMap id)
  rw [List.map_append, List.filterMap_append]
  exact List.Perm.append_right _ hp

/-- And so does a call of `del_port`. -/
theorem C121_del_serial (st : Agent.St) (htidy : Agent.Tidy st) (s : St) (hp : (st.ports.map (fun e => e.2.desc)).Perm (ports s)) (hr : s.mgr = .idle)
    (o : Agent.Order) (rnd : Nat) (dev : Bytes) (no : Nat) (q : Agent.OfPort) (hf : (o.items st.ports).find? (fun e => e.2.desc.name = .str dev) = some (no, q))
    (m : Bytes) (hm : Agent.statusMsg rnd 1 q.desc = .ok m) :
    let r := Agent.delPort o rnd st dev true
    let t := runs s [.del no, .mgr, .mgr]
    (r.1.ports.map (fun e => e.2.desc)).Perm (ports t) ∧ t.mgr = .idle ∧ t.out = s.out ++ [.del q.desc] ∧ r.2.1 = [.send m] := by
  intro r t
  have hin : (no, q) ∈ st.ports := (o.perm st.ports).mem_iff.1 (List.mem_of_find?_eq_some hf)
  have huniq : ∀ e ∈ st.ports, e.1 = no → e = (no, q) := by
    intro e he hno
    exact List.inj_on_of_nodup_map htidy.keys he hin hno
  have hqno : q.desc.portNo = no := htidy.own _ hin
  have hfind : (ports s).find? (fun p => decide (p.portNo = no)) = some q.desc := by
    have hq : q.desc ∈ ports s := hp.mem_iff.1 (List.mem_map.2 ⟨_, hin, rfl⟩)
    cases hc : (ports s).find? (fun p => decide (p.portNo = no)) with
    | none => exact absurd (List.find?_eq_none.1 hc _ hq) (by simp [hqno])
    | some p =>
      have h1 := List.mem_of_find?_eq_some hc
      have h2 : p.portNo = no := by simpa using List.find?_some hc
      obtain ⟨e, he, rfl⟩ := List.mem_map.1 (hp.mem_iff.2 h1)
      have : e = (no, q) := huniq e he (by rw [← htidy.own e he]; exact h2)
      rw [this]
  have ht : t = { s with slots := s.slots.map (fun e => if e = some q.desc then none else e), out := s.out ++ [.del q.desc], mgr := .idle } := by
    simp [t, runs, step, hr, hfind]
  have hr' : r = ({ st with ports := Agent.del st.ports no }, [.send m], .ok (.deleted no)) := by
    simp [r, Agent.delPort, hf, hm]
  rw [ht, hr']
  refine ⟨?_, rfl, rfl, rfl⟩
  show ((Agent.del st.ports no).map (fun e => e.2.desc)).Perm ((s.slots.map (fun e => if e = some q.desc then none else e)).filterMap id)
  rw [filterMap_clear]
  have e : (Agent.del st.ports no).map (fun e => e.2.desc) = (st.ports.map (fun e => e.2.desc)).filter (fun p => decide (p ≠ q.desc)) := by
    rw [List.filter_map, Agent.del]
    congr 1
    apply List.filter_congr
    intro x hx
    have : x.1 = no ↔ x.2.desc = q.desc := by
      constructor
      · intro hno; rw [huniq x hx hno]
      · intro hd; rw [← htidy.own x hx, hd]; exact hqno
    simp only [Function.comp, bne]
    by_cases c : x.1 = no
    · simp [c, this.1 c]
    · have : ¬ x.2.desc = q.desc := fun h => c (this.2 h)
      simp [c, this]
  rw [e]
  exact hp.filter _

/-! ## The hypotheses can be met -/

/-- The table at the start: L30-34 of bess_of_agent.py, in a table of eight slots. -/
def exStart : St where
  slots := ((Agent.start none none).ports.map (fun e => some e.2.desc)) ++ [none, none, none, none, none]
  lastNo := 2
  mgr := .idle
  loop := .idle
  out := []

example : Fresh exStart := by
  refine ⟨by decide +kernel, by decide +kernel, by decide +kernel, by decide, ⟨rfl, rfl⟩, rfl⟩

example : Right (runs exStart ([] ++ (asked (runs exStart []) ++ [.send]) ++
    [.add [0, 0, 0, 0, 0, 9] [116, 97, 112], .insert (exStart.slots ++ [some (newOne exStart)]), .mgr, .del 1, .mgr, .mgr])) :=
  C121_partial exStart ⟨by decide +kernel, by decide +kernel, by decide +kernel, by decide, ⟨rfl, rfl⟩, rfl⟩ [] _ ⟨rfl, rfl⟩ (by decide) (by decide +kernel)

end Twink.Race
