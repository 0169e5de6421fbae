import Verif.Proof.CordFlows
import Verif.Proof.CordUnique

/-! More about the graphs, for `Verif.Props.Cord`. -/

namespace Twink.Cord
open OfpTuple Spec

/-- Where packets may go, and in what shape. -/
def Sane (p : Packet) (x : Verdict × Packet) : Prop :=
  (∀ n, x.1 = .out n → n = 1 ∨ n = 2 ∨ n = 3 ∨ n = 4) ∧
  (x.1 = .out 1 → x.2.md .tunDst = [1, 1, 1, 2] ∧ (x.2.md .tunId = [12, 4, 0, 0] ∨ x.2.md .tunId = [6, 4, 0, 0])) ∧
  (x.1 = .local ∨ x.1 = .controller → x.2 = p)

theorem sane_drop (p r : Packet) : Sane p (.drop, r) := by simp [Sane]

theorem sane_after {F : Nat → Packet → Verdict × Packet} {p : Packet} {r : Option Nat × Packet} (h : ∀ g, Sane p (F g p)) (hr : r.2 = p) :
    Sane p (after F r) := by
  unfold after
  split
  · rw [hr]; exact h _
  · exact sane_drop _ _

theorem sane_encap (e : Env) (p r : Packet) (id : Bytes) (h : id = [12, 4, 0, 0] ∨ id = [6, 4, 0, 0]) : Sane p (encapF e (tun id r)) := by
  refine ⟨?_, ?_, ?_⟩
  · intro n hn
    simp only [encapF, Verdict.out.injEq] at hn
    exact .inl hn.symm
  · intro _
    simp [encapF, tun, h]
  · simp [encapF]

theorem sane_grp (e : Env) (p : Packet) : Sane p (grpF e p) := by
  unfold grpF
  split
  · exact sane_encap _ _ _ _ (.inl rfl)
  · simp [Sane]

theorem sane_4 (e : Env) (p : Packet) : Sane p (t4F e p) := by
  refine sane_after (fun g => ?_) (by rw [pass4])
  unfold F4
  split
  · simp [Sane]
  · exact sane_encap _ _ _ _ (.inl rfl)
  · exact sane_encap _ _ _ _ (.inr rfl)
  · simp [Sane]
  · exact sane_drop _ _

theorem sane_2 (e : Env) (p : Packet) : Sane p (t2F e p) := by
  refine sane_after (fun g => ?_) (by rw [pass2])
  unfold F2
  split
  · simp [Sane]
  · exact sane_grp e p
  · exact sane_4 e p
  · exact sane_drop _ _

theorem sane_1 (e : Env) (m3 : Mod) (h3 : (e.pass m3 p).2 = p) : Sane p (t1F e m3 p) := by
  refine sane_after (fun g => ?_) (by rw [pass1])
  unfold F1
  split
  · refine sane_after (fun g => ?_) (by rw [pass5])
    unfold F5
    split <;> simp [Sane]
  · exact sane_4 e p
  · exact sane_2 e p
  · refine sane_after (fun g => ?_) h3
    unfold F3
    split
    · exact sane_grp e p
    · exact sane_drop _ _
  · exact sane_drop _ _

theorem sane_df (e : Env) (m3 : Mod) (h3 : (e.pass m3 p).2 = p) : Sane p (dfF e m3 p) := by
  refine sane_after (fun g => ?_) (by rw [passDf])
  unfold FDf
  split
  · exact sane_1 e m3 h3
  · simp [Sane]
  · exact sane_drop _ _

theorem sane_net (e : Env) (mi m3 : Mod) (p : Packet) (hi : (e.pass mi p).2 = p) (h3 : (e.pass m3 p).2 = p) : Sane p (netF e mi m3 p) := by
  refine sane_after (fun g => ?_) (by rw [pass0])
  unfold F0
  split
  · refine sane_after (fun g => ?_) hi
    unfold FIn
    split
    · exact sane_df e m3 h3
    · refine sane_after (fun g => ?_) (by rw [passP2])
      unfold FP2
      split
      · exact sane_df e m3 h3
      · simp [Sane]
      · exact sane_drop _ _
    · simp [Sane]
    · exact sane_drop _ _
  · refine sane_after (fun g => ?_) (by rw [pass6])
    unfold F6
    split <;> simp [Sane]
  · exact sane_drop _ _

/-! The results of both graphs -/

def bessF (e : Env) : Packet → Verdict × Packet := netF e (modIn [] (some 0)) (mod3 [([.int 3], 1)])
def pyF (e : Env) : Packet → Verdict × Packet := netF e (modIn [([.int 3], 1)] none) (mod3 [])

theorem bess_sees (e : Env) (k : Nat) (p : Packet) : bessNet.sees e (k + 13) .t0_start p = some (bessF e p) := bess_acts e k p
theorem py_sees (e : Env) (k : Nat) (p : Packet) : pyNet.sees e (k + 13) .t0_start p = some (pyF e p) := py_acts e k p

theorem sane_bess (e : Env) (p : Packet) : Sane p (bessF e p) := sane_net e _ _ p (by rw [passIn]) (by rw [pass3])
theorem sane_py (e : Env) (p : Packet) : Sane p (pyF e p) := sane_net e _ _ p (by rw [passIn3]) (by rw [pass3'])

theorem t3_same (e : Env) (p : Packet) (h : p.md .inPort ≠ [3]) : t3F e (mod3 [([.int 3], 1)]) p = t3F e (mod3 []) p := by
  simp only [t3F, pass3, pass3', beq_no h]
  rfl

theorem t1_same (e : Env) (p : Packet) (h : p.md .inPort ≠ [3]) : t1F e (mod3 [([.int 3], 1)]) p = t1F e (mod3 []) p := by
  simp only [t1F, pass1, after]
  generalize (if portOf p = [1] then 0 else if portOf p = [2] then 1 else if portOf p = [3] ∧ srcOf e p = [10, 10, 10, 3] then 2
      else if portOf p = [4] ∧ srcOf e p = [10, 10, 12, 3] then 2 else if portOf p = [3] then 3 else 4) = g
  unfold F1
  split <;> first | rfl | exact t3_same e p h

theorem df_same (e : Env) (p : Packet) (h : p.md .inPort ≠ [3]) : dfF e (mod3 [([.int 3], 1)]) p = dfF e (mod3 []) p := by
  simp only [dfF, passDf, after]
  cases forController p.data with
  | true => rfl
  | false => exact t1_same e p h

theorem same_of_none (e : Env) (p : Packet) (h : e.dflt = none) : pyF e p = bessF e p := by
  simp only [pyF, bessF, netF, pass0, h, after]
  cases deiTagged e p <;> rfl

theorem same_of_port (e : Env) (p : Packet) (h : e.dflt = some 0) (hp : p.md .inPort ≠ [3]) : pyF e p = bessF e p := by
  simp only [pyF, bessF, netF, pass0, h, after]
  cases deiTagged e p with
  | true => rfl
  | false =>
    show inF e (modIn [([.int 3], 1)] none) (mod3 []) p = inF e (modIn [] (some 0)) (mod3 [([.int 3], 1)]) p
    simp only [inF, passIn, passIn3, beq_no hp, Bool.or_false, h]
    cases p.md .inPort == [2] with
    | true =>
      show p2F e _ p = p2F e _ p
      simp only [p2F, passP2, after]
      cases forLocal p.data with
      | true => rfl
      | false => exact (df_same e p hp).symm
    | false =>
      cases p.md .inPort == [101] with
      | true => rfl
      | false => exact (df_same e p hp).symm

/-! Paths through the graphs -/

section
variable {e : Env} {p : Packet} (hd : e.dflt = some 0) (h0 : deiTagged e p = false)
include hd h0

theorem bess_2 (hp : p.md .inPort = [2]) : bessF e p = bif forLocal p.data then (.local, p) else bif forController p.data then (.controller, p) else t4F e p := by
  simp only [bessF, netF, pass0, h0, hd, after, cond_false]
  show inF e _ _ p = _
  simp only [inF, passIn, hp]
  show p2F e _ p = _
  simp only [p2F, passP2, after]
  cases forLocal p.data with
  | true => rfl
  | false =>
    show dfF e _ p = _
    simp only [dfF, passDf, after]
    cases forController p.data with
    | true => rfl
    | false =>
      show t1F e _ p = _
      simp only [t1F, pass1, after, portOf, hp]
      rfl

theorem bess_1 (hp : p.md .inPort = [1]) : bessF e p = bif forController p.data then (.controller, p) else t5F e p := by
  simp only [bessF, netF, pass0, h0, hd, after, cond_false]
  show inF e _ _ p = _
  simp only [inF, passIn, hp]
  show dfF e _ p = _
  simp only [dfF, passDf, after]
  cases forController p.data with
  | true => rfl
  | false =>
    show t1F e _ p = _
    simp only [t1F, pass1, after, portOf, hp]
    rfl

theorem bess_101 (hp : p.md .inPort = [101]) : bessF e p = (.out 2, p) := by
  simp only [bessF, netF, pass0, h0, hd, after, cond_false]
  show inF e _ _ p = _
  simp only [inF, passIn, hp]
  rfl

theorem bess_3 (hp : p.md .inPort = [3]) : bessF e p = bif forController p.data then (.controller, p)
    else if srcOf e p = [10, 10, 10, 3] then t2F e p else grpF e p := by
  simp only [bessF, netF, pass0, h0, hd, after, cond_false]
  show inF e _ _ p = _
  simp only [inF, passIn, hp]
  show dfF e _ p = _
  simp only [dfF, passDf, after]
  cases forController p.data with
  | true => rfl
  | false =>
    show t1F e _ p = _
    simp only [t1F, pass1, after, portOf, hp]
    by_cases c : srcOf e p = [10, 10, 10, 3]
    · simp only [c]; rfl
    · simp only [c]
      show t3F e _ p = _
      simp only [t3F, pass3, hp]
      rfl

theorem py_3 (hp : p.md .inPort = [3]) : pyF e p = bif forLocal p.data then (.local, p) else bif forController p.data then (.controller, p)
    else if srcOf e p = [10, 10, 10, 3] then t2F e p else (.drop, p) := by
  simp only [pyF, netF, pass0, h0, hd, after, cond_false]
  show inF e _ _ p = _
  simp only [inF, passIn3, hp]
  show p2F e _ p = _
  simp only [p2F, passP2, after]
  cases forLocal p.data with
  | true => rfl
  | false =>
    show dfF e _ p = _
    simp only [dfF, passDf, after]
    cases forController p.data with
    | true => rfl
    | false =>
      show t1F e _ p = _
      simp only [t1F, pass1, after, portOf, hp]
      by_cases c : srcOf e p = [10, 10, 10, 3]
      · simp only [c]; rfl
      · simp only [c]
        show t3F e _ p = _
        simp only [t3F, pass3']
        rfl

end

theorem drop_none {e : Env} {p : Packet} (hd : e.dflt = none) (h0 : deiTagged e p = false) : bessF e p = (.drop, p) ∧ pyF e p = (.drop, p) := by
  simp only [bessF, pyF, netF, pass0, h0, hd, after, cond_false, and_self]

theorem tag_controller {f : Frame} {t : Tag} (ht : f.tag = some t) (hg : f.Good) : forController f.bytes = false := by
  have h1 := (tag_type ht hg).1
  simp [forController, holds, Prim.shift, Prim.holds, h1]

/-- What the entries say of a tagged frame. -/
theorem does_tag {q : Pkt} {t : Tag} (ht : q.frame.tag = some t) :
    (t.vid = 500 → q.frame.body.type ≠ 0x0806 → Does [.goto 0] q (.out 2) { q with frame := { q.frame with tag := none } }) ∧
    (t.vid ≠ 500 → Does [.goto 0] q .drop q) := by
  have kv : ∀ n, (q.frame.key n).dlVlan = some t.vid := by
    intro n; simp only [Frame.key, ht]; split <;> rfl
  have kt : ∀ n, (q.frame.key n).dlType = q.frame.body.type := by
    intro n; simp only [Frame.key]; split <;> rfl
  have hs : Selects 0 q ⟨55000, { tagged := true }, [.goto 6]⟩ := ⟨by simp [table], by simp [Match.Holds, ht], by simp [table]⟩
  constructor
  · intro c1 c2
    refine .entry _ hs (.entry (f := ⟨5000, { vlan := some 500 }, [.popVlan, .output 2]⟩) _
      ⟨by simp [table], by simp [Match.Holds, kv, c1], by simp [table, Match.Holds, kt, c2, arpType]⟩ (.popVlan (.output _ _ _)))
  · intro c
    exact .entry _ hs (.miss _ (by simp [table, Match.Holds, kv, c]))

/-- What the entries say of other frames from port 2. -/
theorem does_2 {q : Pkt} (ht : q.frame.tag = none) (hp : q.inPort = 2) (v : Verdict) (q' : Pkt)
    (k1 : ∀ n, (q.frame.key n).dlType ≠ 0x0806 ∧ (q.frame.key n).dlType ≠ 0x88cc ∧ (q.frame.key n).dlType ≠ 0x8942)
    (k2 : ∀ n, (q.frame.key n).dlType = 0x0800 → ∀ a, (q.frame.key n).nwDst = some a → ¬ [1, 1, 1, 1] <+: a)
    (k3 : ∀ n, (q.frame.key n).nwProto = some 17 → (q.frame.key n).tpDst ≠ some 4789)
    (k4 : ∀ n, (q.frame.key n).nwProto = some 17 → (q.frame.key n).tpSrc = some 68 → (q.frame.key n).tpDst ≠ some 67)
    (h4 : Does [.goto 4] q v q') : Does [.goto 0] q v q' := by
  refine .entry (f := ⟨0, {}, [.goto 1]⟩) _ ⟨by simp [table], by simp [Match.Holds], ?_⟩
    (.entry (f := ⟨5000, { inPort := some 2 }, [.goto 4]⟩) _ ⟨by simp [table], by simp [Match.Holds, hp], by simp [table]⟩ h4)
  intro f hf hh
  simp only [table, List.mem_cons, List.not_mem_nil, or_false] at hf
  rcases hf with rfl | rfl | rfl | rfl | rfl | rfl | rfl | rfl | rfl | rfl <;> simp only [Match.Holds] at hh
  · exact absurd ht (hh.2.1 trivial)
  · have := hh.1 _ rfl; omega
  · obtain ⟨a, a1, a2⟩ := hh.2.2.2.2.2.2.2.1 _ rfl
    exact absurd a2 (k2 _ (hh.2.2.2.1 _ rfl) a a1)
  · exact absurd (hh.2.2.2.1 _ rfl) (k1 _).1
  · exact absurd (hh.2.2.2.2.2.2.2.2.2.1 _ rfl) (k3 _ (hh.2.2.2.2.2.1 _ rfl))
  · exact absurd (hh.2.2.2.2.2.2.2.2.2.1 _ rfl) (k4 _ (hh.2.2.2.2.2.1 _ rfl) (hh.2.2.2.2.2.2.2.2.1 _ rfl))
  · exact absurd (hh.2.2.2.1 _ rfl) (k1 _).2.1
  · exact absurd (hh.2.2.2.1 _ rfl) (k1 _).2.2
  · exact absurd (hh.2.2.2.1 _ rfl) (k1 _).1
  · simp

/-- Of another type: dropped. -/
theorem does_2_other {q : Pkt} (hg : q.frame.Good) (ht : q.frame.tag = none) (hp : q.inPort = 2) {t : Nat} {b : Bytes} (hb : q.frame.body = .other t b)
    (h1 : t ≠ 0x88cc) (h2 : t ≠ 0x8942) : Does [.goto 0] q .drop q := by
  have kt : t ≠ 0x0800 ∧ t ≠ 0x0806 := by
    have := hg.2.2.2
    simp only [hb] at this
    exact ⟨this.2.2.1, this.2.2.2.1⟩
  have K := fun n => other_key hb n
  refine does_2 ht hp _ _ (fun n => by rw [(K n).1]; exact ⟨kt.2, h1, h2⟩) (fun n hh => by rw [(K n).1] at hh; exact absurd hh kt.1)
    (fun n hh => by rw [(K n).2.2.2] at hh; cases hh) (fun n hh => by rw [(K n).2.2.2] at hh; cases hh) (.miss _ ?_)
  simp [table, Match.Holds, (K _).1, kt, ipType]

theorem only {q q1 : Pkt} {v : Verdict} (h : Does [.goto 0] q v q1) (hv : v ≠ .out 1 ∧ v ≠ .out 4) : ∀ v' q', Does [.goto 0] q v' q' → v' = v := by
  intro v' q' h'
  rcases does_unique h h' with hh | hh
  · exact hh.1.symm
  · rcases hh.1 with hh | hh
    · exact absurd hh hv.1
    · exact absurd hh hv.2

end Twink.Cord
