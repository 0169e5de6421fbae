import Verif.Proof.CordFrames

/-! The graph of the .bess file against the flow entries. -/

namespace Twink.Cord
open OfpTuple Spec

theorem Right.entry {x : Verdict × Packet} {t : Nat} {q : Pkt} {f : Flow} (h : Right x f.acts q) (hs : Selects t q f) : Right x [.goto t] q := by
  obtain ⟨q', h1, h2⟩ := h
  exact ⟨q', .entry _ hs h1, h2⟩

theorem enc40c : (encBE 4 0x40c).reverse = [12, 4, 0, 0] := by decide

theorem enc406 : (encBE 4 0x406).reverse = [6, 4, 0, 0] := by decide

section
variable {p : Packet} {q : Pkt} (h : Carries p q)
include h

theorem Carries.is (n : Nat) (hn : n < 256) : p.md .inPort = [UInt8.ofNat n] ↔ q.inPort = n := by
  rw [h.port, List.cons.injEq, byte_eq h.small hn]
  simp

theorem Carries.portOf (n : Nat) (hn : n < 256) : portOf p = [UInt8.ofNat n] ↔ q.inPort = n := by
  rw [Cord.portOf, h.port]
  rw [show List.take 1 [UInt8.ofNat q.inPort] = [UInt8.ofNat q.inPort] from rfl, List.cons.injEq, byte_eq h.small hn]
  simp

theorem right_drop {l : List Act} (hl : Does l q .drop q) : Right (.drop, p) l q :=
  ⟨q, hl, h.tunId, h.tunDst, fun _ => h.data⟩

theorem right_same {l : List Act} {v : Verdict} (hl : Does l q v q) : Right (v, p) l q :=
  ⟨q, hl, h.tunId, h.tunDst, fun _ => h.data⟩

theorem right_grp (e : Env) (h1 : q.inPort ≠ 1) : Right (grpF e p) [.group] q := by
  unfold grpF
  split
  · refine ⟨_, .group (b := [.setEthDst [0xfa, 0x16, 0x3e, 0xf3, 0x5e, 0x82], .setTunDst [1, 1, 1, 2], .setTunId 0x40c, .output 1]) _ (by simp [buckets])
      (.setEthDst _ (.setTunDst _ (.setTunId _ (.output _ _ _)))), by simp [encapF, tun, enc40c], by simp [encapF, tun], ?_⟩
    simp [h1, encapF]
  · refine ⟨_, .group (b := [.setEthDst [0xfa, 0x16, 0x3e, 0xcf, 0xf2, 0x56], .output 4]) _ (by simp [buckets])
      (.setEthDst _ (.output _ _ _)), h.tunId, h.tunDst, ?_⟩
    simp [h1]

theorem right_3 (e : Env) (h1 : q.inPort ≠ 1) : Right (t3F e (mod3 [([.int 3], 1)]) p) [.goto 3] q := by
  simp only [t3F, pass3, after]
  by_cases hp : q.inPort = 3
  · rw [show (p.md .inPort == [3]) = true by simpa using (h.is 3 (by omega)).2 hp]
    refine (right_grp h e h1).entry (f := ⟨5000, { inPort := some 3 }, [.group]⟩) ⟨by simp [table], by simp [Match.Holds, hp], by simp [table]⟩
  · rw [show (p.md .inPort == [3]) = false from beq_no (fun hh => hp ((h.is 3 (by omega)).1 hh))]
    refine right_drop h (.miss _ ?_)
    simp [table, Match.Holds, hp]

theorem right_5 (e : Env) (hd : q.frame.dst.length = 6) : Right (t5F e p) [.goto 5] q := by
  have hk : (q.frame.key (some q.inPort)).dlDst = q.frame.dst := by
    simp only [Frame.key]
    split <;> rfl
  have hm : e.read p.data 0 6 = q.frame.dst := by
    obtain ⟨_, _, _, _, _, _, h2⟩ := len6 hd
    rw [h.data]
    simp only [Frame.bytes, h2]
    rfl
  have ht : ∀ n, n < 2 ^ 32 → (p.md .tunId = (encBE 4 n).reverse ↔ q.tunId = n) := by
    intro n hn
    rw [h.tunId]
    constructor
    · intro hh
      have := congrArg decBE (List.reverse_inj.1 hh)
      rwa [decBE_encBE 4 _ h.smallId, decBE_encBE 4 _ hn] at this
    · intro hh; rw [hh]
  have t1 : p.md .tunId = [6, 4, 0, 0] ↔ q.tunId = 0x406 := ht 0x406 (by omega)
  have t2 : p.md .tunId = [12, 4, 0, 0] ↔ q.tunId = 0x40c := ht 0x40c (by omega)
  simp only [t5F, pass5, after, hm, t1, t2]
  by_cases c1 : q.tunId = 0x406 ∧ q.frame.dst = [0xfa, 0x16, 0x3e, 0x3e, 0x82, 0xe8]
  · rw [if_pos c1]
    exact (right_same (v := .out 3) (l := [.output 3]) h (.output _ _ _)).entry
      (f := ⟨5000, { tunId := some 0x406, dlDst := some [0xfa, 0x16, 0x3e, 0x3e, 0x82, 0xe8] }, [.output 3]⟩)
      ⟨by simp [table], by simp [Match.Holds, hk, c1], by simp [table]⟩
  rw [if_neg c1]
  by_cases c2 : q.tunId = 0x40c ∧ q.frame.dst = [0xfa, 0x16, 0x3e, 0xcf, 0xf2, 0x56]
  · rw [if_pos c2]
    exact (right_same (v := .out 4) (l := [.output 4]) h (.output _ _ _)).entry
      (f := ⟨5000, { tunId := some 0x40c, dlDst := some [0xfa, 0x16, 0x3e, 0xcf, 0xf2, 0x56] }, [.output 4]⟩)
      ⟨by simp [table], by simp [Match.Holds, hk, c2], by simp [table]⟩
  rw [if_neg c2]
  refine right_drop h (.miss _ ?_)
  intro f hf hh
  simp only [table, List.mem_cons, List.not_mem_nil, or_false] at hf
  rcases hf with rfl | rfl
  · simp only [Match.Holds, hk] at hh
    exact c1 ⟨hh.2.2.2.2.2.2.2.2.2.2 _ rfl, hh.2.2.2.2.1 _ rfl⟩
  · simp only [Match.Holds, hk] at hh
    exact c2 ⟨hh.2.2.2.2.2.2.2.2.2.2 _ rfl, hh.2.2.2.2.1 _ rfl⟩

end

/-- The fields of an IPv4 frame that count. -/
theorem ip_key {f : Frame} {src dst : Bytes} {frag : Nat} {l4 : L4} (h : IsIp f src dst frag l4) (n : Option Nat) :
    (f.key n).dlType = 0x0800 ∧ (f.key n).dlVlan = none ∧ (f.key n).nwSrc = some src ∧ (f.key n).nwDst = some dst ∧ (f.key n).nwProto = some l4.proto ∧
      (f.key n).tpSrc = (if Fragment frag then l4.src.map fun _ => 0 else l4.src) ∧
      (f.key n).tpDst = (if Fragment frag then l4.dst.map fun _ => 0 else l4.dst) := by
  obtain ⟨ht, _, _, _, _, _, _, hb⟩ := h
  simp [Frame.key, hb, ht, Body.type]

theorem prefix4 {a b : Bytes} (ha : a.length = 4) (hb : b.length = 4) : b <+: a ↔ a = b :=
  ⟨fun h => (h.eq_of_length (by omega)).symm, fun h => by rw [h]; exact List.prefix_refl _⟩

theorem prefix3 {a b : Bytes} (hb : b.length = 3) : b <+: a ↔ a.take 3 = b := by
  rw [List.prefix_iff_eq_take, hb]
  exact eq_comm

section
variable {p : Packet} {q : Pkt} (h : Carries p q) {src dst : Bytes} {frag : Nat} {l4 : L4} (hi : IsIp q.frame src dst frag l4) (hg : q.frame.Good)
include h hi hg

theorem right_4 (e : Env) (hd : e.dflt = some 0 ∨ e.dflt = none) (h1 : q.inPort ≠ 1) : Right (t4F e p) [.goto 4] q := by
  obtain ⟨k1, k2, k3, k4, k5, k6, k7⟩ := ip_key hi (some q.inPort)
  have hf := (ip_fields hi hg e p h.data).2
  have hl : dst.length = 4 := by
    obtain ⟨_, _, _, _, _, _, _, hb⟩ := hi
    have := hg.2.2.2
    simp only [hb] at this
    exact this.2.2.2.2.2.2.2.1
  simp only [t4F, pass4, hf]
  by_cases c1 : dst = [10, 10, 12, 3]
  · rw [if_pos c1]
    refine Right.entry (f := ⟨5000, { dlType := some ipType, nwDst := some [10, 10, 12, 3] },
      [.setEthDst [0xfa, 0x16, 0x3e, 0xcf, 0xf2, 0x56], .output 4]⟩) ⟨_, .setEthDst _ (.output _ _ _), h.tunId, h.tunDst, ?_⟩
      ⟨by simp [table], by simp [Match.Holds, k1, k4, c1, ipType], by simp [table]⟩
    simp [after, F4, h1]
  rw [if_neg c1]
  by_cases c2 : dst = [10, 10, 12, 2]
  · rw [if_pos c2]
    refine Right.entry (f := ⟨5000, { dlType := some ipType, nwDst := some [10, 10, 12, 2] },
      [.setEthDst [0xfa, 0x16, 0x3e, 0xf3, 0x5e, 0x82], .setTunId 0x40c, .setTunDst [1, 1, 1, 2], .output 1]⟩)
      ⟨_, .setEthDst _ (.setTunId _ (.setTunDst _ (.output _ _ _))), by simp [after, F4, encapF, tun, enc40c], by simp [after, F4, encapF, tun], ?_⟩
      ⟨by simp [table], by simp [Match.Holds, k1, k4, c2, ipType], by simp [table]⟩
    simp [after, F4, encapF, h1]
  rw [if_neg c2]
  by_cases c3 : dst = [10, 10, 10, 2]
  · rw [if_pos c3]
    refine Right.entry (f := ⟨5000, { dlType := some ipType, nwDst := some [10, 10, 10, 2] },
      [.setEthDst [0xfa, 0x16, 0x3e, 0xda, 0x05, 0xed], .setTunId 0x406, .setTunDst [1, 1, 1, 2], .output 1]⟩)
      ⟨_, .setEthDst _ (.setTunId _ (.setTunDst _ (.output _ _ _))), by simp [after, F4, encapF, tun, enc406], by simp [after, F4, encapF, tun], ?_⟩
      ⟨by simp [table], by simp [Match.Holds, k1, k4, c3, ipType], by simp [table]⟩
    simp [after, F4, encapF, h1]
  rw [if_neg c3]
  by_cases c4 : dst = [10, 10, 10, 3]
  · rw [if_pos c4]
    refine Right.entry (f := ⟨5000, { dlType := some ipType, nwDst := some [10, 10, 10, 3] },
      [.setEthDst [0xfa, 0x16, 0x3e, 0x3e, 0x82, 0xe8], .output 3]⟩) ⟨_, .setEthDst _ (.output _ _ _), h.tunId, h.tunDst, ?_⟩
      ⟨by simp [table], by simp [Match.Holds, k1, k4, c4, ipType], by simp [table]⟩
    simp [after, F4, h1]
  rw [if_neg c4]
  have : after (F4 e) (e.dflt, p) = (.drop, p) := by
    rcases hd with hd | hd <;> rw [hd] <;> rfl
  rw [this]
  refine right_drop h (.miss _ ?_)
  simp only [table, List.mem_cons, List.not_mem_nil, or_false]
  rintro f (rfl | rfl | rfl | rfl) <;> simp [Match.Holds, k1, k4, ipType, prefix4 hl, c1, c2, c3, c4]

theorem right_2 (e : Env) (hd : e.dflt = some 0 ∨ e.dflt = none) (h1 : q.inPort ≠ 1) : Right (t2F e p) [.goto 2] q := by
  obtain ⟨k1, k2, k3, k4, k5, k6, k7⟩ := ip_key hi (some q.inPort)
  obtain ⟨hs, hf⟩ := ip_fields hi hg e p h.data
  have hl : src.length = 4 ∧ dst.length = 4 := by
    obtain ⟨_, _, _, _, _, _, _, hb⟩ := hi
    have := hg.2.2.2
    simp only [hb] at this
    exact ⟨this.2.2.2.2.2.2.1, this.2.2.2.2.2.2.2.1⟩
  simp only [t2F, pass2, hs, hf, after]
  by_cases c1 : src.take 3 = [10, 10, 10] ∧ dst = [10, 10, 12, 1]
  · rw [show (src.take 3 == [10, 10, 10] && dst == [10, 10, 12, 1]) = true by simp [c1]]
    refine (right_grp h e h1).entry (f := ⟨50000, { dlType := some ipType, nwSrc := some [10, 10, 10], nwDst := some [10, 10, 12, 1] }, [.group]⟩)
      ⟨by simp [table], ?_, by simp [table]⟩
    simp [Match.Holds, k1, k3, k4, ipType, c1, prefix3]
  rw [show (src.take 3 == [10, 10, 10] && dst == [10, 10, 12, 1]) = false by
    rw [Bool.eq_false_iff]; simpa using c1]
  have hno : ¬ (⟨50000, { dlType := some ipType, nwSrc := some [10, 10, 10], nwDst := some [10, 10, 12, 1] }, [.group]⟩ : Flow).on.Holds q := by
    simp [Match.Holds, k1, k3, k4, ipType, prefix3, prefix4 hl.2]
    simpa using c1
  have hle : ∀ f ∈ table 2, f.on.Holds q → f.prio ≤ 5000 := by
    intro f hf hh
    simp only [table, List.mem_cons, List.not_mem_nil, or_false] at hf
    rcases hf with rfl | rfl | rfl | rfl | rfl | rfl | rfl | rfl
    · exact absurd hh hno
    all_goals simp
  by_cases c2 : inside dst = true
  · by_cases c3 : inside src = true
    · rw [c2, c3]
      show Right (t4F e p) _ q
      have hr := right_4 h hi hg e hd h1
      simp only [inside, Bool.or_eq_true, beq_iff_eq] at c2 c3
      rcases c3 with c3 | c3 <;> rcases c2 with c2 | c2
      · exact hr.entry (f := ⟨5000, { dlType := some ipType, nwSrc := some [10, 10, 10], nwDst := some [10, 10, 10] }, [.goto 4]⟩)
          ⟨by simp [table], by simp [Match.Holds, k1, k3, k4, ipType, prefix3, c2, c3], hle⟩
      · exact hr.entry (f := ⟨5000, { dlType := some ipType, nwSrc := some [10, 10, 10], nwDst := some [10, 10, 12] }, [.goto 4]⟩)
          ⟨by simp [table], by simp [Match.Holds, k1, k3, k4, ipType, prefix3, c2, c3], hle⟩
      · exact hr.entry (f := ⟨5000, { dlType := some ipType, nwSrc := some [10, 10, 12], nwDst := some [10, 10, 10] }, [.goto 4]⟩)
          ⟨by simp [table], by simp [Match.Holds, k1, k3, k4, ipType, prefix3, c2, c3], hle⟩
      · exact hr.entry (f := ⟨5000, { dlType := some ipType, nwSrc := some [10, 10, 12], nwDst := some [10, 10, 12] }, [.goto 4]⟩)
          ⟨by simp [table], by simp [Match.Holds, k1, k3, k4, ipType, prefix3, c2, c3], hle⟩
    · rw [c2, Bool.eq_false_iff.2 c3]
      show Right (.drop, p) _ q
      simp only [inside, Bool.or_eq_true, beq_iff_eq, not_or] at c2 c3
      have hle' : ∀ f ∈ table 2, f.on.Holds q → f.prio ≤ 4000 := by
        intro f hf hh
        simp only [table, List.mem_cons, List.not_mem_nil, or_false] at hf
        rcases hf with rfl | rfl | rfl | rfl | rfl | rfl | rfl | rfl
        · exact absurd hh hno
        all_goals simp [Match.Holds, k1, k3, k4, ipType, prefix3, c3] at hh ⊢
      rcases c2 with c2 | c2
      · exact (right_drop h (.nothing q)).entry (f := ⟨4000, { dlType := some ipType, nwDst := some [10, 10, 10] }, []⟩)
          ⟨by simp [table], by simp [Match.Holds, k1, k4, ipType, prefix3, c2], hle'⟩
      · exact (right_drop h (.nothing q)).entry (f := ⟨4000, { dlType := some ipType, nwDst := some [10, 10, 12] }, []⟩)
          ⟨by simp [table], by simp [Match.Holds, k1, k4, ipType, prefix3, c2], hle'⟩
  · rw [Bool.eq_false_iff.2 c2]
    show Right (.out 2, p) _ q
    simp only [inside, Bool.or_eq_true, beq_iff_eq, not_or] at c2
    refine (right_same h (.output 2 [] q)).entry (f := ⟨0, {}, [.output 2]⟩) ⟨by simp [table], by simp [Match.Holds], ?_⟩
    intro f hf hh
    simp only [table, List.mem_cons, List.not_mem_nil, or_false] at hf
    rcases hf with rfl | rfl | rfl | rfl | rfl | rfl | rfl | rfl
    · exact absurd hh hno
    all_goals simp [Match.Holds, k1, k3, k4, ipType, prefix3, c2] at hh ⊢

theorem right_1 (e : Env) (hd : e.dflt = some 0 ∨ e.dflt = none) : Right (t1F e (mod3 [([.int 3], 1)]) p) [.goto 1] q := by
  obtain ⟨k1, k2, k3, k4, k5, k6, k7⟩ := ip_key hi (some q.inPort)
  obtain ⟨hs, hf⟩ := ip_fields hi hg e p h.data
  have hl : src.length = 4 := by
    obtain ⟨_, _, _, _, _, _, _, hb⟩ := hi
    have := hg.2.2.2
    simp only [hb] at this
    exact this.2.2.2.2.2.2.1
  have p1 : portOf p = [1] ↔ q.inPort = 1 := h.portOf 1 (by omega)
  have p2 : portOf p = [2] ↔ q.inPort = 2 := h.portOf 2 (by omega)
  have p3 : portOf p = [3] ↔ q.inPort = 3 := h.portOf 3 (by omega)
  have p4 : portOf p = [4] ↔ q.inPort = 4 := h.portOf 4 (by omega)
  simp only [t1F, pass1, after, p1, p2, p3, p4, hs]
  have hle : ∀ f ∈ table 1, f.on.Holds q → f.prio ≤ 5000 := by
    simp [table]
  by_cases c1 : q.inPort = 1
  · rw [if_pos c1]
    exact (right_5 h e hg.1).entry (f := ⟨5000, { inPort := some 1 }, [.goto 5]⟩) ⟨by simp [table], by simp [Match.Holds, c1], hle⟩
  rw [if_neg c1]
  by_cases c2 : q.inPort = 2
  · rw [if_pos c2]
    exact (right_4 h hi hg e hd c1).entry (f := ⟨5000, { inPort := some 2 }, [.goto 4]⟩) ⟨by simp [table], by simp [Match.Holds, c2], hle⟩
  rw [if_neg c2]
  by_cases c3 : q.inPort = 3 ∧ src = [10, 10, 10, 3]
  · rw [if_pos c3]
    exact (right_2 h hi hg e hd c1).entry (f := ⟨5000, { dlType := some ipType, inPort := some 3, nwSrc := some [10, 10, 10, 3] }, [.goto 2]⟩)
      ⟨by simp [table], by simp [Match.Holds, c3, (ip_key hi (some 3)).1, (ip_key hi (some 3)).2.2.1, ipType], hle⟩
  rw [if_neg c3]
  by_cases c4 : q.inPort = 4 ∧ src = [10, 10, 12, 3]
  · rw [if_pos c4]
    exact (right_2 h hi hg e hd c1).entry (f := ⟨5000, { dlType := some ipType, inPort := some 4, nwSrc := some [10, 10, 12, 3] }, [.goto 2]⟩)
      ⟨by simp [table], by simp [Match.Holds, c4, (ip_key hi (some 4)).1, (ip_key hi (some 4)).2.2.1, ipType], hle⟩
  rw [if_neg c4]
  have hle' : ∀ f ∈ table 1, f.on.Holds q → f.prio ≤ 4000 := by
    intro f hf hh
    simp only [table, List.mem_cons, List.not_mem_nil, or_false] at hf
    rcases hf with rfl | rfl | rfl | rfl | rfl | rfl
    · simp [Match.Holds, c1] at hh
    · simp [Match.Holds, c2] at hh
    · simp [Match.Holds, k1, k3, ipType, prefix4 hl] at hh
      exact absurd hh c3
    · simp [Match.Holds, k1, k3, ipType, prefix4 hl] at hh
      exact absurd hh c4
    · simp
    · simp
  by_cases c5 : q.inPort = 3
  · rw [if_pos c5]
    exact (right_3 h e c1).entry (f := ⟨4000, { inPort := some 3 }, [.goto 3]⟩) ⟨by simp [table], by simp [Match.Holds, c5], hle'⟩
  rw [if_neg c5]
  show Right (.drop, p) _ q
  by_cases c6 : q.inPort = 4
  · refine (right_drop h (.miss _ ?_) : Right (.drop, p) [.goto 3] q).entry (f := ⟨4000, { inPort := some 4 }, [.goto 3]⟩)
      ⟨by simp [table], by simp [Match.Holds, c6], hle'⟩
    simp [table, Match.Holds, c6]
  · refine right_drop h (.miss _ ?_)
    intro f hf hh
    simp only [table, List.mem_cons, List.not_mem_nil, or_false] at hf
    rcases hf with rfl | rfl | rfl | rfl | rfl | rfl <;> simp [Match.Holds, c1, c2, c5, c6] at hh

end

theorem other_key {f : Frame} {t : Nat} {b : Bytes} (hb : f.body = .other t b) (n : Option Nat) :
    (f.key n).dlType = t ∧ (f.key n).nwSrc = none ∧ (f.key n).nwDst = none ∧ (f.key n).nwProto = none := by
  simp [Frame.key, hb, Body.type]

theorem arp_key {f : Frame} {op : Nat} {sha spa tha tpa more : Bytes} (hb : f.body = .arp op sha spa tha tpa more) (n : Option Nat) :
    (f.key n).dlType = 0x0806 ∧ (f.key n).nwDst = some tpa := by
  simp [Frame.key, hb, Body.type]

section
variable {p : Packet} {q : Pkt} (h : Carries p q) (hg : q.frame.Good)
include h hg

theorem right_1_other (e : Env) (hd : e.dflt = some 0 ∨ e.dflt = none) {t : Nat} {b : Bytes} (ht : q.frame.tag = none) (hb : q.frame.body = .other t b)
    (hc : NoChance b) : Right (t1F e (mod3 [([.int 3], 1)]) p) [.goto 1] q := by
  have kt : ∀ n, (q.frame.key n).dlType ≠ 0x0800 := by
    intro n
    rw [(other_key hb n).1]
    have := hg.2.2.2
    simp only [hb] at this
    exact this.2.2.1
  obtain ⟨hs, hf⟩ := other_fields ht hb hg e p h.data hc.1
  obtain ⟨_, n1, n2⟩ := hc
  rw [← hs] at n1
  rw [← hf] at n2
  simp only [List.mem_cons, List.not_mem_nil, or_false, not_or] at n1 n2
  have p1 : portOf p = [1] ↔ q.inPort = 1 := h.portOf 1 (by omega)
  have p2 : portOf p = [2] ↔ q.inPort = 2 := h.portOf 2 (by omega)
  have p3 : portOf p = [3] ↔ q.inPort = 3 := h.portOf 3 (by omega)
  have p4 : portOf p = [4] ↔ q.inPort = 4 := h.portOf 4 (by omega)
  simp only [t1F, pass1, after, p1, p2, p3, p4, n1, and_false, if_false]
  have hle : ∀ f ∈ table 1, f.on.Holds q → f.prio ≤ 5000 := by
    simp [table]
  by_cases c1 : q.inPort = 1
  · rw [if_pos c1]
    exact (right_5 h e hg.1).entry (f := ⟨5000, { inPort := some 1 }, [.goto 5]⟩) ⟨by simp [table], by simp [Match.Holds, c1], hle⟩
  rw [if_neg c1]
  by_cases c2 : q.inPort = 2
  · rw [if_pos c2]
    have : F1 e (mod3 [([.int 3], 1)]) 1 p = (.drop, p) := by
      show t4F e p = _
      simp only [t4F, pass4, n2, if_false]
      rcases hd with hd | hd <;> rw [hd] <;> rfl
    rw [this]
    refine (right_drop h (.miss _ ?_) : Right (.drop, p) [.goto 4] q).entry (f := ⟨5000, { inPort := some 2 }, [.goto 4]⟩)
      ⟨by simp [table], by simp [Match.Holds, c2], hle⟩
    simp [table, Match.Holds, kt, ipType]
  rw [if_neg c2]
  have hle' : ∀ f ∈ table 1, f.on.Holds q → f.prio ≤ 4000 := by
    intro f hf hh
    simp only [table, List.mem_cons, List.not_mem_nil, or_false] at hf
    rcases hf with rfl | rfl | rfl | rfl | rfl | rfl <;> simp [Match.Holds, c1, c2, kt, ipType] at hh ⊢
  by_cases c5 : q.inPort = 3
  · rw [if_pos c5]
    exact (right_3 h e c1).entry (f := ⟨4000, { inPort := some 3 }, [.goto 3]⟩) ⟨by simp [table], by simp [Match.Holds, c5], hle'⟩
  rw [if_neg c5]
  show Right (.drop, p) _ q
  by_cases c6 : q.inPort = 4
  · refine (right_drop h (.miss _ ?_) : Right (.drop, p) [.goto 3] q).entry (f := ⟨4000, { inPort := some 4 }, [.goto 3]⟩)
      ⟨by simp [table], by simp [Match.Holds, c6], hle'⟩
    simp [table, Match.Holds, c6]
  · refine right_drop h (.miss _ ?_)
    intro f hf hh
    simp only [table, List.mem_cons, List.not_mem_nil, or_false] at hf
    rcases hf with rfl | rfl | rfl | rfl | rfl | rfl <;> simp [Match.Holds, c1, c2, c5, c6] at hh

/-- A tagged frame. -/
theorem right_tag (e : Env) (mi m3 : Mod) {t : Tag} (ht : q.frame.tag = some t) (hdei : t.dei = 1) : Right (netF e mi m3 p) [.goto 0] q := by
  have h0 : deiTagged e p = true := by rw [tag_dei ht hg e p h.data, hdei]; rfl
  have kv : ∀ n, (q.frame.key n).dlVlan = some t.vid := by
    intro n; simp only [Frame.key, ht]; split <;> rfl
  have kt : ∀ n, (q.frame.key n).dlType = q.frame.body.type := by
    intro n; simp only [Frame.key]; split <;> rfl
  obtain ⟨v1, v2⟩ := tag_vlan ht hg
  refine Right.entry (f := ⟨55000, { tagged := true }, [.goto 6]⟩) ?_ ⟨by simp [table], by simp [Match.Holds, ht], by simp [table]⟩
  simp only [netF, pass0, h0, after, cond_true]
  show Right (t6F e p) _ _
  simp only [t6F, pass6, after, h.data, v1, v2]
  by_cases c1 : t.vid = 500
  · by_cases c2 : q.frame.body.type = 0x0806
    · simp only [c1, c2, beq_self_eq_true, Bool.and_self, cond_true]
      exact (right_same h (.controller [] q)).entry (f := ⟨50000, { dlType := some arpType, vlan := some 500 }, [.controller]⟩)
        ⟨by simp [table], by simp [Match.Holds, kv, kt, c1, c2, arpType], by simp [table]⟩
    · simp only [c1, beq_no c2, beq_self_eq_true, Bool.and_false, cond_true, cond_false]
      refine Right.entry (f := ⟨5000, { vlan := some 500 }, [.popVlan, .output 2]⟩) ⟨_, .popVlan (.output _ _ _), h.tunId, h.tunDst, fun _ => ?_⟩
        ⟨by simp [table], by simp [Match.Holds, kv, c1], ?_⟩
      · show p.data.take 12 ++ p.data.drop 16 = _
        rw [h.data]
        exact tag_pop ht hg
      · simp [table, Match.Holds, kt, c2, arpType]
  · simp only [beq_no c1, Bool.false_and, cond_false]
    refine right_drop h (.miss _ ?_)
    simp [table, Match.Holds, kv, c1]

end

section
variable {p : Packet} {q : Pkt} (h : Carries p q) (hg : q.frame.Good) (ht : q.frame.tag = none)
include h ht

/-- An untagged frame, once it is known what the filters say of it. -/
theorem right_untagged (e : Env) (hd : e.dflt = some 0) (lo co : Bool) (h0 : deiTagged e p = false) (h1 : forLocal p.data = lo) (h2 : forController p.data = co)
    (hlo : lo = true → q.inPort = 2 → ∃ f, Selects 0 q f ∧ f.acts = [.local])
    (hco : co = true → (lo = true → q.inPort ≠ 2) → q.inPort ≠ 101 → ∃ f, Selects 0 q f ∧ f.acts = [.controller])
    (hno : co = false → (lo = true → q.inPort ≠ 2) → q.inPort ≠ 101 → Selects 0 q ⟨0, {}, [.goto 1]⟩)
    (h3 : co = false → Right (t1F e (mod3 [([.int 3], 1)]) p) [.goto 1] q) :
    Right (netF e (modIn [] (some 0)) (mod3 [([.int 3], 1)]) p) [.goto 0] q := by
  simp only [netF, pass0, h0, hd, after, cond_false]
  show Right (inF e _ _ p) _ q
  simp only [inF, passIn]
  have hdf : (lo = true → q.inPort ≠ 2) → q.inPort ≠ 101 → Right (dfF e (mod3 [([.int 3], 1)]) p) [.goto 0] q := by
    intro a b
    simp only [dfF, passDf, h2, after]
    cases co with
    | true =>
      obtain ⟨f, f1, f2⟩ := hco rfl a b
      exact Right.entry (f2 ▸ right_same h (.controller [] q)) f1
    | false => exact (h3 rfl).entry (hno rfl a b)
  by_cases c2 : q.inPort = 2
  · rw [show (p.md .inPort == [2]) = true by simpa using (h.is 2 (by omega)).2 c2]
    simp only [after, cond_true]
    show Right (p2F e _ p) _ q
    simp only [p2F, passP2, h1, after]
    cases lo with
    | true =>
      obtain ⟨f, f1, f2⟩ := hlo rfl c2
      exact Right.entry (f2 ▸ right_same h (.local [] q)) f1
    | false => exact hdf (by simp) (by omega)
  rw [show (p.md .inPort == [2]) = false from beq_no (fun hh => c2 ((h.is 2 (by omega)).1 hh))]
  by_cases c1 : q.inPort = 101
  · rw [show (p.md .inPort == [101]) = true by simpa using (h.is 101 (by omega)).2 c1]
    simp only [after, cond_true, cond_false]
    refine Right.entry (f := ⟨50000, { inPort := some 101 }, [.output 2]⟩) (right_same h (.output 2 [] q))
      ⟨by simp [table], by simp [Match.Holds, c1], ?_⟩
    simp [table, Match.Holds, ht]
  rw [show (p.md .inPort == [101]) = false from beq_no (fun hh => c1 ((h.is 101 (by omega)).1 hh))]
  simp only [after, cond_false]
  exact hdf (fun _ => c2) c1

include hg

theorem right_0_ip (e : Env) (hd : e.dflt = some 0) {src dst : Bytes} {frag : Nat} {l4 : L4} (hi : IsIp q.frame src dst frag l4) (hf : ¬ Fragment frag) :
    Right (netF e (modIn [] (some 0)) (mod3 [([.int 3], 1)]) p) [.goto 0] q := by
  have hf' : frag % 8192 = 0 := by
    simp only [Fragment, Decidable.not_not] at hf; omega
  have hl : dst.length = 4 := by
    obtain ⟨_, _, _, _, _, _, _, hb⟩ := hi
    have := hg.2.2.2
    simp only [hb] at this
    exact this.2.2.2.2.2.2.2.1
  have K := fun n => ip_key hi n
  have hgl := ip_l4 hi hg
  have ku : ∀ n, ((q.frame.key n).nwProto = some 17 ∧ (q.frame.key n).tpDst = some 4789) ↔ udpTo 4789 l4 = true := by
    intro n
    rw [(K n).2.2.2.2.1, (K n).2.2.2.2.2.2, if_neg hf]
    cases l4 <;> simp_all [L4.proto, L4.dst, udpTo, L4.Good]
  have kd : ∀ n, ((q.frame.key n).nwProto = some 17 ∧ (q.frame.key n).tpSrc = some 68 ∧ (q.frame.key n).tpDst = some 67) ↔ dhcp l4 = true := by
    intro n
    rw [(K n).2.2.2.2.1, (K n).2.2.2.2.2.1, (K n).2.2.2.2.2.2, if_neg hf, if_neg hf]
    cases l4 <;> simp_all [L4.proto, L4.dst, L4.src, dhcp, L4.Good]
  refine right_untagged h ht e hd (dst == [1, 1, 1, 1] || udpTo 4789 l4) (dhcp l4) (ip_dei hi hg e p h.data) (by rw [h.data, ip_local hi hg hf'])
    (by rw [h.data, ip_controller hi hg hf']) ?_ ?_ ?_ (fun _ => right_1 h hi hg e (.inl hd))
  · intro a c
    have hle : ∀ f ∈ table 0, f.on.Holds q → f.prio ≤ 50000 := by simp [table, Match.Holds, ht]
    simp only [Bool.or_eq_true, beq_iff_eq] at a
    rcases a with a | a
    · exact ⟨⟨50000, { dlType := some ipType, inPort := some 2, nwDst := some [1, 1, 1, 1] }, [.local]⟩,
        ⟨by simp [table], by simp [Match.Holds, c, (K (some 2)).1, (K (some 2)).2.2.2.1, a, ipType], hle⟩, rfl⟩
    · exact ⟨⟨50000, { dlType := some ipType, nwProto := some 17, inPort := some 2, tpDst := some 4789 }, [.local]⟩,
        ⟨by simp [table], by simp [Match.Holds, c, (K (some 2)).1, ipType, ((ku (some 2)).2 a)], hle⟩, rfl⟩
  all_goals
    intro a b c
    have hno : ∀ f ∈ table 0, f.on.Holds q → f.prio ≤ 40000 := by
      intro f hf hh
      simp only [table, List.mem_cons, List.not_mem_nil, or_false] at hf
      rcases hf with rfl | rfl | rfl | rfl | rfl | rfl | rfl | rfl | rfl | rfl
      · simp [Match.Holds, ht] at hh
      · simp [Match.Holds, c] at hh
      · simp [Match.Holds, (K _).2.2.2.1, prefix4 hl] at hh
        exact absurd hh.1 (b (by simp [hh.2.2]))
      · simp [Match.Holds, (K _).1, arpType] at hh
      · simp only [Match.Holds] at hh
        exact absurd (hh.1 _ rfl) (b (by simp [(ku _).1 ⟨hh.2.2.2.2.2.1 _ rfl, hh.2.2.2.2.2.2.2.2.2.1 _ rfl⟩]))
      all_goals simp
  · refine ⟨⟨40000, { dlType := some ipType, nwProto := some 17, tpSrc := some 68, tpDst := some 67 }, [.controller]⟩,
        ⟨by simp [table], by simp [Match.Holds, (K _).1, ipType, ((kd _).2 a)], hno⟩, rfl⟩
  · refine ⟨by simp [table], by simp [Match.Holds], ?_⟩
    intro f hf hh
    have h4 := hno f hf hh
    simp only [table, List.mem_cons, List.not_mem_nil, or_false] at hf
    rcases hf with rfl | rfl | rfl | rfl | rfl | rfl | rfl | rfl | rfl | rfl
    · simp at h4
    · simp at h4
    · simp at h4
    · simp at h4
    · simp at h4
    · simp only [Match.Holds] at hh
      have := (kd _).1 ⟨hh.2.2.2.2.2.1 _ rfl, hh.2.2.2.2.2.2.2.2.1 _ rfl, hh.2.2.2.2.2.2.2.2.2.1 _ rfl⟩
      rw [a] at this
      cases this
    · simp [Match.Holds, (K _).1] at hh
    · simp [Match.Holds, (K _).1] at hh
    · simp [Match.Holds, (K _).1, arpType] at hh
    · simp

theorem right_0_arp (e : Env) (hd : e.dflt = some 0) {op : Nat} {sha spa tha tpa more : Bytes} (hb : q.frame.body = .arp op sha spa tha tpa more) :
    Right (netF e (modIn [] (some 0)) (mod3 [([.int 3], 1)]) p) [.goto 0] q := by
  have hl : tpa.length = 4 := by
    have := hg.2.2.2
    simp only [hb] at this
    exact this.2.2.2.2
  have K := fun n => arp_key hb n
  refine right_untagged h ht e hd (tpa == [1, 1, 1, 1]) true (arp_dei ht hb hg e p h.data) (by rw [h.data, arp_local ht hb hg])
    (by rw [h.data, arp_controller ht hb hg]) ?_ ?_ (by intro a; cases a) (by intro a; cases a)
  · intro a c
    rw [beq_iff_eq] at a
    exact ⟨⟨50000, { dlType := some arpType, inPort := some 2, nwDst := some [1, 1, 1, 1] }, [.local]⟩,
        ⟨by simp [table], by simp [Match.Holds, c, (K (some 2)).1, (K (some 2)).2, a, arpType], by simp [table, Match.Holds, ht]⟩, rfl⟩
  · intro _ b c
    refine ⟨⟨40000, { dlType := some arpType }, [.controller]⟩, ⟨by simp [table], by simp [Match.Holds, (K _).1, arpType], ?_⟩, rfl⟩
    intro f hf hh
    simp only [table, List.mem_cons, List.not_mem_nil, or_false] at hf
    rcases hf with rfl | rfl | rfl | rfl | rfl | rfl | rfl | rfl | rfl | rfl
    · simp [Match.Holds, ht] at hh
    · simp [Match.Holds, c] at hh
    · simp [Match.Holds, (K _).1, ipType] at hh
    · simp [Match.Holds, (K _).2, prefix4 hl] at hh
      exact absurd hh.1 (b (by simp [hh.2.2]))
    · simp [Match.Holds, (K _).1, ipType] at hh
    all_goals simp

theorem right_0_other (e : Env) (hd : e.dflt = some 0) {t : Nat} {b : Bytes} (hb : q.frame.body = .other t b) (h6 : t ≠ 0x86dd) (h8 : t ≠ 0x88a8)
    (hc : NoChance b ∨ t = 0x88cc ∨ t = 0x8942) : Right (netF e (modIn [] (some 0)) (mod3 [([.int 3], 1)]) p) [.goto 0] q := by
  have K := fun n => other_key hb n
  have kt : t ≠ 0x0800 ∧ t ≠ 0x0806 := by
    have := hg.2.2.2
    simp only [hb] at this
    exact ⟨this.2.2.1, this.2.2.2.1⟩
  have hle : q.inPort ≠ 101 → ∀ f ∈ table 0, f.on.Holds q → f.prio ≤ 40000 := by
    intro c f hf hh
    simp only [table, List.mem_cons, List.not_mem_nil, or_false] at hf
    rcases hf with rfl | rfl | rfl | rfl | rfl | rfl | rfl | rfl | rfl | rfl
    · simp [Match.Holds, ht] at hh
    · simp [Match.Holds, c] at hh
    · simp [Match.Holds, (K _).1, kt, ipType] at hh
    · simp [Match.Holds, (K _).1, kt, arpType] at hh
    · simp [Match.Holds, (K _).1, kt, ipType] at hh
    all_goals simp
  refine right_untagged h ht e hd false (t == 0x88cc || t == 0x8942) (other_dei ht hb hg h8 e p h.data) (by rw [h.data, other_local ht hb hg h6])
    (by rw [h.data, other_controller ht hb hg h6]) (by intro a; cases a) ?_ ?_ ?_
  · intro a _ c
    simp only [Bool.or_eq_true, beq_iff_eq] at a
    rcases a with a | a
    · exact ⟨⟨40000, { dlType := some 0x88cc }, [.controller]⟩, ⟨by simp [table], by simp [Match.Holds, (K _).1, a], hle c⟩, rfl⟩
    · exact ⟨⟨40000, { dlType := some 0x8942 }, [.controller]⟩, ⟨by simp [table], by simp [Match.Holds, (K _).1, a], hle c⟩, rfl⟩
  · intro a _ c
    simp only [Bool.or_eq_false_iff, beq_eq_false_iff_ne] at a
    refine ⟨by simp [table], by simp [Match.Holds], ?_⟩
    intro f hf hh
    have h4 := hle c f hf hh
    simp only [table, List.mem_cons, List.not_mem_nil, or_false] at hf
    rcases hf with rfl | rfl | rfl | rfl | rfl | rfl | rfl | rfl | rfl | rfl
    · simp at h4
    · simp at h4
    · simp at h4
    · simp at h4
    · simp at h4
    · simp [Match.Holds, (K _).1, kt, ipType] at hh
    · simp [Match.Holds, (K _).1, a] at hh
    · simp [Match.Holds, (K _).1, a] at hh
    · simp [Match.Holds, (K _).1, kt, arpType] at hh
    · simp
  · intro a
    simp only [Bool.or_eq_false_iff, beq_eq_false_iff_ne] at a
    rcases hc with hc | hc | hc
    · exact right_1_other h hg e (.inl hd) ht hb hc
    · exact absurd hc a.1
    · exact absurd hc a.2

end

end Twink.Cord
