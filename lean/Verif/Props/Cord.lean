import Verif.Proof.CordMore

/-!
C87, C88, C89: the two scripts that build the CORD pipeline (cord_softswitch_pipeline and cord_softswitch_pipeline.bess), and the
flow entries of their comments.
-/

namespace Twink.Cord
open OfpTuple Spec

/-! ## C89: the graphs -/

/-- Both scripts run to their end if byte strings may be longer than their field. -/
theorem C89_run : exec false bessScript = some bessNet ∧ exec false pyScript = some pyNet := by
  have h : (exec false bessScript).isSome = true ∧ (exec false pyScript).isSome = true := by decide +kernel
  obtain ⟨a, ha⟩ := Option.isSome_iff_exists.1 h.1
  obtain ⟨b, hb⟩ := Option.isSome_iff_exists.1 h.2
  rw [bessNet, pyNet, ha, hb]
  exact ⟨rfl, rfl⟩

/-- Neither does if they must not be: the addresses to set are given as text of 17 characters for a field of 6 bytes. -/
theorem C89_run_refuted : exec true bessScript = none ∧ exec true pyScript = none := by decide +kernel

/-- Every packet is done with after thirteen modules, and leaves by one of the ports 1 to 4, LOCAL, CONTROLLER, or not at all. -/
theorem C89_ends (n : Net) (hn : n = bessNet ∨ n = pyNet) (e : Env) (p : Packet) :
    ∃ v r, (∀ k, n.sees e (k + 13) .t0_start p = some (v, r)) ∧ (∀ i, v = .out i → i = 1 ∨ i = 2 ∨ i = 3 ∨ i = 4) := by
  rcases hn with rfl | rfl
  · exact ⟨_, _, fun k => bess_sees e k p, (sane_bess e p).1⟩
  · exact ⟨_, _, fun k => py_sees e k p, (sane_py e p).1⟩

/-- What leaves by port 1 has a tunnel: to 1.1.1.2, with id 0x40c or 0x406. -/
theorem C89_tunnel (n : Net) (hn : n = bessNet ∨ n = pyNet) (e : Env) (p r : Packet) (k : Nat) (h : n.sees e (k + 13) .t0_start p = some (.out 1, r)) :
    r.md .tunDst = [1, 1, 1, 2] ∧ (r.md .tunId = [12, 4, 0, 0] ∨ r.md .tunId = [6, 4, 0, 0]) := by
  rcases hn with rfl | rfl
  · rw [bess_sees] at h
    have := (sane_bess e p).2.1
    rw [Option.some.inj h] at this
    exact this rfl
  · rw [py_sees] at h
    have := (sane_py e p).2.1
    rw [Option.some.inj h] at this
    exact this rfl

/-- What goes to LOCAL or to the controller is the packet as it came. -/
theorem C89_unchanged (n : Net) (hn : n = bessNet ∨ n = pyNet) (e : Env) (p r : Packet) (v : Verdict) (k : Nat)
    (h : n.sees e (k + 13) .t0_start p = some (v, r)) (hv : v = .local ∨ v = .controller) : r = p := by
  rcases hn with rfl | rfl
  · rw [bess_sees] at h
    have := (sane_bess e p).2.2
    rw [Option.some.inj h] at this
    exact this hv
  · rw [py_sees] at h
    have := (sane_py e p).2.2
    rw [Option.some.inj h] at this
    exact this hv

/-- A setting of what BESS leaves open. -/
def exEnv : Env := ⟨false, fun n b => b.take n, some 0, fun _ => 0, fun _ => 0, fun _ b _ => b⟩

/-- IPv4, UDP. -/
def exFrame (src dst : Bytes) (tag : Option Tag) (sp dp : Nat) : Frame :=
  ⟨[2, 0, 0, 0, 0, 1], [2, 0, 0, 0, 0, 2], tag, .ipv4 0 28 1 0 64 0 src dst [] (.udp sp dp [0, 8, 0, 0])⟩

def exPkt (port : Nat) (f : Frame) : Pkt := ⟨port, 7, [9, 9, 9, 9], f⟩

def exPacket (q : Pkt) : Packet :=
  ⟨q.frame.bytes, fun | .inPort => [UInt8.ofNat q.inPort] | .tunId => (encBE 4 q.tunId).reverse | .tunDst => q.tunDst | _ => []⟩

theorem exCarries (port : Nat) (f : Frame) (h : port < 256) : Carries (exPacket (exPkt port f)) (exPkt port f) :=
  ⟨rfl, h, rfl, by simp [exPkt], rfl, rfl⟩

/-- Port 4, from 10.10.12.3 to 10.10.10.2: out of port 1, with a tunnel. -/
example : ∃ r, bessNet.sees exEnv 13 .t0_start (exPacket (exPkt 4 (exFrame [10, 10, 12, 3] [10, 10, 10, 2] none 1000 2000))) = some (.out 1, r) ∧
    r.md .tunId = [6, 4, 0, 0] := by
  refine ⟨(bessF exEnv (exPacket (exPkt 4 (exFrame [10, 10, 12, 3] [10, 10, 10, 2] none 1000 2000)))).2, ?_, by decide +kernel⟩
  have h : (bessF exEnv (exPacket (exPkt 4 (exFrame [10, 10, 12, 3] [10, 10, 10, 2] none 1000 2000)))).1 = .out 1 := by decide +kernel
  rw [bess_sees exEnv 0, ← h]

/-! ## C87: one pipeline, two scripts -/

/-- Full statement: `pyNet.sees e k .t0_start p = bessNet.sees e k .t0_start p` for every packet, whether a match module without default gate drops
(`dflt = none`) or uses gate 0. Proved but for packets from port 3 in the second case. -/
theorem C87_partial (e : Env) (p : Packet) (k : Nat) (h : e.dflt = none ∨ (e.dflt = some 0 ∧ p.md .inPort ≠ [3])) :
    pyNet.sees e (k + 13) .t0_start p = bessNet.sees e (k + 13) .t0_start p := by
  rw [bess_sees, py_sees]
  rcases h with h | h
  · rw [same_of_none e p h]
  · rw [same_of_port e p h.1 h.2]

example : exEnv.dflt = some 0 ∧ (exPacket (exPkt 4 (exFrame [10, 10, 12, 3] [10, 10, 10, 2] none 1000 2000))).md .inPort ≠ [3] := by decide

/-- The Python script gives the rule of table 3 to `t0_inport` (L368). What port 3 sends to 1.1.1.1 then goes to LOCAL, not out of port 2, and
what does not come from 10.10.10.3 is dropped, not sent to the group. -/
theorem C87_port3_refuted (e : Env) (hd : e.dflt = some 0) (p : Packet) (q : Pkt) (h : Carries p q) (hg : q.frame.Good) (hp : q.inPort = 3)
    {src dst : Bytes} {frag : Nat} {l4 : L4} (hi : IsIp q.frame src dst frag l4) (hf : ¬ Fragment frag) (hl : dhcp l4 = false) :
    (src = [10, 10, 10, 3] → dst = [1, 1, 1, 1] → pyNet.sees e 13 .t0_start p = some (.local, p) ∧ bessNet.sees e 13 .t0_start p = some (.out 2, p)) ∧
    (src ≠ [10, 10, 10, 3] → dst ≠ [1, 1, 1, 1] → udpTo 4789 l4 = false →
      pyNet.sees e 13 .t0_start p = some (.drop, p) ∧ ∃ r, bessNet.sees e 13 .t0_start p = some (.out 1, r) ∨ bessNet.sees e 13 .t0_start p = some (.out 4, r)) := by
  have hm : p.md .inPort = [3] := (h.is 3 (by omega)).2 hp
  have h0 := ip_dei hi hg e p h.data
  have hf' : frag % 8192 = 0 := by
    simp only [Fragment, Decidable.not_not] at hf; omega
  have hlo := ip_local hi hg hf'
  have hco := ip_controller hi hg hf'
  rw [hl] at hco
  obtain ⟨hs, hdd⟩ := ip_fields hi hg e p h.data
  rw [py_sees e 0, bess_sees e 0, py_3 hd h0 hm, bess_3 hd h0 hm, h.data, hlo, hco, hs]
  constructor
  · rintro rfl rfl
    refine ⟨rfl, ?_⟩
    simp only [cond_false, if_true, t2F, pass2, hs, hdd]
    rfl
  · intro c1 c2 c3
    rw [beq_no c2, c3]
    refine ⟨by simp [c1], ?_⟩
    simp only [cond_false, c1, if_false, grpF]
    split
    · exact ⟨_, .inl rfl⟩
    · exact ⟨_, .inr rfl⟩

example : (exFrame [10, 10, 10, 3] [1, 1, 1, 1] none 1000 2000).Good ∧ IsIp (exFrame [10, 10, 10, 3] [1, 1, 1, 1] none 1000 2000) [10, 10, 10, 3] [1, 1, 1, 1] 0 (.udp 1000 2000 [0, 8, 0, 0]) ∧
    ¬ Fragment 0 ∧ dhcp (.udp 1000 2000 [0, 8, 0, 0]) = false :=
  ⟨by simp [exFrame, Frame.Good, L4.Good], ⟨rfl, ⟨_, _, _, _, _, _, rfl⟩⟩, by simp [Fragment], rfl⟩

/-! ## C88: the graph and the flow entries -/

/-- The entries never contradict each other: those of highest priority that match do the same. So the way of a packet is settled, but for the bucket
of the group, which only tells port 1 from port 4. -/
theorem C88_settled (p q q' : Pkt) (l : List Act) (v v' : Verdict) (h : Does l p v q) (h' : Does l p v' q') :
    (v = v' ∧ q = q') ∨ ((v = .out 1 ∨ v = .out 4) ∧ (v' = .out 1 ∨ v' = .out 4)) := does_unique h h'

example : Does [.goto 0] (exPkt 101 (exFrame [10, 10, 10, 3] [1, 1, 1, 1] none 1000 2000)) (.out 2)
    (exPkt 101 (exFrame [10, 10, 10, 3] [1, 1, 1, 1] none 1000 2000)) :=
  .entry (f := ⟨50000, { inPort := some 101 }, [.output 2]⟩) _
    ⟨by simp [table], by simp [Match.Holds, exPkt], by simp [table, Match.Holds, exPkt, exFrame]⟩ (.output _ _ _)

/-- Full statement: for every frame, the graph of the .bess script does what the entries say (`Right`, with the same frame in every case). Proved if match
modules without default gate use gate 0, for `Ordinary` frames, and for the frame itself only where the entries do not set the destination. -/
theorem C88_partial (e : Env) (hd : e.dflt = some 0) (p : Packet) (q : Pkt) (h : Carries p q) (hg : q.frame.Good) (ho : Ordinary q.frame) (k : Nat) :
    ∃ x, bessNet.sees e (k + 13) .t0_start p = some x ∧ Right x [.goto 0] q := by
  refine ⟨_, bess_sees e k p, ?_⟩
  unfold Ordinary at ho
  split at ho
  · rename_i t _ ht
    exact right_tag h hg e _ _ ht ho
  · rename_i ht hb
    exact right_0_ip h hg ht e hd ⟨ht, _, _, _, _, _, _, hb⟩ ho
  · rename_i ht hb
    exact right_0_arp h hg ht e hd hb
  · rename_i ht hb
    exact right_0_other h hg ht e hd hb ho.1 ho.2.1 ho.2.2

example : exEnv.dflt = some 0 ∧ (exFrame [10, 10, 12, 3] [10, 10, 10, 2] none 1000 2000).Good ∧ Ordinary (exFrame [10, 10, 12, 3] [10, 10, 10, 2] none 1000 2000) ∧
    (exFrame [10, 10, 12, 3] [10, 10, 10, 2] (some ⟨0, 1, 500⟩) 1000 2000).Good ∧ Ordinary (exFrame [10, 10, 12, 3] [10, 10, 10, 2] (some ⟨0, 1, 500⟩) 1000 2000) :=
  ⟨rfl, by simp [exFrame, Frame.Good, L4.Good], by simp [exFrame, Ordinary, Fragment], by simp [exFrame, Frame.Good, L4.Good], by simp [exFrame, Ordinary]⟩

/-- A tag counts as one only with its DEI bit set: the rule takes the bit 0x1000 of the flow entry, which stands for "there is a tag", from the frame.
Without it a frame of VLAN 500 from port 1 is dropped, where the entries send it out of port 2; and a frame of another VLAN from LOCAL goes out of port 2,
where the entries drop it. -/
theorem C88_tag_refuted (e : Env) (hd : e.dflt = some 0) (p : Packet) (q : Pkt) (h : Carries p q) (hg : q.frame.Good) (t : Tag) (ht : q.frame.tag = some t)
    (h0 : t.dei = 0) :
    (q.inPort = 1 → q.tunId ≠ 0x406 → q.tunId ≠ 0x40c → t.vid = 500 → q.frame.body.type ≠ 0x0806 →
      bessNet.sees e 13 .t0_start p = some (.drop, p) ∧ ∀ v q', Does [.goto 0] q v q' → v = .out 2) ∧
    (q.inPort = 101 → t.vid ≠ 500 → bessNet.sees e 13 .t0_start p = some (.out 2, p) ∧ ∀ v q', Does [.goto 0] q v q' → v = .drop) := by
  have hdei : deiTagged e p = false := by rw [tag_dei ht hg e p h.data, h0]; rfl
  constructor
  · intro c1 c2 c3 c4 c5
    constructor
    · rw [bess_sees e 0, bess_1 hd hdei ((h.is 1 (by omega)).2 c1), h.data, tag_controller ht hg]
      have ht : ∀ n, n < 2 ^ 32 → (p.md .tunId = (encBE 4 n).reverse ↔ q.tunId = n) := by
        intro n hn
        rw [h.tunId]
        constructor
        · intro hh
          have := congrArg decBE (List.reverse_inj.1 hh)
          rwa [decBE_encBE 4 _ h.smallId, decBE_encBE 4 _ hn] at this
        · intro hh; rw [hh]
      have t1 : p.md .tunId ≠ [6, 4, 0, 0] := fun hh => c2 ((ht 0x406 (by omega)).1 hh)
      have t2 : p.md .tunId ≠ [12, 4, 0, 0] := fun hh => c3 ((ht 0x40c (by omega)).1 hh)
      simp [t5F, pass5, t1, t2, after, F5]
    · intro v q' hv
      rcases does_unique ((does_tag ht).1 c4 c5) hv with hh | hh
      · exact hh.1.symm
      · rcases hh.1 with hh | hh <;> cases hh
  · intro c1 c2
    refine ⟨by rw [bess_sees e 0, bess_101 hd hdei ((h.is 101 (by omega)).2 c1)], ?_⟩
    intro v q' hv
    rcases does_unique ((does_tag ht).2 c2) hv with hh | hh
    · exact hh.1.symm
    · rcases hh.1 with hh | hh <;> cases hh

example : (exFrame [10, 10, 12, 3] [10, 10, 10, 2] (some ⟨0, 0, 500⟩) 1000 2000).Good ∧ (exFrame [10, 10, 12, 3] [10, 10, 10, 2] (some ⟨0, 0, 500⟩) 1000 2000).body.type ≠ 0x0806 ∧
    (exPkt 1 (exFrame [10, 10, 12, 3] [10, 10, 10, 2] (some ⟨0, 0, 500⟩) 1000 2000)).tunId ≠ 0x406 :=
  ⟨by simp [exFrame, Frame.Good, L4.Good], by simp [exFrame, Body.type], by simp [exPkt]⟩

/-- Where the entries set the destination, the graph leaves it as it is and writes over the source (the offsets of HWSRC and HWDST are exchanged); and it writes
the first characters of the text of the address. -/
theorem C88_set_refuted (e : Env) (hd : e.dflt = some 0) (p : Packet) (q : Pkt) (h : Carries p q) (hg : q.frame.Good) (hp : q.inPort = 2)
    {src dst : Bytes} {frag : Nat} {l4 : L4} (hi : IsIp q.frame src dst frag l4) (hf : ¬ Fragment frag) (hl : dhcp l4 = false) (hu : udpTo 4789 l4 = false)
    (hdst : dst = [10, 10, 12, 3]) :
    ∃ r, bessNet.sees e 13 .t0_start p = some (.out 4, r) ∧ r.data.take 6 = q.frame.dst ∧
      ((∀ n b, e.cut n b = b.take n) → (r.data.drop 6).take 6 = [0x66, 0x61, 0x3a, 0x31, 0x36, 0x3a]) ∧
      ∃ q', Does [.goto 0] q (.out 4) q' ∧ q'.frame.dst = [0xfa, 0x16, 0x3e, 0xcf, 0xf2, 0x56] ∧ q'.frame.src = q.frame.src := by
  have hm : p.md .inPort = [2] := (h.is 2 (by omega)).2 hp
  have h0 := ip_dei hi hg e p h.data
  have hf' : frag % 8192 = 0 := by
    simp only [Fragment, Decidable.not_not] at hf; omega
  have hlo := ip_local hi hg hf'
  have hco := ip_controller hi hg hf'
  rw [hl] at hco
  rw [hu, hdst] at hlo
  obtain ⟨hs, hdd⟩ := ip_fields hi hg e p h.data
  have hlen : (q.frame.bytes.take 6) = q.frame.dst ∧ (q.frame.bytes.take 6).length = 6 := by
    have : q.frame.bytes.take 6 = q.frame.dst := by
      rw [Frame.bytes, ← hg.1, List.take_left]
    rw [this]
    exact ⟨rfl, hg.1⟩
  refine ⟨upd e 0xcf 0xf2 0x56 p, ?_, ?_, ?_, ?_⟩
  · rw [bess_sees e 0, bess_2 hd h0 hm, h.data, hlo, hco]
    simp only [t4F, pass4, hdd, hdst]
    rfl
  · simp only [upd, write, h.data, List.append_assoc]
    rw [List.take_append_of_le_length (by rw [hlen.2]; exact Nat.le_refl _), List.take_take]
    exact hlen.1
  · intro hcut
    simp only [upd, write, h.data, List.append_assoc]
    rw [List.drop_append_of_le_length (by rw [hlen.2]; exact Nat.le_refl _), List.drop_eq_nil_of_le (by rw [hlen.2]; exact Nat.le_refl _), List.nil_append]
    have : e.text 0xcf 0xf2 0x56 = [0x66, 0x61, 0x3a, 0x31, 0x36, 0x3a] := by
      have : e.text 0xcf 0xf2 0x56 = e.cut 6 (exEnv.bytes (.pkt 0 17) (macText 0xfa 0x16 0x3e 0xcf 0xf2 0x56)) := by rfl
      rw [this, hcut]
      decide +kernel
    rw [this]
    rfl
  · have K := fun n => ip_key hi n
    have hl4 := ip_l4 hi hg
    refine ⟨{ q with frame := { q.frame with dst := [0xfa, 0x16, 0x3e, 0xcf, 0xf2, 0x56] } }, ?_, rfl, rfl⟩
    refine does_2 hi.untagged hp _ _ (fun n => by rw [(K n).1]; decide) ?_ ?_ ?_
      (.entry (f := ⟨5000, { dlType := some ipType, nwDst := some [10, 10, 12, 3] }, [.setEthDst [0xfa, 0x16, 0x3e, 0xcf, 0xf2, 0x56], .output 4]⟩) _
        ⟨by simp [table], by simp [Match.Holds, (K _).1, (K _).2.2.2.1, hdst, ipType], by simp [table]⟩ (.setEthDst _ (.output _ _ _)))
    · intro n _ a ha
      rw [(K n).2.2.2.1, hdst] at ha
      cases ha
      decide
    · intro n h1 h2
      rw [(K n).2.2.2.2.1] at h1
      rw [(K n).2.2.2.2.2.2, if_neg hf] at h2
      cases l4 <;> simp_all [L4.proto, L4.dst, udpTo, L4.Good]
    · intro n h1 h2 h3
      rw [(K n).2.2.2.2.1] at h1
      rw [(K n).2.2.2.2.2.1, if_neg hf] at h2
      rw [(K n).2.2.2.2.2.2, if_neg hf] at h3
      cases l4 <;> simp_all [L4.proto, L4.dst, L4.src, dhcp, L4.Good]

example : IsIp (exFrame [10, 10, 10, 3] [10, 10, 12, 3] none 1000 2000) [10, 10, 10, 3] [10, 10, 12, 3] 0 (.udp 1000 2000 [0, 8, 0, 0]) ∧
    udpTo 4789 (.udp 1000 2000 [0, 8, 0, 0]) = false ∧ exEnv.cut 3 [1, 2, 3, 4] = [1, 2, 3] :=
  ⟨⟨rfl, ⟨_, _, _, _, _, _, rfl⟩⟩, rfl, rfl⟩

/-- If match modules without default gate drop, both graphs drop every frame without tag: `t0_start` has none. -/
theorem C88_default_refuted (e : Env) (hd : e.dflt = none) (p : Packet) (q : Pkt) (h : Carries p q) (hg : q.frame.Good) (ht : q.frame.tag = none)
    (h8 : q.frame.body.type ≠ 0x88a8) : bessNet.sees e 13 .t0_start p = some (.drop, p) ∧ pyNet.sees e 13 .t0_start p = some (.drop, p) := by
  have h0 : deiTagged e p = false := by
    cases hb : q.frame.body with
    | ipv4 => exact ip_dei ⟨ht, _, _, _, _, _, _, hb⟩ hg e p h.data
    | arp => exact arp_dei ht hb hg e p h.data
    | other t b => exact other_dei ht hb hg (by rw [hb] at h8; exact h8) e p h.data
  rw [bess_sees e 0, py_sees e 0, (drop_none hd h0).1, (drop_none hd h0).2]
  exact ⟨rfl, rfl⟩

/-- The entries have a packet from LOCAL sent out of port 2, for one. -/
example : ({ exEnv with dflt := none } : Env).dflt = none ∧ (exFrame [10, 10, 10, 3] [10, 10, 12, 3] none 1000 2000).body.type ≠ 0x88a8 := by
  exact ⟨rfl, by simp [exFrame, Body.type]⟩

/-- The rules for addresses do not ask for IPv4. A frame of another type with the right bytes goes out of port 4, where the entries drop it. -/
theorem C88_chance_refuted (e : Env) (hd : e.dflt = some 0) (p : Packet) (q : Pkt) (h : Carries p q) (hg : q.frame.Good) (hp : q.inPort = 2) (ht : q.frame.tag = none)
    (t : Nat) (b : Bytes) (hb : q.frame.body = .other t b) (h6 : t ≠ 0x86dd) (h8 : t ≠ 0x88a8) (h1 : t ≠ 0x88cc) (h2 : t ≠ 0x8942)
    (hl : 20 ≤ b.length) (ha : (b.drop 16).take 4 = [10, 10, 12, 3]) :
    (∃ r, bessNet.sees e 13 .t0_start p = some (.out 4, r)) ∧ ∀ v q', Does [.goto 0] q v q' → v = .drop := by
  refine ⟨⟨upd e 0xcf 0xf2 0x56 p, ?_⟩, only (does_2_other hg ht hp hb h1 h2) (by simp)⟩
  have hf := (other_fields ht hb hg e p h.data hl).2
  rw [bess_sees e 0, bess_2 hd (other_dei ht hb hg h8 e p h.data) ((h.is 2 (by omega)).2 hp), h.data, other_local ht hb hg h6, other_controller ht hb hg h6,
    beq_no h1, beq_no h2]
  simp only [t4F, pass4, hf, ha]
  rfl

/-- A frame of type 0x9000. -/
def exOdd : Frame := ⟨[2, 0, 0, 0, 0, 1], [2, 0, 0, 0, 0, 2], none, .other 0x9000 (List.replicate 16 0 ++ [10, 10, 12, 3])⟩

example : exOdd.Good ∧ ((List.replicate 16 0 ++ [10, 10, 12, 3] : Bytes).drop 16).take 4 = [10, 10, 12, 3] :=
  ⟨by simp [exOdd, Frame.Good], by decide⟩

/-- The first fragment of a datagram to port 4789 goes to LOCAL; the entries, for which fragments have no ports, drop it. -/
theorem C88_fragment_refuted (e : Env) (hd : e.dflt = some 0) (p : Packet) (q : Pkt) (h : Carries p q) (hg : q.frame.Good) (hp : q.inPort = 2)
    {src dst : Bytes} {frag : Nat} {l4 : L4} (hi : IsIp q.frame src dst frag l4) (hf : Fragment frag) (hf' : frag % 8192 = 0) (hu : udpTo 4789 l4 = true)
    (hdst : dst ∉ [[1, 1, 1, 1], [10, 10, 12, 3], [10, 10, 12, 2], [10, 10, 10, 2], [10, 10, 10, 3]]) :
    bessNet.sees e 13 .t0_start p = some (.local, p) ∧ ∀ v q', Does [.goto 0] q v q' → v = .drop := by
  have hl : dst.length = 4 := by
    obtain ⟨_, _, _, _, _, _, _, hb⟩ := hi
    have := hg.2.2.2
    simp only [hb] at this
    exact this.2.2.2.2.2.2.2.1
  have K := fun n => ip_key hi n
  simp only [List.mem_cons, List.not_mem_nil, or_false, not_or] at hdst
  constructor
  · rw [bess_sees e 0, bess_2 hd (ip_dei hi hg e p h.data) ((h.is 2 (by omega)).2 hp), h.data, ip_local hi hg hf', hu, Bool.or_true]
    rfl
  · refine only (does_2 hi.untagged hp _ _ (fun n => by rw [(K n).1]; decide) ?_ ?_ ?_ (.miss _ ?_)) (by simp)
    · intro n _ a ha hpre
      rw [(K n).2.2.2.1] at ha
      cases ha
      exact hdst.1 ((prefix4 hl rfl).1 hpre)
    · intro n _ h2
      rw [(K n).2.2.2.2.2.2, if_pos hf] at h2
      cases hh : l4.dst <;> simp [hh] at h2
    · intro n _ h2
      rw [(K n).2.2.2.2.2.1, if_pos hf] at h2
      cases hh : l4.src <;> simp [hh] at h2
    · simp [table, Match.Holds, (K _).1, (K _).2.2.2.1, ipType, prefix4 hl, hdst]

/-- More fragments follow. -/
def exFrag : Frame := ⟨[2, 0, 0, 0, 0, 1], [2, 0, 0, 0, 0, 2], none, .ipv4 0 28 1 0x2000 64 0 [10, 0, 0, 1] [10, 0, 0, 2] [] (.udp 9 4789 [0, 8, 0, 0])⟩

example : exFrag.Good ∧ IsIp exFrag [10, 0, 0, 1] [10, 0, 0, 2] 0x2000 (.udp 9 4789 [0, 8, 0, 0]) ∧ Fragment 0x2000 ∧ udpTo 4789 (.udp 9 4789 [0, 8, 0, 0]) = true :=
  ⟨by simp [exFrag, Frame.Good, L4.Good], ⟨rfl, ⟨_, _, _, _, _, _, rfl⟩⟩, by simp [Fragment], rfl⟩

/-- IPv6, UDP to port 4789. -/
def exV6 : Frame := ⟨[2, 0, 0, 0, 0, 1], [2, 0, 0, 0, 0, 2], none,
  .other 0x86dd ([0x60, 0, 0, 0, 0, 8, 17, 64] ++ List.replicate 32 1 ++ [0, 9, 0x12, 0xb5, 0, 8, 0, 0])⟩

/-- `udp dst port 4789` does not ask for IPv4 either: a datagram over IPv6 goes to LOCAL. The entries drop it. -/
theorem C88_ipv6_refuted (e : Env) (hd : e.dflt = some 0) (p : Packet) (q : Pkt) (h : Carries p q) (hp : q.inPort = 2) (hq : q.frame = exV6) :
    bessNet.sees e 13 .t0_start p = some (.local, p) ∧ ∀ v q', Does [.goto 0] q v q' → v = .drop := by
  have hg : q.frame.Good := by rw [hq]; simp [exV6, Frame.Good]
  have ht : q.frame.tag = none := by rw [hq]; rfl
  have hb : q.frame.body = .other 0x86dd ([0x60, 0, 0, 0, 0, 8, 17, 64] ++ List.replicate 32 1 ++ [0, 9, 0x12, 0xb5, 0, 8, 0, 0]) := by rw [hq]; rfl
  refine ⟨?_, only (does_2_other hg ht hp hb (by omega) (by omega)) (by simp)⟩
  rw [bess_sees e 0, bess_2 hd (other_dei ht hb hg (by omega) e p h.data) ((h.is 2 (by omega)).2 hp), h.data, hq,
    show forLocal exV6.bytes = true by decide +kernel]
  rfl

example : Carries (exPacket (exPkt 2 exV6)) (exPkt 2 exV6) ∧ (exPkt 2 exV6).frame = exV6 := ⟨exCarries 2 exV6 (by omega), rfl⟩

end Twink.Cord
