import Verif.Props.OfpTuple
import Verif.Props.Cord

/-!
# C80, C87: exactly when they hold
-/

namespace Twink.OfpTuple
open Spec Fmt

/-! ## C80 -/

/-- The bytes where the code looks for ports (directly after the twenty bytes of an IPv4 header without options) hold the right values. -/
def PortsInPlace (frag : Nat) (options : Bytes) : L4 → Prop
  | .tcp s d r => (options ++ (L4.tcp s d r).bytes).take 4 = if Fragment frag then [0, 0, 0, 0] else be16 s ++ be16 d
  | .udp s d r => (options ++ (L4.udp s d r).bytes).take 4 = if Fragment frag then [0, 0, 0, 0] else be16 s ++ be16 d
  | .icmp t c r => (options ++ (L4.icmp t c r).bytes).take 2 = if Fragment frag then [0, 0] else b8 t ++ b8 c
  | .other _ _ => True

theorem dec_two {a b : UInt8} {n : Nat} (hn : n < 65536) : decBE [a, b] = n ↔ [a, b] = be16 n := by
  constructor
  · intro h
    subst h
    have := encBE_decBE [a, b]
    simp only [List.length_cons, List.length_nil] at this
    rw [← encBE_2]; exact this.symm
  · intro h; rw [h]; exact dec_be16 hn

/-- C80, exactly: what `ofptuple` takes from an Ethernet II frame are the fields of OpenFlow 1.0 if and only if
* the type of service has no congestion bits and the ports are in place, in the case of IPv4;
* the operation has eight bits, in the case of ARP.
For other types they always are. -/
theorem C80_exact (inPort : Option Nat) (f : Frame) (h : f.Good) :
    ofptuple f.bytes inPort = .ok (f.key inPort) ↔
      match f.body with
      | .ipv4 tos _ _ frag _ _ _ _ options l4 => tos % 4 = 0 ∧ PortsInPlace frag options l4
      | .arp op .. => op < 256
      | .other .. => True := by
  rw [ofptuple_taken inPort f h, Except.ok.injEq]
  obtain ⟨_, _, _, h⟩ := h
  cases hb : f.body with
  | other t b => simp [taken, Frame.key, hb]
  | arp op sha spa tha tpa more =>
    simp only [taken, Frame.key, hb, Key.mk.injEq, Option.some.injEq, true_and, and_true]
    omega
  | ipv4 tos len ident frag ttl sum src dst options l4 =>
    simp only [hb] at h
    obtain ⟨_, _, _, _, _, _, _, _, ho, _, g4⟩ := h
    have hl : 4 ≤ (options ++ l4.bytes).length := by have := (l4_good g4).2; simp; omega
    have ht : tos = tos / 4 * 4 ↔ tos % 4 = 0 := by omega
    simp only [taken, Frame.key, hb, Key.mk.injEq, Option.some.injEq, true_and, ht]
    refine and_congr Iff.rfl ?_
    have h4 : ∃ a b c d more, options ++ l4.bytes = a :: b :: c :: d :: more := by
      match hh : options ++ l4.bytes, hl with
      | a :: b :: c :: d :: more, _ => exact ⟨a, b, c, d, more, rfl⟩
    obtain ⟨a, b, c, d, more, hh⟩ := h4
    have hz : ∀ x y : UInt8, decBE [x, y] = 0 ↔ [x, y] = [0, 0] := fun x y => dec_two (n := 0) (by omega)
    cases l4 with
    | other p r =>
      obtain ⟨_, h1, h2, h3, _⟩ := g4
      simp [PortsInPlace, L4.proto, L4.src, L4.dst, ports, h1, h2, h3]
    | tcp s t r =>
      obtain ⟨h1, h2⟩ := g4
      simp only [PortsInPlace, hh, L4.proto, ports, L4.src, L4.dst, List.take, List.drop]
      by_cases hf : Fragment frag
      · simp [hf, hz, and_assoc]
      · have e : decBE [a, b] = s ∧ decBE [c, d] = t ↔ a :: b :: c :: [d] = be16 s ++ be16 t := by
          rw [dec_two h1, dec_two h2]; simp [be16, and_assoc]
        simpa [hf] using e
    | udp s t r =>
      obtain ⟨h1, h2⟩ := g4
      simp only [PortsInPlace, hh, L4.proto, ports, L4.src, L4.dst, List.take, List.drop]
      by_cases hf : Fragment frag
      · simp [hf, hz, and_assoc]
      · have e : decBE [a, b] = s ∧ decBE [c, d] = t ↔ a :: b :: c :: [d] = be16 s ++ be16 t := by
          rw [dec_two h1, dec_two h2]; simp [be16, and_assoc]
        simpa [hf] using e
    | icmp s t r =>
      obtain ⟨h1, h2, _⟩ := g4
      have e1 : decBE [a, b] = a.toNat * 256 + b.toNat := by simp [decBE]
      have hb := b.toNat_lt
      have ea : (a.toNat * 256 + b.toNat) >>> 8 = a.toNat := by rw [Nat.shiftRight_eq_div_pow]; omega
      have eb : (a.toNat * 256 + b.toNat) &&& 0xFF = b.toNat := by
        rw [show (0xFF : Nat) = 2 ^ 8 - 1 from rfl, Nat.and_two_pow_sub_one_eq_mod]; omega
      simp only [PortsInPlace, hh, L4.proto, ports, L4.src, L4.dst, List.take, List.drop, e1, ea, eb, if_true]
      have hx : ∀ (x : UInt8) n, n < 256 → (x = UInt8.ofNat n ↔ x.toNat = n) := by
        intro x n hn
        rw [← UInt8.toNat_inj, UInt8.toNat_ofNat_of_lt' (by simpa using hn)]
      by_cases hf : Fragment frag
      · have h0 := fun x => hx x 0 (by omega)
        simp [hf, ← UInt8.toNat_inj]
      · simp [hf, b8, hx _ _ h1, hx _ _ h2]

/-- A first fragment of UDP with source port 53 is a good frame whose ports are not in place; one with options that happen to hold the ports is a good
frame whose ports are. -/
example : (Frame.mk [1, 2, 3, 4, 5, 6] [7, 8, 9, 10, 11, 12] none
      (.ipv4 0 44 1 0x2000 64 0 [10, 0, 0, 1] [10, 0, 0, 2] [] (.udp 53 53 (zeros 16)))).Good ∧
    ¬ PortsInPlace 0x2000 [] (.udp 53 53 (zeros 16)) ∧
    (Frame.mk [1, 2, 3, 4, 5, 6] [7, 8, 9, 10, 11, 12] none
      (.ipv4 0 44 1 0 64 0 [10, 0, 0, 1] [10, 0, 0, 2] [1, 1, 1, 1] (.udp 257 257 (zeros 16)))).Good ∧
    PortsInPlace 0 [1, 1, 1, 1] (.udp 257 257 (zeros 16)) := by
  refine ⟨by simp [Frame.Good, L4.Good], ?_, by simp [Frame.Good, L4.Good], ?_⟩
  · simp [PortsInPlace, Fragment, L4.bytes, be16]
  · simp [PortsInPlace, Fragment, be16]

end Twink.OfpTuple

namespace Twink.Cord
open OfpTuple Spec

/-! ## C87 -/

/-- The packets that the two graphs treat differently: what port 3 sends without a tag (of which the DEI bit is set), if a match module without default
gate uses gate 0, and it is for LOCAL, or neither for the controller nor from 10.10.10.3. -/
theorem C87_exact (e : Env) (he : e.dflt = none ∨ e.dflt = some 0) (p : Packet) (k : Nat) :
    pyNet.sees e (k + 13) .t0_start p = bessNet.sees e (k + 13) .t0_start p ↔
      ¬ (e.dflt = some 0 ∧ deiTagged e p = false ∧ p.md .inPort = [3] ∧
        (forLocal p.data = true ∨ (forController p.data = false ∧ srcOf e p ≠ [10, 10, 10, 3]))) := by
  have hg : ∀ r, (grpF e r).1 = .out 1 ∨ (grpF e r).1 = .out 4 := by
    intro r; unfold grpF; split
    · exact .inl rfl
    · exact .inr rfl
  have h4 : ∀ r, (t4F e r).1 ≠ .local := by
    intro r
    simp only [t4F, after]
    split
    · unfold F4; split <;> simp [encapF]
    · simp
  have h2 : (t2F e p).1 ≠ .local := by
    have hF : ∀ g, (F2 e g p).1 ≠ .local := by
      intro g
      unfold F2
      split
      · simp
      · intro hc; rcases hg p with h | h <;> rw [h] at hc <;> cases hc
      · exact h4 p
      · simp
    simp only [t2F, pass2, after]
    exact hF _
  constructor
  · rintro h ⟨hd, h0, hp, hc⟩
    rw [bess_sees, py_sees, py_3 hd h0 hp, bess_3 hd h0 hp, Option.some.injEq] at h
    rcases hc with hc | ⟨hc, hs⟩
    · rw [hc, cond_true] at h
      cases hco : forController p.data with
      | true => rw [hco, cond_true] at h; simp at h
      | false =>
        rw [hco, cond_false] at h
        split at h
        · exact h2 (congrArg Prod.fst h).symm
        · have := congrArg Prod.fst h
          rcases hg p with e | e <;> rw [e] at this <;> simp at this
    · rw [hc, cond_false, cond_false, if_neg hs, if_neg hs] at h
      cases hl : forLocal p.data with
      | true =>
        rw [hl, cond_true] at h
        have := congrArg Prod.fst h
        rcases hg p with e | e <;> rw [e] at this <;> simp at this
      | false =>
        rw [hl, cond_false] at h
        have := congrArg Prod.fst h
        rcases hg p with e | e <;> rw [e] at this <;> simp at this
  · intro hn
    by_cases hd : e.dflt = some 0
    · by_cases hp : p.md .inPort = [3]
      · rw [bess_sees, py_sees]
        cases h0 : deiTagged e p with
        | true => congr 1; simp only [pyF, bessF, netF, pass0, h0, after]; rfl
        | false =>
          rw [py_3 hd h0 hp, bess_3 hd h0 hp]
          have hl : forLocal p.data = false := by
            cases hl : forLocal p.data with
            | false => rfl
            | true => exact absurd ⟨hd, h0, hp, .inl hl⟩ hn
          rw [hl, cond_false]
          cases hc : forController p.data with
          | true => rfl
          | false =>
            rw [cond_false, cond_false]
            by_cases hs : srcOf e p = [10, 10, 10, 3]
            · rw [if_pos hs, if_pos hs]
            · exact absurd ⟨hd, h0, hp, .inr ⟨hc, hs⟩⟩ hn
      · exact C87_partial e p k (.inr ⟨hd, hp⟩)
    · exact C87_partial e p k (.inl (he.resolve_right hd))

/-- C87, exactly, for untagged IPv4 packets that are no fragments: the graphs do the same if and only if match modules without default gate drop, the
packet does not come from port 3, or it is neither for LOCAL nor in need of the group: not to 1.1.1.1 or UDP port 4789, and DHCP or from 10.10.10.3. -/
theorem C87_exact_ip (e : Env) (he : e.dflt = none ∨ e.dflt = some 0) (p : Packet) (q : Pkt) (h : Carries p q) (hg : q.frame.Good)
    {src dst : Bytes} {frag : Nat} {l4 : L4} (hi : IsIp q.frame src dst frag l4) (hf : ¬ Fragment frag) (k : Nat) :
    pyNet.sees e (k + 13) .t0_start p = bessNet.sees e (k + 13) .t0_start p ↔
      e.dflt = none ∨ q.inPort ≠ 3 ∨ (dst ≠ [1, 1, 1, 1] ∧ udpTo 4789 l4 = false ∧ (dhcp l4 = true ∨ src = [10, 10, 10, 3])) := by
  have hf' : frag % 8192 = 0 := by
    simp only [Fragment, Decidable.not_not] at hf; omega
  have hp : p.md .inPort = [3] ↔ q.inPort = 3 := h.is 3 (by omega)
  rw [C87_exact e he p k, ip_dei hi hg e p h.data, hp, h.data, ip_local hi hg hf', ip_controller hi hg hf', (ip_fields hi hg e p h.data).1]
  have hd : e.dflt = some 0 ↔ ¬ e.dflt = none := by rcases he with h | h <;> simp [h]
  rw [hd]
  cases udpTo 4789 l4 <;> cases dhcp l4 <;> by_cases h1 : e.dflt = none <;> by_cases h2 : q.inPort = 3 <;> by_cases h3 : dst = [1, 1, 1, 1] <;>
    by_cases h4 : src = [10, 10, 10, 3] <;> simp [h1, h2, h3, h4]

/-- C87, exactly, for untagged ARP packets: only those from port 3 that ask for 1.1.1.1 are treated differently, if match modules without default gate use
gate 0. -/
theorem C87_exact_arp (e : Env) (he : e.dflt = none ∨ e.dflt = some 0) (p : Packet) (q : Pkt) (h : Carries p q) (hg : q.frame.Good)
    {op : Nat} {sha spa tha tpa more : Bytes} (ht : q.frame.tag = none) (hb : q.frame.body = .arp op sha spa tha tpa more) (k : Nat) :
    pyNet.sees e (k + 13) .t0_start p = bessNet.sees e (k + 13) .t0_start p ↔ e.dflt = none ∨ q.inPort ≠ 3 ∨ tpa ≠ [1, 1, 1, 1] := by
  have hp : p.md .inPort = [3] ↔ q.inPort = 3 := h.is 3 (by omega)
  rw [C87_exact e he p k, arp_dei ht hb hg e p h.data, hp, h.data, arp_local ht hb hg, arp_controller ht hb hg]
  have hd : e.dflt = some 0 ↔ ¬ e.dflt = none := by rcases he with h | h <;> simp [h]
  rw [hd]
  by_cases h1 : e.dflt = none <;> by_cases h2 : q.inPort = 3 <;> by_cases h3 : tpa = [1, 1, 1, 1] <;> simp [h1, h2, h3]

/-- Packets of either kind. -/
example : exEnv.dflt = some 0 ∧ (exFrame [10, 10, 10, 4] [10, 10, 12, 1] none 1000 2000).Good ∧
    IsIp (exFrame [10, 10, 10, 4] [10, 10, 12, 1] none 1000 2000) [10, 10, 10, 4] [10, 10, 12, 1] 0 (.udp 1000 2000 [0, 8, 0, 0]) ∧ ¬ Fragment 0 ∧
    Carries (exPacket (exPkt 3 (exFrame [10, 10, 10, 4] [10, 10, 12, 1] none 1000 2000))) (exPkt 3 (exFrame [10, 10, 10, 4] [10, 10, 12, 1] none 1000 2000)) ∧
    (Frame.mk [1, 2, 3, 4, 5, 6] [7, 8, 9, 10, 11, 12] none (.arp 1 [7, 8, 9, 10, 11, 12] [10, 10, 10, 3] [0, 0, 0, 0, 0, 0] [1, 1, 1, 1] [])).Good :=
  ⟨rfl, by simp [exFrame, Frame.Good, L4.Good], ⟨rfl, ⟨_, _, _, _, _, _, rfl⟩⟩, by simp [Fragment], exCarries 3 _ (by omega), by simp [Frame.Good]⟩

end Twink.Cord
