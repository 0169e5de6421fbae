import Verif.Proof.Cord

/-! What the modules see of the frames of `Verif.Spec.OfpTuple`. -/

namespace Twink.Cord
open OfpTuple Spec

theorem len4 {a : Bytes} (h : a.length = 4) : ∃ w x y z, a = [w, x, y, z] := by
  match a, h with
  | [w, x, y, z], _ => exact ⟨w, x, y, z, rfl⟩

theorem len6 {a : Bytes} (h : a.length = 6) : ∃ u v w x y z, a = [u, v, w, x, y, z] := by
  match a, h with
  | [u, v, w, x, y, z], _ => exact ⟨u, v, w, x, y, z, rfl⟩

theorem num16 {n : Nat} (h : n < 65536) : (UInt8.ofNat (n / 256)).toNat * 256 + (UInt8.ofNat (n % 256)).toNat = n := by
  simp only [UInt8.toNat_ofNat']
  omega

theorem byte_eq {m n : Nat} (hm : m < 256) (hn : n < 256) : UInt8.ofNat m = UInt8.ofNat n ↔ m = n := by
  constructor
  · intro h
    have := congrArg UInt8.toNat h
    simp only [UInt8.toNat_ofNat'] at this
    omega
  · intro h; rw [h]

theorem u16_at (pre post : Bytes) (n : Nat) (h : n < 65536) : u16 (pre ++ (be16 n ++ post)) pre.length = some n := by
  have h0 : (pre ++ (be16 n ++ post))[pre.length]? = some (UInt8.ofNat (n / 256)) := by
    rw [List.getElem?_append_right (Nat.le_refl _), Nat.sub_self]; rfl
  have h1 : (pre ++ (be16 n ++ post))[pre.length + 1]? = some (UInt8.ofNat (n % 256)) := by
    rw [List.getElem?_append_right (by omega), Nat.add_sub_cancel_left]; rfl
  simp only [u16, h0, h1, num16 h]

section
variable {f : Frame} {src dst : Bytes} {frag : Nat} {l4 : L4} (h : IsIp f src dst frag l4) (hg : f.Good)
include h hg

theorem ip_type : u16 f.bytes 12 = some 0x0800 := by
  obtain ⟨ht, _, _, _, _, _, _, hb⟩ := h
  obtain ⟨_, _, _, _, _, _, h1⟩ := len6 hg.1
  obtain ⟨_, _, _, _, _, _, h2⟩ := len6 hg.2.1
  simp only [Frame.bytes, ht, hb, h1, h2, Body.type]
  rfl

theorem ip_dei (e : Env) (p : Packet) (hp : p.data = f.bytes) : deiTagged e p = false := by
  obtain ⟨ht, _, _, _, _, _, _, hb⟩ := h
  obtain ⟨_, _, _, _, _, _, h1⟩ := len6 hg.1
  obtain ⟨_, _, _, _, _, _, h2⟩ := len6 hg.2.1
  have : typeOf e p = [0x08, 0x00] := by
    simp only [typeOf, hp, Frame.bytes, ht, hb, h1, h2, Body.type]
    rfl
  simp only [deiTagged, this]
  rfl

theorem ip_fields (e : Env) (p : Packet) (hp : p.data = f.bytes) : srcOf e p = src ∧ dstOf e p = dst := by
  obtain ⟨ht, _, _, _, _, _, _, hb⟩ := h
  obtain ⟨g1, g2, _, g3⟩ := hg
  simp only [hb] at g3
  obtain ⟨_, _, _, _, _, _, h1⟩ := len6 g1
  obtain ⟨_, _, _, _, _, _, h2⟩ := len6 g2
  obtain ⟨_, _, _, _, h3⟩ := len4 g3.2.2.2.2.2.2.1
  obtain ⟨_, _, _, _, h4⟩ := len4 g3.2.2.2.2.2.2.2.1
  constructor
  · simp only [srcOf, hp, Frame.bytes, ht, hb, h1, h2, h3, h4, Body.bytes]
    rfl
  · simp only [dstOf, hp, Frame.bytes, ht, hb, h1, h2, h3, h4, Body.bytes]
    rfl

theorem ip_proto : u8 f.bytes 23 = some (l4.proto % 256) ∧ u16 f.bytes 20 = some frag ∧ (f.bytes.drop 30).take 4 = dst := by
  obtain ⟨ht, _, _, _, _, _, _, hb⟩ := h
  obtain ⟨g1, g2, _, g3⟩ := hg
  simp only [hb] at g3
  obtain ⟨_, _, _, _, _, _, h1⟩ := len6 g1
  obtain ⟨_, _, _, _, _, _, h2⟩ := len6 g2
  obtain ⟨_, _, _, _, h3⟩ := len4 g3.2.2.2.2.2.2.1
  obtain ⟨_, _, _, _, h4⟩ := len4 g3.2.2.2.2.2.2.2.1
  refine ⟨?_, ?_, ?_⟩
  · simp only [Frame.bytes, ht, hb, h1, h2, h3, h4, Body.bytes]
    show some (UInt8.ofNat l4.proto).toNat = _
    rw [UInt8.toNat_ofNat']
  · simp only [Frame.bytes, ht, hb, h1, h2, h3, h4, Body.bytes]
    exact congrArg some (num16 g3.2.2.2.1)
  · simp only [Frame.bytes, ht, hb, h1, h2, h3, h4, Body.bytes]
    rfl

/-- The first four bytes after the header. -/
theorem ip_port (s d : Nat) (more : Bytes) (hl : l4.bytes = be16 s ++ (be16 d ++ more)) (hs : s < 65536) (hd : d < 65536) :
    ∃ v, u8 f.bytes 14 = some v ∧ u16 f.bytes (14 + 4 * (v % 16)) = some s ∧ u16 f.bytes (14 + 4 * (v % 16) + 2) = some d := by
  obtain ⟨ht, tos, len, ident, ttl, sum, options, hb⟩ := h
  obtain ⟨g1, g2, _, g3⟩ := hg
  simp only [hb] at g3
  obtain ⟨d1, d2, d3, d4, d5, d6, h1⟩ := len6 g1
  obtain ⟨s1, s2, s3, s4, s5, s6, h2⟩ := len6 g2
  obtain ⟨a1, a2, a3, a4, h3⟩ := len4 g3.2.2.2.2.2.2.1
  obtain ⟨b1, b2, b3, b4, h4⟩ := len4 g3.2.2.2.2.2.2.2.1
  have ho : (0x40 + 5 + options.length / 4) % 16 = 5 + options.length / 4 := by omega
  have e1 : u8 f.bytes 14 = some ((0x40 + 5 + options.length / 4) % 256) := by
    simp only [Frame.bytes, ht, hb, h1, h2, h3, h4, Body.bytes]
    show some (UInt8.ofNat (0x40 + 5 + options.length / 4)).toNat = _
    rw [UInt8.toNat_ofNat']
  have e2 : f.bytes = (f.dst ++ (f.src ++ (be16 0x0800 ++ (b8 (0x40 + 5 + options.length / 4) ++ (b8 tos ++ (be16 len ++ (be16 ident ++ (be16 frag ++
      (b8 ttl ++ (b8 l4.proto ++ (be16 sum ++ (src ++ (dst ++ options))))))))))))) ++ (be16 s ++ (be16 d ++ more)) := by
    simp only [Frame.bytes, ht, hb, Body.bytes, hl, List.append_assoc, List.nil_append, Body.type]
  have e3 : 14 + 4 * ((0x40 + 5 + options.length / 4) % 256 % 16) = (f.dst ++ (f.src ++ (be16 0x0800 ++ (b8 (0x40 + 5 + options.length / 4) ++
      (b8 tos ++ (be16 len ++ (be16 ident ++ (be16 frag ++ (b8 ttl ++ (b8 l4.proto ++ (be16 sum ++ (src ++ (dst ++ options))))))))))))).length := by
    simp [g1, g2, g3.2.2.2.2.2.2.1, g3.2.2.2.2.2.2.2.1]
    omega
  refine ⟨_, e1, ?_, ?_⟩
  · rw [e3, e2]
    exact u16_at _ _ _ hs
  · rw [e3, e2]
    have := u16_at ((f.dst ++ (f.src ++ (be16 0x0800 ++ (b8 (0x40 + 5 + options.length / 4) ++ (b8 tos ++ (be16 len ++ (be16 ident ++ (be16 frag ++
      (b8 ttl ++ (b8 l4.proto ++ (be16 sum ++ (src ++ (dst ++ options))))))))))))) ++ be16 s) more d hd
    rw [List.length_append] at this
    simp only [List.append_assoc] at this ⊢
    exact this

end

section
variable {f : Frame} {src dst : Bytes} {frag : Nat} {l4 : L4} (h : IsIp f src dst frag l4) (hg : f.Good)
include h hg

theorem ip_l4 : l4.Good := by
  obtain ⟨_, _, _, _, _, _, _, hb⟩ := h
  have := hg.2.2.2
  simp only [hb] at this
  exact this.2.2.2.2.2.2.2.2.2.2

theorem ip_udp : Prim.udp.holds f.bytes 0 = decide (l4.proto = 17) := by
  have h1 := ip_type h hg
  have h2 := (ip_proto h hg).1
  have h3 : l4.proto % 256 = l4.proto := by
    have := ip_l4 h hg
    cases l4 <;> simp [L4.Good, L4.proto] at this ⊢
    omega
  simp only [Prim.holds, Nat.add_zero, h1, h2, h3]
  by_cases hp : l4.proto = 17 <;> simp [hp]

theorem ip_ports (hf : frag % 8192 = 0) (s d : Nat) (more : Bytes) (hl : l4 = .udp s d more) (n : Nat) :
    portIs f.bytes 0 0 n = (s == n) ∧ portIs f.bytes 0 2 n = (d == n) := by
  have h1 := ip_type h hg
  obtain ⟨h2, h3, _⟩ := ip_proto h hg
  have hq := ip_l4 h hg
  rw [hl] at hq h2
  obtain ⟨v, h4, h5, h6⟩ := ip_port h hg s d more (by rw [hl]; rfl) hq.1 hq.2
  have h7 : u8 f.bytes 23 = some 17 := h2
  have hsome : ∀ a b : Nat, (some a == some b) = (a == b) := fun a b => rfl
  constructor
  · simp only [portIs, Nat.add_zero, h1, h7, h3, h4, h5, Option.map_some, hf, hsome]
    simp
  · simp only [portIs, Nat.add_zero, h1, h7, h3, h4, h6, Option.map_some, hf, hsome]
    simp

theorem ip_local (hf : frag % 8192 = 0) : forLocal f.bytes = (dst == [1, 1, 1, 1] || udpTo 4789 l4) := by
  have h1 := ip_type h hg
  have h2 := ip_udp h hg
  have h3 := (ip_proto h hg).2.2
  simp only [forLocal, holds, Prim.shift, Nat.add_zero, h2]
  simp only [Prim.holds, Nat.add_zero, h1, h3]
  cases l4 with
  | udp s d more =>
    have := (ip_ports h hg hf s d more rfl 4789).2
    simp [this, L4.proto, udpTo]
  | other pr b =>
    have := ip_l4 h hg
    simp [L4.Good] at this
    simp [udpTo, L4.proto, this]
  | _ => simp [udpTo, L4.proto]

theorem ip_controller (hf : frag % 8192 = 0) : forController f.bytes = dhcp l4 := by
  have h1 := ip_type h hg
  have h2 := ip_udp h hg
  simp only [forController, holds, Prim.shift, Nat.add_zero, h2]
  simp only [Prim.holds, Nat.add_zero, h1]
  cases l4 with
  | udp s d more =>
    have h3 := (ip_ports h hg hf s d more rfl 68).1
    have h4 := (ip_ports h hg hf s d more rfl 67).2
    simp [h3, h4, L4.proto, dhcp]
  | other pr b =>
    have := ip_l4 h hg
    simp [L4.Good] at this
    simp [dhcp, L4.proto, this]
  | _ => simp [dhcp, L4.proto]

end

/-! ARP -/

section
variable {f : Frame} {op : Nat} {sha spa tha tpa more : Bytes} (ht : f.tag = none) (hb : f.body = .arp op sha spa tha tpa more) (hg : f.Good)
include ht hb hg

theorem arp_type : u16 f.bytes 12 = some 0x0806 ∧ (f.bytes.drop 38).take 4 = tpa := by
  obtain ⟨g1, g2, _, g3⟩ := hg
  simp only [hb] at g3
  obtain ⟨_, _, _, _, _, _, h1⟩ := len6 g1
  obtain ⟨_, _, _, _, _, _, h2⟩ := len6 g2
  obtain ⟨_, _, _, _, _, _, h3⟩ := len6 g3.2.1
  obtain ⟨_, _, _, _, h4⟩ := len4 g3.2.2.1
  obtain ⟨_, _, _, _, _, _, h5⟩ := len6 g3.2.2.2.1
  obtain ⟨_, _, _, _, h6⟩ := len4 g3.2.2.2.2
  simp only [Frame.bytes, ht, hb, h1, h2, h3, h4, h5, h6, Body.bytes, Body.type]
  exact ⟨rfl, rfl⟩

theorem arp_dei (e : Env) (p : Packet) (hp : p.data = f.bytes) : deiTagged e p = false := by
  obtain ⟨_, _, _, _, _, _, h1⟩ := len6 hg.1
  obtain ⟨_, _, _, _, _, _, h2⟩ := len6 hg.2.1
  have : typeOf e p = [0x08, 0x06] := by
    simp only [typeOf, hp, Frame.bytes, ht, hb, h1, h2, Body.type]
    rfl
  simp only [deiTagged, this]
  rfl

theorem arp_local : forLocal f.bytes = (tpa == [1, 1, 1, 1]) := by
  obtain ⟨h1, h2⟩ := arp_type ht hb hg
  simp only [forLocal, holds, Prim.shift, Nat.add_zero, Prim.holds, h1, h2]
  simp

theorem arp_controller : forController f.bytes = true := by
  obtain ⟨h1, h2⟩ := arp_type ht hb hg
  simp only [forController, holds, Prim.shift, Nat.add_zero, Prim.holds, h1]
  simp

end

/-! Other types -/

section
variable {f : Frame} {t : Nat} {b : Bytes} (ht : f.tag = none) (hb : f.body = .other t b) (hg : f.Good)
include ht hb hg

theorem other_type : u16 f.bytes 12 = some t := by
  obtain ⟨g1, g2, _, g3⟩ := hg
  simp only [hb] at g3
  have := u16_at (f.dst ++ f.src) b t g3.2.1
  rw [List.length_append, g1, g2] at this
  rw [← this]
  simp only [Frame.bytes, ht, hb, Body.type, Body.bytes, List.append_assoc, List.nil_append]

theorem other_dei (hq : t ≠ 0x88a8) (e : Env) (p : Packet) (hp : p.data = f.bytes) : deiTagged e p = false := by
  obtain ⟨_, _, _, _, _, _, h1⟩ := len6 hg.1
  obtain ⟨_, _, _, _, _, _, h2⟩ := len6 hg.2.1
  have g3 := hg.2.2.2
  simp only [hb] at g3
  have : typeOf e p = [UInt8.ofNat (t / 256), UInt8.ofNat (t % 256)] := by
    simp only [typeOf, hp, Frame.bytes, ht, hb, h1, h2, Body.type]
    rfl
  have h8 : ∀ n, n < 65536 → t ≠ n → ([UInt8.ofNat (t / 256), UInt8.ofNat (t % 256)] == [UInt8.ofNat (n / 256), UInt8.ofNat (n % 256)]) = false := by
    intro n hn hne
    rw [beq_eq_false_iff_ne]
    intro he
    simp only [List.cons.injEq, and_true] at he
    have a1 := (byte_eq (m := t / 256) (n := n / 256) (by omega) (by omega)).1 he.1
    have a2 := (byte_eq (m := t % 256) (n := n % 256) (by omega) (by omega)).1 he.2
    omega
  have h9 := h8 0x8100 (by omega) (g3.2.2.2.2 ht).1
  have h10 := h8 0x88a8 (by omega) hq
  simp only [deiTagged, this]
  rw [show ([0x81, 0x00] : Bytes) = [UInt8.ofNat (0x8100 / 256), UInt8.ofNat (0x8100 % 256)] from rfl,
    show ([0x88, 0xa8] : Bytes) = [UInt8.ofNat (0x88a8 / 256), UInt8.ofNat (0x88a8 % 256)] from rfl, h9, h10]
  rfl

theorem other_local (h6 : t ≠ 0x86dd) : forLocal f.bytes = false := by
  have h1 := other_type ht hb hg
  have g3 := hg.2.2.2
  simp only [hb] at g3
  simp [forLocal, holds, Prim.shift, Prim.holds, h1, g3, h6]

theorem other_controller (h6 : t ≠ 0x86dd) : forController f.bytes = (t == 0x88cc || t == 0x8942) := by
  have h1 := other_type ht hb hg
  have g3 := hg.2.2.2
  simp only [hb] at g3
  have a1 : (t == 0x86dd) = false := beq_no h6
  have a2 : (t == 0x0800) = false := beq_no g3.2.2.1
  have a3 : (t == 0x0806) = false := beq_no g3.2.2.2.1
  simp [forController, holds, Prim.shift, Prim.holds, h1, a1, a2, a3]

theorem other_fields (e : Env) (p : Packet) (hp : p.data = f.bytes) (hl : 20 ≤ b.length) :
    srcOf e p = (b.drop 12).take 4 ∧ dstOf e p = (b.drop 16).take 4 := by
  obtain ⟨_, _, _, _, _, _, h1⟩ := len6 hg.1
  obtain ⟨_, _, _, _, _, _, h2⟩ := len6 hg.2.1
  have key : ∀ o, o + 4 ≤ b.length → e.read f.bytes (14 + o) 4 = (b.drop o).take 4 := by
    intro o ho
    have hb' : ∀ i, i < 4 → f.bytes.getD (14 + o + i) (e.beyond (14 + o + i)) = b.getD (o + i) 0 := by
      intro i hi
      have : f.bytes = (f.dst ++ (f.src ++ be16 t)) ++ b := by
        simp only [Frame.bytes, ht, hb, Body.type, Body.bytes, List.append_assoc, List.nil_append]
      rw [this, List.getD_eq_getElem?_getD, List.getElem?_append_right (by simp [h1, h2]; omega), List.getD_eq_getElem?_getD]
      have hlen : (f.dst ++ (f.src ++ be16 t)).length = 14 := by simp [h1, h2]
      rw [hlen, show 14 + o + i - 14 = o + i by omega, List.getElem?_eq_getElem (by omega)]
      rfl
    apply List.ext_getElem
    · simp [Env.read]; omega
    · intro i h3 h4
      have hi : i < 4 := by simpa [Env.read] using h3
      simp only [Env.read, List.getElem_map, List.getElem_range, hb' i hi, List.getElem_take, List.getElem_drop]
      rw [List.getD_eq_getElem?_getD, List.getElem?_eq_getElem (by omega)]
      rfl
  constructor
  · rw [srcOf, hp]; exact key 12 (by omega)
  · rw [dstOf, hp]; exact key 16 (by omega)

end

/-! Tagged frames -/

section
variable {f : Frame} {t : Tag} (ht : f.tag = some t) (hg : f.Good)
include ht hg

theorem tag_type : u16 f.bytes 12 = some 0x8100 ∧ u16 f.bytes 14 = some (t.pcp * 8192 + t.dei * 4096 + t.vid) ∧ u16 f.bytes 16 = some f.body.type := by
  have hr := hg.2.2.1 t ht
  obtain ⟨g1, g2, _, g3⟩ := hg
  have e1 : f.bytes = (f.dst ++ f.src) ++ (be16 0x8100 ++ (be16 (t.pcp * 8192 + t.dei * 4096 + t.vid) ++ (be16 f.body.type ++ f.body.bytes))) := by
    simp only [Frame.bytes, ht, List.append_assoc]
  have hty : f.body.type < 65536 := by
    cases hb : f.body with
    | other t b => simp only [hb] at g3; exact g3.2.1
    | _ => simp [Body.type]
  refine ⟨?_, ?_, ?_⟩
  · have := u16_at (f.dst ++ f.src) (be16 (t.pcp * 8192 + t.dei * 4096 + t.vid) ++ (be16 f.body.type ++ f.body.bytes)) 0x8100 (by omega)
    rw [List.length_append, g1, g2, ← e1] at this
    exact this
  · have := u16_at (f.dst ++ f.src ++ be16 0x8100) (be16 f.body.type ++ f.body.bytes) (t.pcp * 8192 + t.dei * 4096 + t.vid) (by omega)
    rw [List.length_append, List.length_append, g1, g2, List.append_assoc (f.dst ++ f.src), ← e1] at this
    exact this
  · have := u16_at (f.dst ++ f.src ++ be16 0x8100 ++ be16 (t.pcp * 8192 + t.dei * 4096 + t.vid)) f.body.bytes f.body.type hty
    rw [List.length_append, List.length_append, List.length_append, g1, g2, List.append_assoc (f.dst ++ f.src ++ be16 0x8100),
      List.append_assoc (f.dst ++ f.src), ← e1] at this
    exact this

theorem tag_dei (e : Env) (p : Packet) (hp : p.data = f.bytes) : deiTagged e p = (t.dei == 1) := by
  have hr := hg.2.2.1 t ht
  obtain ⟨_, _, _, _, _, _, h1⟩ := len6 hg.1
  obtain ⟨_, _, _, _, _, _, h2⟩ := len6 hg.2.1
  have a1 : typeOf e p = [0x81, 0x00] := by
    simp only [typeOf, hp, Frame.bytes, ht, h1, h2]
    rfl
  have a2 : tciOf e p = be16 (t.pcp * 8192 + t.dei * 4096 + t.vid) := by
    simp only [tciOf, hp, Frame.bytes, ht, h1, h2]
    rfl
  have a3 : (t.pcp * 8192 + t.dei * 4096 + t.vid) / 256 = t.pcp * 32 + t.dei * 16 + t.vid / 256 := by omega
  have key : ∀ a < 8, ∀ d < 2, ∀ v < 16, (UInt8.ofNat (a * 32 + d * 16 + v) &&& 0x10 == 0x10) = (d == 1) := by decide +kernel
  simp only [deiTagged, a1, a2, be16, List.headD_cons, a3]
  rw [key t.pcp hr.1 t.dei hr.2.1 (t.vid / 256) (by omega)]
  rfl

theorem tag_vlan : holds f.bytes 0 [.vlan 500] = (t.vid == 500) ∧ holds f.bytes 0 [.vlan 500, .arp] = (t.vid == 500 && f.body.type == 0x0806) := by
  obtain ⟨h1, h2, h3⟩ := tag_type ht hg
  have hr := hg.2.2.1 t ht
  have hv : (t.pcp * 8192 + t.dei * 4096 + t.vid) % 4096 = t.vid := by omega
  have hsome : ∀ a b : Nat, (some a == some b) = (a == b) := fun a b => rfl
  simp only [holds, Prim.holds, Prim.shift, Nat.add_zero, h1, h2, h3, Option.map_some, hv, hsome, Nat.zero_add, Nat.reduceAdd]
  simp

theorem tag_pop : f.bytes.take 12 ++ f.bytes.drop 16 = ({ f with tag := none } : Frame).bytes := by
  have e1 : f.bytes = (f.dst ++ f.src) ++ ((be16 0x8100 ++ be16 (t.pcp * 8192 + t.dei * 4096 + t.vid)) ++ (be16 f.body.type ++ f.body.bytes)) := by
    simp only [Frame.bytes, ht, List.append_assoc]
  have e2 : ({ f with tag := none } : Frame).bytes = (f.dst ++ f.src) ++ (be16 f.body.type ++ f.body.bytes) := by
    simp only [Frame.bytes, List.append_assoc, List.nil_append]
  rw [e1, e2, List.take_left' (by rw [List.length_append, hg.1, hg.2.1]), ← List.append_assoc (f.dst ++ f.src) (be16 0x8100 ++ _),
    List.drop_left' (by simp [hg.1, hg.2.1])]

end

end Twink.Cord
