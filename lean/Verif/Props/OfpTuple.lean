import Verif.Model.OfpTuple
import Verif.Spec.OfpTuple
import Verif.Proof.Of13Basics

/-!
# C80: fields of Ethernet frames
-/

namespace Twink.OfpTuple
open Fmt Spec

theorem unpack_app (f : Fmt) (pre r : Bytes) (off : Nat) (ho : off = pre.length) (h : calcsize f ≤ r.length) :
    unpackFrom f (pre ++ r) off = .ok (dec f r) := by
  rw [unpackFrom, if_pos (by rw [List.length_append]; omega), ho, List.drop_left]

theorem dec_u {w : Nat} {p : Bytes} (h : p.length = w) (f : Fmt) (r : Bytes) : dec (.u w :: f) (p ++ r) = .int (decBE p) :: dec f r := by
  subst h; simp [dec]
theorem dec_s {w : Nat} {p : Bytes} (h : p.length = w) (f : Fmt) (r : Bytes) : dec (.s w :: f) (p ++ r) = .str p :: dec f r := by
  subst h; simp [dec]
theorem dec_x {w : Nat} {p : Bytes} (h : p.length = w) (f : Fmt) (r : Bytes) : dec (.x w :: f) (p ++ r) = dec f r := by
  subst h; simp [dec]

@[simp] theorem b8_len (n : Nat) : (b8 n).length = 1 := rfl
@[simp] theorem be16_len (n : Nat) : (be16 n).length = 2 := rfl

theorem dec_be16 {n : Nat} (h : n < 65536) : decBE (be16 n) = n := by
  rw [← encBE_2]; exact decBE_encBE 2 n h
theorem dec_b8 {n : Nat} (h : n < 256) : decBE (b8 n) = n := by
  rw [← encBE_1]; exact decBE_encBE 1 n h

theorem first {dst src b : Bytes} {ty : Nat} (hd : dst.length = 6) (hs : src.length = 6) (ht : ty < 65536) (hb : 4 ≤ b.length) :
    unpackFrom [S 6, S 6, H, H, H] (dst ++ (src ++ (be16 ty ++ b))) 0 =
      .ok [.str dst, .str src, .int ty, .int (decBE (b.take 2)), .int (decBE ((b.drop 2).take 2))] := by
  rw [show dst ++ (src ++ (be16 ty ++ b)) = [] ++ (dst ++ (src ++ (be16 ty ++ b))) from rfl,
    unpack_app _ [] _ 0 rfl (by simp [calcsize, Item.width]; omega)]
  rw [dec_s hd, dec_s hs, dec_u (be16_len ty), dec_be16 ht]
  rfl

/-- What the code takes from an IPv4 header and its first four further bytes. -/
theorem net_ip (pre : Bytes) (k : Key) (off tos len ident frag ttl sum : Nat) (src dst options : Bytes) (l4 : L4) (ho : 14 + off = pre.length)
    (h1 : tos < 256) (h2 : src.length = 4) (h3 : dst.length = 4) (hp : l4.proto < 256) (h4 : 4 ≤ (options ++ l4.bytes).length) :
    net (pre ++ (Body.ipv4 tos len ident frag ttl sum src dst options l4).bytes) 0x0800 off k =
      .ok { k with ipTos := some tos, nwProto := some l4.proto, nwSrc := some src, nwDst := some dst,
                   tpSrc := (ports l4.proto (decBE ((options ++ l4.bytes).take 2)) (decBE (((options ++ l4.bytes).drop 2).take 2))).1,
                   tpDst := (ports l4.proto (decBE ((options ++ l4.bytes).take 2)) (decBE (((options ++ l4.bytes).drop 2).take 2))).2 } := by
  rw [net, if_pos rfl, ho, unpack_app _ _ _ _ rfl (by simp [Body.bytes, calcsize, Item.width] at h4 ⊢; omega)]
  have e : dec [X 1, B, X 7, B, X 2, S 4, S 4, H, H] (Body.ipv4 tos len ident frag ttl sum src dst options l4).bytes =
      [.int tos, .int l4.proto, .str src, .str dst, .int (decBE ((options ++ l4.bytes).take 2)),
        .int (decBE (((options ++ l4.bytes).drop 2).take 2))] := by
    simp only [Body.bytes]
    rw [dec_x (b8_len _), dec_u (b8_len _), dec_b8 h1]
    rw [show ∀ r, be16 len ++ (be16 ident ++ (be16 frag ++ (b8 ttl ++ r))) = (be16 len ++ (be16 ident ++ (be16 frag ++ b8 ttl))) ++ r from
      fun r => by simp only [List.append_assoc]]
    rw [dec_x (w := 7) (p := be16 len ++ (be16 ident ++ (be16 frag ++ b8 ttl))) rfl, dec_u (b8_len _), dec_b8 hp, dec_x (be16_len _), dec_s h2, dec_s h3]
    rfl
  rw [e]

theorem net_arp (pre : Bytes) (k : Key) (off op : Nat) (sha spa tha tpa more : Bytes) (ho : 14 + off = pre.length)
    (h1 : op < 65536) (h2 : sha.length = 6) (h3 : spa.length = 4) (h4 : tha.length = 6) (h5 : tpa.length = 4) :
    net (pre ++ (Body.arp op sha spa tha tpa more).bytes) 0x0806 off k =
      .ok { k with nwProto := some op, nwSrc := some spa, nwDst := some tpa } := by
  rw [net, if_neg (by decide), if_pos rfl, ho, unpack_app _ _ _ _ rfl (by simp [Body.bytes, calcsize, Item.width]; omega)]
  have e : dec [X 6, H, X 6, S 4, X 6, S 4] (Body.arp op sha spa tha tpa more).bytes = [.int op, .str spa, .str tpa] := by
    simp only [Body.bytes]
    rw [show ∀ r, be16 1 ++ (be16 0x0800 ++ (b8 6 ++ (b8 4 ++ r))) = (be16 1 ++ (be16 0x0800 ++ (b8 6 ++ b8 4))) ++ r from
      fun r => by simp only [List.append_assoc]]
    rw [dec_x (w := 6) (p := be16 1 ++ (be16 0x0800 ++ (b8 6 ++ b8 4))) rfl, dec_u (be16_len _), dec_be16 h1, dec_x h2, dec_s h3, dec_x h4, dec_s h5]
    rfl
  rw [e]

/-- The fields that the code takes. -/
def taken (inPort : Option Nat) (f : Frame) : Key :=
  let k : Key := ⟨inPort, f.src, f.dst, f.body.type, f.tag.map (·.vid), f.tag.map (·.pcp), none, none, none, none, none, none⟩
  match f.body with
  | .ipv4 tos _ _ _ _ _ src dst options l4 =>
    let p := ports l4.proto (decBE ((options ++ l4.bytes).take 2)) (decBE (((options ++ l4.bytes).drop 2).take 2))
    { k with nwSrc := some src, nwDst := some dst, nwProto := some l4.proto, ipTos := some tos, tpSrc := p.1, tpDst := p.2 }
  | .arp op _ spa _ tpa _ => { k with nwSrc := some spa, nwDst := some tpa, nwProto := some op }
  | .other .. => k

theorem l4_good {l : L4} (h : l.Good) : l.proto < 256 ∧ 4 ≤ l.bytes.length := by
  cases l <;> simp [L4.Good, L4.proto, L4.bytes] at h ⊢ <;> omega

theorem type_ok {f : Frame} (h : f.Good) : 0x0600 ≤ f.body.type ∧ f.body.type < 65536 ∧
    (f.tag = none → f.body.type ≠ 0x8100 ∧ 4 ≤ f.body.bytes.length) := by
  obtain ⟨_, _, _, h⟩ := h
  cases hb : f.body with
  | ipv4 tos len ident frag ttl sum src dst options l4 =>
    simp only [hb] at h
    simp [Body.type, Body.bytes]
    omega
  | arp op sha spa tha tpa more => simp [Body.type, Body.bytes]; omega
  | other t b =>
    simp only [hb] at h
    exact ⟨h.1, h.2.1, h.2.2.2.2⟩

theorem rest_taken (pre : Bytes) (off : Nat) (inPort : Option Nat) (f : Frame) (h : f.Good) (ho : 14 + off = pre.length) :
    rest (pre ++ f.body.bytes) inPort f.dst f.src f.body.type (f.tag.map (·.vid)) (f.tag.map (·.pcp)) off = .ok (taken inPort f) := by
  obtain ⟨t1, _, _⟩ := type_ok h
  obtain ⟨_, _, _, h⟩ := h
  rw [rest, llc, if_neg (by omega), Of13.ok_bind]
  cases hb : f.body with
  | ipv4 tos len ident frag ttl sum src dst options l4 =>
    simp only [hb] at h
    obtain ⟨g1, _, _, _, _, _, g2, g3, _, _, g4⟩ := h
    obtain ⟨g5, g6⟩ := l4_good g4
    simp only [Body.type]
    rw [net_ip pre _ off tos len ident frag ttl sum src dst options l4 ho g1 g2 g3 g5 (by rw [List.length_append]; omega)]
    simp only [taken, hb, Body.type]
  | arp op sha spa tha tpa more =>
    simp only [hb] at h
    obtain ⟨g1, g2, g3, g4, g5⟩ := h
    simp only [Body.type]
    rw [net_arp pre _ off op sha spa tha tpa more ho g1 g2 g3 g4 g5]
    simp only [taken, hb, Body.type]
  | other t b =>
    simp only [hb] at h
    have hn : ∀ m k, net m t off k = .ok k := fun m k => by rw [net, if_neg h.2.2.1, if_neg h.2.2.2.1]
    simp only [taken, hb, Body.type, hn]

theorem tci_parts (t : Tag) (h : t.pcp < 8 ∧ t.dei < 2 ∧ t.vid < 4096) :
    (t.pcp * 8192 + t.dei * 4096 + t.vid) &&& 0x0FFF = t.vid ∧ (t.pcp * 8192 + t.dei * 4096 + t.vid) >>> 13 = t.pcp := by
  constructor
  · rw [show (0x0FFF : Nat) = 2 ^ 12 - 1 from rfl, Nat.and_two_pow_sub_one_eq_mod]; omega
  · rw [Nat.shiftRight_eq_div_pow]; omega

theorem ofptuple_taken (inPort : Option Nat) (f : Frame) (h : f.Good) : ofptuple f.bytes inPort = .ok (taken inPort f) := by
  obtain ⟨t1, t2, t3⟩ := type_ok h
  have h' := h
  obtain ⟨h1, h2, h3, _⟩ := h'
  cases ht : f.tag with
  | none =>
    obtain ⟨t4, t5⟩ := t3 ht
    simp only [Frame.bytes, ht, List.nil_append]
    rw [ofptuple, first h1 h2 t2 t5]
    simp only [if_neg t4]
    have := rest_taken (f.dst ++ (f.src ++ be16 f.body.type)) 0 inPort f h (by simp [h1, h2])
    simp only [List.append_assoc, ht] at this
    exact this
  | some t =>
    have hr := h3 t ht
    simp only [Frame.bytes, ht, List.append_assoc]
    rw [ofptuple, first h1 h2 (by decide) (by simp; omega)]
    have e1 : decBE (List.take 2 (be16 (t.pcp * 8192 + t.dei * 4096 + t.vid) ++ (be16 f.body.type ++ f.body.bytes))) =
        t.pcp * 8192 + t.dei * 4096 + t.vid := dec_be16 (by omega)
    have e2 : decBE (List.take 2 (List.drop 2 (be16 (t.pcp * 8192 + t.dei * 4096 + t.vid) ++ (be16 f.body.type ++ f.body.bytes)))) =
        f.body.type := dec_be16 t2
    simp only [e1, e2, if_true, (tci_parts t hr).1, (tci_parts t hr).2]
    have := rest_taken (f.dst ++ (f.src ++ (be16 0x8100 ++ (be16 (t.pcp * 8192 + t.dei * 4096 + t.vid) ++ be16 f.body.type)))) 4 inPort f h
      (by simp [h1, h2])
    simp only [List.append_assoc, ht] at this
    exact this

theorem ports_l4 {l : L4} (h : l.Good) :
    ports l.proto (decBE (l.bytes.take 2)) (decBE ((l.bytes.drop 2).take 2)) = (l.src, l.dst) := by
  cases l with
  | tcp s d r => exact (by rw [dec_be16 h.1, dec_be16 h.2]; rfl : ports 6 (decBE (be16 s)) (decBE (be16 d)) = (some s, some d))
  | udp s d r => exact (by rw [dec_be16 h.1, dec_be16 h.2]; rfl : ports 17 (decBE (be16 s)) (decBE (be16 d)) = (some s, some d))
  | icmp t c r =>
    obtain ⟨h1, h2, _⟩ := h
    have e : decBE ((L4.icmp t c r).bytes.take 2) = t * 256 + c := by
      show decBE (b8 t ++ b8 c) = _
      simp only [b8, List.cons_append, List.nil_append, decBE_cons, decBE_nil]
      simp; omega
    rw [e]
    simp only [L4.proto, ports, if_true, L4.src, L4.dst]
    rw [Nat.shiftRight_eq_div_pow, show (0xFF : Nat) = 2 ^ 8 - 1 from rfl, Nat.and_two_pow_sub_one_eq_mod]
    simp; omega
  | other p r =>
    obtain ⟨_, h1, h2, h3, _⟩ := h
    have hn : ∀ a b, ports p a b = (none, none) := fun a b => by rw [ports, if_neg h3, if_neg (by omega)]
    exact hn _ _

/-- C80. From every Ethernet II frame, tagged or not, `ofptuple` takes the fields that OpenFlow 1.0 matches on, if an IPv4 packet has
no options and no congestion bits and is not a fragment, and an operation of ARP has eight bits. -/
theorem C80_fields_partial (inPort : Option Nat) (f : Frame) (h : f.Good) (hp : f.Plain) :
    ofptuple f.bytes inPort = .ok (f.key inPort) := by
  rw [ofptuple_taken inPort f h]
  obtain ⟨_, _, _, h⟩ := h
  simp only [Frame.Plain] at hp
  cases hb : f.body with
  | ipv4 tos len ident frag ttl sum src dst options l4 =>
    simp only [hb] at h hp
    obtain ⟨rfl, h1, h2⟩ := hp
    obtain ⟨_, _, _, _, _, _, _, _, _, _, g4⟩ := h
    simp only [taken, Frame.key, hb, List.nil_append, ports_l4 g4, if_neg h1]
    rw [show tos / 4 * 4 = tos by omega]
  | arp op sha spa tha tpa more =>
    simp only [hb] at hp
    simp only [taken, Frame.key, hb]
    rw [Nat.mod_eq_of_lt hp]
  | other t b => simp only [taken, Frame.key, hb]

/-- The hypotheses are met by a tagged TCP segment, by an echo request and by an ARP request. -/
example : ∀ f ∈ [Frame.mk [1, 2, 3, 4, 5, 6] [7, 8, 9, 10, 11, 12] (some ⟨5, 1, 100⟩)
      (.ipv4 0xb8 44 1 0x4000 64 0 [10, 0, 0, 1] [10, 0, 0, 2] [] (.tcp 1234 80 (zeros 16))),
    ⟨[1, 2, 3, 4, 5, 6], [7, 8, 9, 10, 11, 12], none, .ipv4 0 28 1 0 64 0 [10, 0, 0, 1] [10, 0, 0, 2] [] (.icmp 8 0 (zeros 6))⟩,
    ⟨[255, 255, 255, 255, 255, 255], [7, 8, 9, 10, 11, 12], none, .arp 1 [7, 8, 9, 10, 11, 12] [10, 0, 0, 1] (zeros 6) [10, 0, 0, 2] []⟩],
    f.Good ∧ f.Plain := by
  intro f hf
  simp only [List.mem_cons, List.not_mem_nil, or_false] at hf
  rcases hf with rfl | rfl | rfl
  · refine ⟨⟨rfl, rfl, fun t h => ?_, ?_⟩, rfl, ?_, rfl⟩
    · injection h with h; subst h; exact ⟨by decide, by decide, by decide⟩
    · simp [L4.Good]
    · simp [Fragment]
  · refine ⟨⟨rfl, rfl, fun t h => (by cases h), ?_⟩, rfl, ?_, rfl⟩
    · simp [L4.Good, zeros]
    · simp [Fragment]
  · refine ⟨⟨rfl, rfl, fun t h => (by cases h), ?_⟩, ?_⟩
    · simp [zeros]
    · simp [Frame.Plain]

/-- C80 is false of IPv4 packets with options: the code takes the first four bytes of the options for the ports. -/
theorem C80_options_refuted (inPort : Option Nat) (f : Frame) (h : f.Good) (tos len ident frag ttl sum : Nat) (src dst options : Bytes)
    (o1 o2 : Nat) (h1 : o1 < 65536) (h2 : o2 < 65536) (s d : Nat) (r : Bytes) (l4 : L4) (hl : l4 = .tcp s d r ∨ l4 = .udp s d r)
    (hb : f.body = .ipv4 tos len ident frag ttl sum src dst (be16 o1 ++ (be16 o2 ++ options)) l4) :
    ∃ k, ofptuple f.bytes inPort = .ok k ∧ k.tpSrc = some o1 ∧ k.tpDst = some o2 ∧
      (¬ Fragment frag → o1 ≠ s ∨ o2 ≠ d → k ≠ f.key inPort) := by
  refine ⟨_, ofptuple_taken inPort f h, ?_⟩
  have e1 : ∀ x, decBE (List.take 2 (be16 o1 ++ x)) = o1 := fun x => dec_be16 h1
  have e2 : ∀ x, decBE (List.take 2 (List.drop 2 (be16 o1 ++ (be16 o2 ++ x)))) = o2 := fun x => dec_be16 h2
  have hp : ∀ a b, ports l4.proto a b = (some a, some b) := by rcases hl with rfl | rfl <;> intro a b <;> rfl
  have hs : l4.src = some s ∧ l4.dst = some d := by rcases hl with rfl | rfl <;> exact ⟨rfl, rfl⟩
  simp only [taken, hb, List.append_assoc, e1, e2, hp]
  refine ⟨trivial, trivial, fun hf hne e => ?_⟩
  have e3 := congrArg Key.tpSrc e
  have e4 := congrArg Key.tpDst e
  simp only [Frame.key, hb, if_neg hf, hs.1, hs.2, Option.some.injEq] at e3 e4
  omega

/-- C80 is false of fragments: the code takes the first four bytes of any fragment for the ports, where OpenFlow 1.0 has 0. -/
theorem C80_fragment_refuted (inPort : Option Nat) (f : Frame) (h : f.Good) (tos len ident frag ttl sum : Nat) (src dst : Bytes)
    (s d : Nat) (r : Bytes) (l4 : L4) (hl : l4 = .tcp s d r ∨ l4 = .udp s d r) (hf : Fragment frag)
    (hb : f.body = .ipv4 tos len ident frag ttl sum src dst [] l4) :
    ∃ k, ofptuple f.bytes inPort = .ok k ∧ k.tpSrc = some s ∧ k.tpDst = some d ∧
      (f.key inPort).tpSrc = some 0 ∧ (f.key inPort).tpDst = some 0 := by
  refine ⟨_, ofptuple_taken inPort f h, ?_⟩
  obtain ⟨_, _, _, h⟩ := h
  simp only [hb] at h
  have hg := ports_l4 h.2.2.2.2.2.2.2.2.2.2
  have hs : l4.src = some s ∧ l4.dst = some d := by rcases hl with rfl | rfl <;> exact ⟨rfl, rfl⟩
  simp only [taken, Frame.key, hb, List.nil_append, hg, if_pos hf, hs.1, hs.2, Option.map_some]
  exact ⟨trivial, trivial, trivial, trivial⟩

/-- C80 is false of IPv4 packets with congestion bits and of operations of ARP above 255: the code takes all bits. -/
theorem C80_bits_refuted (inPort : Option Nat) (f : Frame) (h : f.Good) :
    (∀ tos len ident frag ttl sum src dst options l4, f.body = .ipv4 tos len ident frag ttl sum src dst options l4 → tos % 4 ≠ 0 →
      ∃ k, ofptuple f.bytes inPort = .ok k ∧ k.ipTos = some tos ∧ k.ipTos ≠ (f.key inPort).ipTos) ∧
    (∀ op sha spa tha tpa more, f.body = .arp op sha spa tha tpa more → 256 ≤ op →
      ∃ k, ofptuple f.bytes inPort = .ok k ∧ k.nwProto = some op ∧ k.nwProto ≠ (f.key inPort).nwProto) := by
  refine ⟨fun tos len ident frag ttl sum src dst options l4 hb ht => ⟨_, ofptuple_taken inPort f h, ?_⟩,
    fun op sha spa tha tpa more hb ho => ⟨_, ofptuple_taken inPort f h, ?_⟩⟩
  · simp only [taken, Frame.key, hb, ne_eq, Option.some.injEq, true_and]; omega
  · simp only [taken, Frame.key, hb, ne_eq, Option.some.injEq, true_and]; omega

/-- Options, fragments, congestion bits: such a frame is good. -/
example : (Frame.mk [1, 2, 3, 4, 5, 6] [7, 8, 9, 10, 11, 12] none
    (.ipv4 3 44 1 0x2000 64 0 [10, 0, 0, 1] [10, 0, 0, 2] (be16 0x9404 ++ (be16 0 ++ [])) (.udp 53 53 (zeros 16)))).Good := by
  refine ⟨rfl, rfl, fun t h => (by cases h), ?_⟩
  simp [L4.Good]

theorem dec_llc (b : Bytes) : dec [B, B, B, S 3, H] b =
    [.int (decBE (b.take 1)), .int (decBE ((b.drop 1).take 1)), .int (decBE ((b.drop 2).take 1)), .str ((b.drop 3).take 3),
      .int (decBE ((b.drop 6).take 2))] := by
  simp [dec, List.drop_drop]

/-- The test for a SNAP header with a zero OUI, which compares with the text "0x000x000x00", never succeeds. -/
theorem llc_ok (m : Bytes) (ty off : Nat) : llc m ty off = .ok (ty, off) ∨ (ty < 0x05DC ∧ m.length < 22 ∧ llc m ty off = .error .structError) := by
  unfold llc
  split
  · rename_i ht
    by_cases hl : 14 + calcsize [B, B, B, S 3, H] ≤ m.length
    · left
      rw [unpackFrom, if_pos hl, dec_llc]
      simp only
      rw [if_neg]
      rintro ⟨_, _, h⟩
      have := congrArg List.length h
      simp [oui] at this
      omega
    · right
      refine ⟨ht, by simp [calcsize, Item.width] at hl; omega, ?_⟩
      rw [unpackFrom, if_neg hl]
  · exact .inl rfl

/-- C80 is false of 802.3 frames: the type taken is the length of the frame, never the type of the standard. -/
theorem C80_snap_refuted (inPort : Option Nat) (dst src b : Bytes) (len : Nat) (h1 : dst.length = 6) (h2 : src.length = 6)
    (hl : len < 0x05DC) (hb : 8 ≤ b.length) (ht : type8023 b = 0x05ff ∨ 0x0600 ≤ type8023 b) :
    ∃ k, ofptuple (dst ++ (src ++ (be16 len ++ b))) inPort = .ok k ∧ k.dlType = len ∧ k.dlType ≠ type8023 b := by
  rw [ofptuple, first h1 h2 (by omega) (by omega)]
  simp only [if_neg (show len ≠ 0x8100 by omega), rest]
  rcases llc_ok (dst ++ (src ++ (be16 len ++ b))) len 0 with h | ⟨_, h, _⟩
  · rw [h, Of13.ok_bind]
    simp only [net, if_neg (show len ≠ 0x0800 by omega), if_neg (show len ≠ 0x0806 by omega)]
    exact ⟨_, rfl, rfl, by simp only; omega⟩
  · simp at h; omega

/-- A SNAP frame with an ARP packet. -/
example : type8023 ([0xAA, 0xAA, 3, 0, 0, 0, 8, 6] ++ zeros 28) = 0x0806 ∧ type8023 ([0x42, 0x42, 3] ++ zeros 35) = 0x05ff := by
  decide

theorem net_total (m : Bytes) (ty off : Nat) (k : Key) (h : 14 + off + 28 ≤ m.length) : ∃ k', net m ty off k = .ok k' := by
  unfold net
  split
  · rw [unpackFrom, if_pos (by simp [calcsize, Item.width]; omega)]
    exact ⟨_, rfl⟩
  · split
    · rw [unpackFrom, if_pos (by simp [calcsize, Item.width]; omega)]
      exact ⟨_, rfl⟩
    · exact ⟨_, rfl⟩

/-- C80. `ofptuple` gives a tuple for every byte string of at least 46 bytes, in particular for every frame of at least the least
length allowed, 60 bytes; for less than 18 bytes it raises struct.error. -/
theorem C80_total (m : Bytes) (inPort : Option Nat) :
    (46 ≤ m.length → ∃ k, ofptuple m inPort = .ok k) ∧ (m.length < 18 → ofptuple m inPort = .error .structError) := by
  constructor
  · intro h
    have hrest : ∀ d s ty v p, ∀ off, off ≤ 4 → ∃ k, rest m inPort d s ty v p off = .ok k := by
      intro d s ty v p off ho
      rw [rest]
      rcases llc_ok m ty off with e | ⟨_, e, _⟩
      · rw [e, Of13.ok_bind]; exact net_total m ty off _ (by omega)
      · omega
    rw [ofptuple, unpackFrom, if_pos (by simp [calcsize, Item.width]; omega)]
    simp only [dec]
    split
    · exact hrest _ _ _ _ _ 4 (by omega)
    · exact hrest _ _ _ _ _ 0 (by omega)
  · intro h
    rw [ofptuple, unpackFrom, if_neg (by simp [calcsize, Item.width]; omega)]

theorem unpack_take (f : Fmt) (m : Bytes) (off n : Nat) (hn : n ≤ m.length) (h : off + calcsize f ≤ n) :
    unpackFrom f (m.take n) off = unpackFrom f m off := by
  rw [unpackFrom, unpackFrom, if_pos (by simp; omega), if_pos (by omega)]
  congr 1
  refine dec_length_eq f _ _ ?_ (by simp; omega) (by simp; omega)
  rw [List.drop_take, List.take_take, Nat.min_eq_left (by omega)]

/-- C80. The tuple depends on the first 46 bytes only. -/
theorem C80_prefix (m : Bytes) (inPort : Option Nat) (h : 46 ≤ m.length) : ofptuple (m.take 46) inPort = ofptuple m inPort := by
  have hl : ∀ ty off, llc (m.take 46) ty off = llc m ty off := by
    intro ty off; unfold llc; rw [unpack_take _ m 14 46 h (by simp [calcsize, Item.width])]
  have hn : ∀ ty off k, off ≤ 4 → net (m.take 46) ty off k = net m ty off k := by
    intro ty off k ho; unfold net
    rw [unpack_take _ m (14 + off) 46 h (by simp [calcsize, Item.width]; omega), unpack_take _ m (14 + off) 46 h (by simp [calcsize, Item.width]; omega)]
  have hr : ∀ d s ty v p off, off ≤ 4 → rest (m.take 46) inPort d s ty v p off = rest m inPort d s ty v p off := by
    intro d s ty v p off ho
    rw [rest, rest, hl]
    rcases llc_ok m ty off with e | ⟨_, e, _⟩
    · rw [e, Of13.ok_bind, Of13.ok_bind]; exact hn _ _ _ ho
    · omega
  unfold ofptuple
  rw [unpack_take _ m 0 46 h (by simp [calcsize, Item.width])]
  split
  · rw [hr _ _ _ _ _ 4 (by omega), hr _ _ _ _ _ 0 (by omega)]
  · rfl
  · rfl

end Twink.OfpTuple
