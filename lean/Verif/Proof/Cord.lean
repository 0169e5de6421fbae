import Verif.Spec.CordView

/-! The graphs that the scripts of `Verif.Model.Cord` build, as functions of the packet. -/

namespace Twink.Cord

/-- From this module on the graph is the function `f`, after at most `c` modules. -/
def Net.Acts (n : Net) (e : Env) (x : Name) (c : Nat) (f : Packet → Verdict × Packet) : Prop :=
  ∀ k p, n.sees e (k + c) x p = some (f p)

theorem Net.Acts.mono {n : Net} {e : Env} {x : Name} {c d : Nat} {f : Packet → Verdict × Packet} (h : n.Acts e x c f) (hd : c ≤ d) : n.Acts e x d f := by
  intro k p
  rw [show k + d = (k + (d - c)) + c by omega]
  exact h _ p

def sinkMod : Mod := ⟨.sink, [], [], [], none⟩

theorem acts_sink {n : Net} {e : Env} {x : Name} (h : n.mod x = some sinkMod) : n.Acts e x 1 fun p => (End.sink x p).view := by
  intro k p
  simp only [Net.sees, Net.walk, h]
  rfl

theorem acts_drop {n : Net} {e : Env} {x : Name} (h : n.mod x = some sinkMod) (hv : ∀ p, (End.sink x p).view = (.drop, p)) :
    n.Acts e x 1 fun p => (.drop, p) := by
  have := acts_sink (e := e) h
  simpa only [hv] using this

/-- What a gate leads to. -/
def Net.Gate (n : Net) (e : Env) (x : Name) (c g : Nat) (f : Packet → Verdict × Packet) : Prop :=
  (∃ y, n.next x g = some y ∧ n.Acts e y c f) ∨ (n.next x g = none ∧ f = fun p => (.drop, p))

/-- After the packet has passed the module. -/
def after (F : Nat → Packet → Verdict × Packet) (r : Option Nat × Packet) : Verdict × Packet :=
  match r.1 with
  | some g => F g r.2
  | none => (.drop, r.2)

theorem acts_step {n : Net} {e : Env} {x : Name} {c : Nat} {m : Mod} (F : Nat → Packet → Verdict × Packet) (hm : n.mod x = some m) (hs : m.cls ≠ .sink)
    (h : ∀ g, n.Gate e x c g (F g)) : n.Acts e x (c + 1) fun p => after F (e.pass m p) := by
  intro k p
  simp only [Net.sees, Net.walk, hm, if_neg hs]
  cases hg : (e.pass m p).1 with
  | none => simp only [after, hg]; rfl
  | some g =>
    simp only [after, hg, Option.bind_some]
    rcases h g with ⟨y, hy, ha⟩ | ⟨hy, hf⟩
    · simp only [hy]
      exact ha k _
    · simp only [hy, hf]
      rfl

/-! ## The gates of the tables -/

theorem and_255 (x : UInt8) : x &&& 255 = x := by
  apply UInt8.eq_of_toBitVec_eq
  rw [UInt8.toBitVec_and]
  exact BitVec.and_allOnes

@[simp] theorem zip_mask1 (x : Bytes) : List.zipWith (· &&& ·) x [255] = x.take 1 := by
  cases x <;> simp [and_255]

theorem mask32 (a b c d : UInt8) (v : Bytes) : (List.zipWith (· &&& ·) [a, b, c, d] [255, 255, 255, 255] == v) = ([a, b, c, d] == v) := by
  simp [and_255]

theorem mask24 (a b c d x y z : UInt8) :
    (List.zipWith (· &&& ·) [a, b, c, d] [255, 255, 255, 0] == [x, y, z, 0]) = ([a, b, c] == [x, y, z]) := by
  simp [and_255]

theorem mask0 (a b c d : UInt8) : (List.zipWith (· &&& ·) [a, b, c, d] [0, 0, 0, 0] == [0, 0, 0, 0]) = true := by
  simp

theorem beq_no {α : Type} [BEq α] [LawfulBEq α] {a b : α} (h : ¬ a = b) : (a == b) = false := beq_eq_false_iff_ne.2 h

theorem read4 (e : Env) (d : Bytes) (o : Nat) : ∃ w x y z, e.read d o 4 = [w, x, y, z] := ⟨_, _, _, _, rfl⟩

/-- Bytes 26 to 29 and 30 to 33. -/
def srcOf (e : Env) (p : Packet) : Bytes := e.read p.data 26 4
def dstOf (e : Env) (p : Packet) : Bytes := e.read p.data 30 4
def portOf (p : Packet) : Bytes := (p.md .inPort).take 1

/-- The type of a frame, and the two bytes after it. -/
def typeOf (e : Env) (p : Packet) : Bytes := e.read p.data 12 2
def tciOf (e : Env) (p : Packet) : Bytes := e.read p.data 14 2

def mod0 : Mod := ⟨.wildcard [ETHTYPE, VLANID],
  [(55000, [.int TYPE_VLAN, .int 0x1000], [.int 0xffff, .int 0x1000], 1), (55000, [.int TYPE_QINQ, .int 0x1000], [.int 0xffff, .int 0x1000], 1)], [], [], none⟩

/-- A tag, with the bit after the priority set. -/
def deiTagged (e : Env) (p : Packet) : Bool :=
  (typeOf e p == [0x81, 0x00] || typeOf e p == [0x88, 0xa8]) && ((tciOf e p).headD 0 &&& 0x10 == 0x10)

theorem pass0 (e : Env) (p : Packet) : e.pass mod0 p = (bif deiTagged e p then some 1 else e.dflt, p) := by
  have h1 : e.wildMatch p [ETHTYPE, VLANID] [.int TYPE_VLAN, .int 0x1000] [.int 0xffff, .int 0x1000] =
      (typeOf e p == [0x81, 0x00] && ((tciOf e p).headD 0 &&& 0x10 == 0x10)) := by
    show ((List.zipWith (· &&& ·) (typeOf e p) [255, 255] == [0x81, 0x00]) && ((List.zipWith (· &&& ·) (tciOf e p) [0x10, 0] == [0x10, 0]) && true)) = _
    simp [typeOf, tciOf, Env.read, List.range_succ, and_255]
  have h2 : e.wildMatch p [ETHTYPE, VLANID] [.int TYPE_QINQ, .int 0x1000] [.int 0xffff, .int 0x1000] =
      (typeOf e p == [0x88, 0xa8] && ((tciOf e p).headD 0 &&& 0x10 == 0x10)) := by
    show ((List.zipWith (· &&& ·) (typeOf e p) [255, 255] == [0x88, 0xa8]) && ((List.zipWith (· &&& ·) (tciOf e p) [0x10, 0] == [0x10, 0]) && true)) = _
    simp [typeOf, tciOf, Env.read, List.range_succ, and_255]
  simp only [Env.pass, Env.matching, mod0, List.filter, h1, h2, deiTagged]
  cases typeOf e p == [0x81, 0x00] <;> cases typeOf e p == [0x88, 0xa8] <;> cases (tciOf e p).headD 0 &&& 0x10 == 0x10 <;> rfl

/-- `t0_inport` without the rules added by mistake (`m = []`) or with them. -/
def modIn (m : List (List Val × Nat)) (d : Option Nat) : Mod := ⟨.exact [INPORT], [], [([.int 2], 1), ([.int 101], 2)] ++ m, [], d⟩

theorem passIn (e : Env) (d : Option Nat) (p : Packet) :
    e.pass (modIn [] d) p = (bif p.md .inPort == [2] then some 1 else bif p.md .inPort == [101] then some 2 else (d <|> e.dflt), p) := by
  have h1 : e.exactMatch p [INPORT] [.int 2] = (p.md .inPort == [2]) := Bool.and_true _
  have h2 : e.exactMatch p [INPORT] [.int 101] = (p.md .inPort == [101]) := Bool.and_true _
  simp only [Env.pass, Env.matching, modIn, List.append_nil, List.filter, h1, h2]
  cases p.md .inPort == [2] <;> cases p.md .inPort == [101] <;> rfl

theorem passIn3 (e : Env) (d : Option Nat) (p : Packet) :
    e.pass (modIn [([.int 3], 1)] d) p =
      (bif p.md .inPort == [2] || p.md .inPort == [3] then some 1 else bif p.md .inPort == [101] then some 2 else (d <|> e.dflt), p) := by
  have h1 : e.exactMatch p [INPORT] [.int 2] = (p.md .inPort == [2]) := Bool.and_true _
  have h2 : e.exactMatch p [INPORT] [.int 101] = (p.md .inPort == [101]) := Bool.and_true _
  have h3 : e.exactMatch p [INPORT] [.int 3] = (p.md .inPort == [3]) := Bool.and_true _
  have h4 : (p.md .inPort == [101] && p.md .inPort == [3]) = false := by
    rw [Bool.eq_false_iff]
    simp only [ne_eq, Bool.and_eq_true, beq_iff_eq, not_and]
    intro h; rw [h]; decide
  simp only [Env.pass, Env.matching, modIn, List.cons_append, List.nil_append, List.filter, h1, h2, h3]
  revert h4
  cases p.md .inPort == [2] <;> cases p.md .inPort == [101] <;> cases p.md .inPort == [3] <;> first | (intro _; rfl) | (intro h; cases h)

def modP2 : Mod := ⟨.bpf, [], [],
  [(50000, [.ip, .dstHost [1, 1, 1, 1]], 1), (50000, [.arp, .dstHost [1, 1, 1, 1]], 1), (50000, [.udp, .dstPort 4789], 1)], none⟩

/-- The three filters of `t0_p2`. -/
def forLocal (d : Bytes) : Bool := holds d 0 [.ip, .dstHost [1, 1, 1, 1]] || holds d 0 [.arp, .dstHost [1, 1, 1, 1]] || holds d 0 [.udp, .dstPort 4789]

theorem passP2 (e : Env) (p : Packet) : e.pass modP2 p = (bif forLocal p.data then some 1 else some 0, p) := by
  simp only [Env.pass, Env.matching, modP2, List.filter, forLocal]
  cases holds p.data 0 [.ip, .dstHost [1, 1, 1, 1]] <;> cases holds p.data 0 [.arp, .dstHost [1, 1, 1, 1]] <;>
    cases holds p.data 0 [.udp, .dstPort 4789] <;> rfl

def modDf : Mod := ⟨.bpf, [], [],
  [(40000, [.udp, .srcPort 68, .dstPort 67], 1), (40000, [.etherProto 0x88cc], 1), (40000, [.etherProto 0x8942], 1), (40000, [.arp], 1)], none⟩

/-- The four filters of `t0_default`. -/
def forController (d : Bytes) : Bool :=
  holds d 0 [.udp, .srcPort 68, .dstPort 67] || holds d 0 [.etherProto 0x88cc] || holds d 0 [.etherProto 0x8942] || holds d 0 [.arp]

theorem passDf (e : Env) (p : Packet) : e.pass modDf p = (bif forController p.data then some 1 else some 0, p) := by
  simp only [Env.pass, Env.matching, modDf, List.filter, forController]
  cases holds p.data 0 [.udp, .srcPort 68, .dstPort 67] <;> cases holds p.data 0 [.etherProto 0x88cc] <;>
    cases holds p.data 0 [.etherProto 0x8942] <;> cases holds p.data 0 [.arp] <;> rfl

def mod1 : Mod := ⟨.wildcard [INPORT, IPSRC],
  [(5000, [.int 1, ip 0 0 0 0], [.int 0xff, ip 0 0 0 0], 0), (5000, [.int 2, ip 0 0 0 0], [.int 0xff, ip 0 0 0 0], 1),
   (5000, [.int 3, ip 10 10 10 3], [.int 0xff, ip 255 255 255 255], 2), (5000, [.int 4, ip 10 10 12 3], [.int 0xff, ip 255 255 255 255], 2),
   (4000, [.int 3, ip 0 0 0 0], [.int 0xff, ip 0 0 0 0], 3), (4000, [.int 3, ip 0 0 0 0], [.int 0xff, ip 0 0 0 0], 3)], [], [], some 4⟩

theorem pass1 (e : Env) (p : Packet) : e.pass mod1 p =
    (some (if portOf p = [1] then 0 else if portOf p = [2] then 1 else if portOf p = [3] ∧ srcOf e p = [10, 10, 10, 3] then 2
      else if portOf p = [4] ∧ srcOf e p = [10, 10, 12, 3] then 2 else if portOf p = [3] then 3 else 4), p) := by
  have hw : ∀ n : UInt8, e.wildMatch p [INPORT, IPSRC] [.int n.toNat, ip 0 0 0 0] [.int 0xff, ip 0 0 0 0] = (portOf p == [n]) := by
    intro n
    show ((List.zipWith (· &&& ·) (p.md .inPort) [255] == List.zipWith (· &&& ·) (encBE 1 n.toNat).reverse [255]) &&
      ((List.zipWith (· &&& ·) (srcOf e p) [0, 0, 0, 0] == [0, 0, 0, 0]) && true)) = _
    simp [srcOf, Env.read, List.range_succ, portOf, encBE, and_255]
  have hx : ∀ (n a b c d : UInt8), e.wildMatch p [INPORT, IPSRC] [.int n.toNat, ip a b c d] [.int 0xff, ip 255 255 255 255] =
      (portOf p == [n] && srcOf e p == [a, b, c, d]) := by
    intro n a b c d
    show ((List.zipWith (· &&& ·) (p.md .inPort) [255] == List.zipWith (· &&& ·) (encBE 1 n.toNat).reverse [255]) &&
      ((List.zipWith (· &&& ·) (srcOf e p) [255, 255, 255, 255] == List.zipWith (· &&& ·) [a, b, c, d] [255, 255, 255, 255]) && true)) = _
    simp [srcOf, Env.read, List.range_succ, portOf, encBE, and_255]
  have h1 := hw 1
  have h2 := hw 2
  have h3 := hx 3 10 10 10 3
  have h4 := hx 4 10 10 12 3
  have h5 := hw 3
  simp only [show (1 : UInt8).toNat = 1 from rfl, show (2 : UInt8).toNat = 2 from rfl, show (3 : UInt8).toNat = 3 from rfl,
    show (4 : UInt8).toNat = 4 from rfl] at h1 h2 h3 h4 h5
  simp only [Env.pass, Env.matching, mod1, List.filter, h1, h2, h3, h4, h5]
  by_cases c1 : portOf p = [1]
  · simp [c1, best]
  by_cases c2 : portOf p = [2]
  · simp [c2, best]
  by_cases c3 : portOf p = [3]
  · by_cases c4 : srcOf e p = [10, 10, 10, 3]
    · simp [c3, c4, best]
    · simp [c3, c4, beq_no c4, best]
  by_cases c5 : portOf p = [4]
  · by_cases c6 : srcOf e p = [10, 10, 12, 3]
    · simp [c5, c6, best]
    · simp [c5, c6, beq_no c6, best]
  simp [c1, c2, c3, c5, beq_no c1, beq_no c2, beq_no c3, beq_no c5, best]

def mod2 : Mod := ⟨.wildcard [IPSRC, IPDST],
  [(50000, [ip 10 10 10 0, ip 10 10 12 1], [ip 255 255 255 0, ip 255 255 255 255], 1),
   (5000, [ip 10 10 12 0, ip 10 10 12 0], [ip 255 255 255 0, ip 255 255 255 0], 2),
   (5000, [ip 10 10 12 0, ip 10 10 10 0], [ip 255 255 255 0, ip 255 255 255 0], 2),
   (5000, [ip 10 10 10 0, ip 10 10 12 0], [ip 255 255 255 0, ip 255 255 255 0], 2),
   (5000, [ip 10 10 10 0, ip 10 10 10 0], [ip 255 255 255 0, ip 255 255 255 0], 2),
   (4000, [ip 0 0 0 0, ip 10 10 10 0], [ip 0 0 0 0, ip 255 255 255 0], 3),
   (4000, [ip 0 0 0 0, ip 10 10 12 0], [ip 0 0 0 0, ip 255 255 255 0], 3)], [], [], some 0⟩

/-- In one of the two networks. -/
def inside (a : Bytes) : Bool := a.take 3 == [10, 10, 10] || a.take 3 == [10, 10, 12]

theorem pass2 (e : Env) (p : Packet) : e.pass mod2 p =
    (some (bif (srcOf e p).take 3 == [10, 10, 10] && dstOf e p == [10, 10, 12, 1] then 1 else bif inside (dstOf e p) then
      (bif inside (srcOf e p) then 2 else 3) else 0), p) := by
  have h1 : e.wildMatch p [IPSRC, IPDST] [ip 10 10 10 0, ip 10 10 12 1] [ip 255 255 255 0, ip 255 255 255 255] =
      ((srcOf e p).take 3 == [10, 10, 10] && dstOf e p == [10, 10, 12, 1]) := by
    show ((List.zipWith (· &&& ·) (srcOf e p) [255, 255, 255, 0] == [10, 10, 10, 0]) &&
      ((List.zipWith (· &&& ·) (dstOf e p) [255, 255, 255, 255] == [10, 10, 12, 1]) && true)) = _
    simp [srcOf, dstOf, Env.read, List.range_succ, and_255]
  have hw : ∀ x y : UInt8, e.wildMatch p [IPSRC, IPDST] [ip 10 10 x 0, ip 10 10 y 0] [ip 255 255 255 0, ip 255 255 255 0] =
      ((srcOf e p).take 3 == [10, 10, x] && (dstOf e p).take 3 == [10, 10, y]) := by
    intro x y
    show ((List.zipWith (· &&& ·) (srcOf e p) [255, 255, 255, 0] == List.zipWith (· &&& ·) [10, 10, x, 0] [255, 255, 255, 0]) &&
      ((List.zipWith (· &&& ·) (dstOf e p) [255, 255, 255, 0] == List.zipWith (· &&& ·) [10, 10, y, 0] [255, 255, 255, 0]) && true)) = _
    simp [srcOf, dstOf, Env.read, List.range_succ, and_255]
  have hz : ∀ y : UInt8, e.wildMatch p [IPSRC, IPDST] [ip 0 0 0 0, ip 10 10 y 0] [ip 0 0 0 0, ip 255 255 255 0] =
      ((dstOf e p).take 3 == [10, 10, y]) := by
    intro y
    show ((List.zipWith (· &&& ·) (srcOf e p) [0, 0, 0, 0] == [0, 0, 0, 0]) &&
      ((List.zipWith (· &&& ·) (dstOf e p) [255, 255, 255, 0] == List.zipWith (· &&& ·) [10, 10, y, 0] [255, 255, 255, 0]) && true)) = _
    simp [srcOf, dstOf, Env.read, List.range_succ, and_255]
  have h5 : dstOf e p = [10, 10, 12, 1] → (dstOf e p).take 3 = [10, 10, 12] := fun h => by rw [h]; rfl
  simp only [Env.pass, Env.matching, mod2, List.filter, h1, hw, hz, inside]
  by_cases c1 : (srcOf e p).take 3 = [10, 10, 10]
  · by_cases c3 : (dstOf e p).take 3 = [10, 10, 10]
    · by_cases c5 : dstOf e p = [10, 10, 12, 1]
      · rw [h5 c5] at c3; cases c3
      · simp [c1, c3, beq_no c5, best]
    · by_cases c4 : (dstOf e p).take 3 = [10, 10, 12]
      · by_cases c5 : dstOf e p = [10, 10, 12, 1]
        · simp [c1, c5, best]
        · simp [c1, c4, beq_no c5, best]
      · by_cases c5 : dstOf e p = [10, 10, 12, 1]
        · exact absurd (h5 c5) c4
        · simp [c1, beq_no c3, beq_no c4, beq_no c5, best]
  · by_cases c2 : (srcOf e p).take 3 = [10, 10, 12]
    · by_cases c3 : (dstOf e p).take 3 = [10, 10, 10]
      · simp [c2, c3, best]
      · by_cases c4 : (dstOf e p).take 3 = [10, 10, 12]
        · simp [c2, c4, best]
        · simp [c2, beq_no c3, beq_no c4, best]
    · by_cases c3 : (dstOf e p).take 3 = [10, 10, 10]
      · simp [beq_no c1, beq_no c2, c3, best]
      · by_cases c4 : (dstOf e p).take 3 = [10, 10, 12]
        · simp [beq_no c1, beq_no c2, c4, best]
        · simp [beq_no c1, beq_no c2, beq_no c3, beq_no c4, best]

def mod3 (l : List (List Val × Nat)) : Mod := ⟨.exact [INPORT], [], l, [], some 0⟩

theorem pass3 (e : Env) (p : Packet) : e.pass (mod3 [([.int 3], 1)]) p = (some (bif p.md .inPort == [3] then 1 else 0), p) := by
  have h : e.exactMatch p [INPORT] [.int 3] = (p.md .inPort == [3]) := Bool.and_true _
  simp only [Env.pass, Env.matching, mod3, List.filter, h]
  cases p.md .inPort == [3] <;> rfl

theorem pass3' (e : Env) (p : Packet) : e.pass (mod3 []) p = (some 0, p) := rfl

def mod4 : Mod := ⟨.exact [IPDST], [],
  [([ip 10 10 12 3], 1), ([ip 10 10 12 2], 2), ([ip 10 10 10 2], 3), ([ip 10 10 10 3], 4)], [], none⟩

theorem pass4 (e : Env) (p : Packet) : e.pass mod4 p =
    (if dstOf e p = [10, 10, 12, 3] then some 1 else if dstOf e p = [10, 10, 12, 2] then some 2 else if dstOf e p = [10, 10, 10, 2] then some 3
      else if dstOf e p = [10, 10, 10, 3] then some 4 else e.dflt, p) := by
  have h : ∀ a b c d, e.exactMatch p [IPDST] [ip a b c d] = (dstOf e p == [a, b, c, d]) := fun a b c d => Bool.and_true _
  simp only [Env.pass, Env.matching, mod4, List.filter, h]
  by_cases c1 : dstOf e p = [10, 10, 12, 3]
  · simp [c1, best]
  by_cases c2 : dstOf e p = [10, 10, 12, 2]
  · simp [c2, best]
  by_cases c3 : dstOf e p = [10, 10, 10, 2]
  · simp [c3, best]
  by_cases c4 : dstOf e p = [10, 10, 10, 3]
  · simp [c4, best]
  simp [c1, c2, c3, c4, beq_no c1, beq_no c2, beq_no c3, beq_no c4, best]

def mod5 : Mod := ⟨.exact [TUNID, HWSRC], [],
  [([.int 0x406, mac 0xfa 0x16 0x3e 0x3e 0x82 0xe8], 1), ([.int 0x40c, mac 0xfa 0x16 0x3e 0xcf 0xf2 0x56], 2)], [], some 0⟩

theorem pass5 (e : Env) (p : Packet) : e.pass mod5 p =
    (some (if p.md .tunId = [6, 4, 0, 0] ∧ e.read p.data 0 6 = [0xfa, 0x16, 0x3e, 0x3e, 0x82, 0xe8] then 1
      else if p.md .tunId = [12, 4, 0, 0] ∧ e.read p.data 0 6 = [0xfa, 0x16, 0x3e, 0xcf, 0xf2, 0x56] then 2 else 0), p) := by
  have h1 : e.exactMatch p [TUNID, HWSRC] [.int 0x406, mac 0xfa 0x16 0x3e 0x3e 0x82 0xe8] =
      (p.md .tunId == [6, 4, 0, 0] && e.read p.data 0 6 == [0xfa, 0x16, 0x3e, 0x3e, 0x82, 0xe8]) := by
    show (p.md .tunId == [6, 4, 0, 0] && (e.read p.data 0 6 == [0xfa, 0x16, 0x3e, 0x3e, 0x82, 0xe8] && true)) = _
    rw [Bool.and_true]
  have h2 : e.exactMatch p [TUNID, HWSRC] [.int 0x40c, mac 0xfa 0x16 0x3e 0xcf 0xf2 0x56] =
      (p.md .tunId == [12, 4, 0, 0] && e.read p.data 0 6 == [0xfa, 0x16, 0x3e, 0xcf, 0xf2, 0x56]) := by
    show (p.md .tunId == [12, 4, 0, 0] && (e.read p.data 0 6 == [0xfa, 0x16, 0x3e, 0xcf, 0xf2, 0x56] && true)) = _
    rw [Bool.and_true]
  simp only [Env.pass, Env.matching, mod5, List.filter, h1, h2]
  by_cases c1 : p.md .tunId = [6, 4, 0, 0]
  · by_cases c2 : e.read p.data 0 6 = [0xfa, 0x16, 0x3e, 0x3e, 0x82, 0xe8] 
    · simp [c1, c2, best]
    · simp [c1, c2, beq_no c2, best]
  · by_cases c3 : p.md .tunId = [12, 4, 0, 0]
    · by_cases c4 : e.read p.data 0 6 = [0xfa, 0x16, 0x3e, 0xcf, 0xf2, 0x56]
      · simp [c3, c4, best]
      · simp [c3, c4, beq_no c4, best]
    · simp [c1, c3, beq_no c1, beq_no c3, best]

def mod6 : Mod := ⟨.bpf, [], [], [(50000, [.vlan 500, .arp], 1), (5000, [.vlan 500], 2)], none⟩

theorem pass6 (e : Env) (p : Packet) : e.pass mod6 p =
    (some (bif holds p.data 0 [.vlan 500, .arp] then 1 else bif holds p.data 0 [.vlan 500] then 2 else 0), p) := by
  simp only [Env.pass, Env.matching, mod6, List.filter]
  cases holds p.data 0 [.vlan 500, .arp] <;> cases holds p.data 0 [.vlan 500] <;> rfl

/-! ## The whole graphs -/

theorem next_none {n : Net} {x : Name} {c g : Nat} (h : (n.links.all fun l => l.1.1 != x || decide (l.1.2 < c)) = true) (hg : c ≤ g) :
    n.next x g = none := by
  rw [Net.next, List.lookup_eq_none_iff]
  intro l hl
  have := List.all_eq_true.1 h l hl
  simp only [Bool.or_eq_true, bne_iff_ne, decide_eq_true_eq] at this
  rw [bne_iff_ne]
  intro e
  rcases this with h1 | h1
  · exact h1 (by rw [← e])
  · rw [← e] at h1
    simp at h1
    omega

/-- The seventeen characters of the last three bytes of an address that starts with fa:16:3e, cut to the field. -/
def Env.text (e : Env) (a b c : UInt8) : Bytes := e.bytes HWDST (macText 0xfa 0x16 0x3e a b c)

/-- `Update` of the field HWDST: bytes 6 to 11. -/
def upd (e : Env) (a b c : UInt8) (p : Packet) : Packet := { p with data := write p.data 6 (e.text a b c) }

/-- `SetMetadata` of the tunnel. -/
def tun (id : Bytes) (p : Packet) : Packet :=
  { p with md := fun x => if x = .tunDst then [1, 1, 1, 2] else if x = .tunId then id else p.md x }

def encapF (e : Env) (p : Packet) : Verdict × Packet :=
  (.out 1, { p with data := e.encap .etherEncap (e.encap .ipEncap (e.encap .vxlanEncap p.data p.md) p.md) p.md })

def grpF (e : Env) (p : Packet) : Verdict × Packet :=
  if e.hash p.data % 2 = 0 then encapF e (tun [12, 4, 0, 0] (upd e 0xf3 0x5e 0x82 p)) else (.out 4, upd e 0xcf 0xf2 0x56 p)

def F5 (_ : Env) : Nat → Packet → Verdict × Packet
  | 1, p => (.out 3, p)
  | 2, p => (.out 4, p)
  | _, p => (.drop, p)

def F4 (e : Env) : Nat → Packet → Verdict × Packet
  | 1, p => (.out 4, upd e 0xcf 0xf2 0x56 p)
  | 2, p => encapF e (tun [12, 4, 0, 0] (upd e 0xf3 0x5e 0x82 p))
  | 3, p => encapF e (tun [6, 4, 0, 0] (upd e 0xda 0x05 0xed p))
  | 4, p => (.out 3, upd e 0x3e 0x82 0xe8 p)
  | _, p => (.drop, p)

def F3 (e : Env) : Nat → Packet → Verdict × Packet
  | 1, p => grpF e p
  | _, p => (.drop, p)

def t4F (e : Env) (p : Packet) : Verdict × Packet := after (F4 e) (e.pass mod4 p)
def t5F (e : Env) (p : Packet) : Verdict × Packet := after (F5 e) (e.pass mod5 p)
def t3F (e : Env) (m : Mod) (p : Packet) : Verdict × Packet := after (F3 e) (e.pass m p)

def F2 (e : Env) : Nat → Packet → Verdict × Packet
  | 0, p => (.out 2, p)
  | 1, p => grpF e p
  | 2, p => t4F e p
  | _, p => (.drop, p)

def t2F (e : Env) (p : Packet) : Verdict × Packet := after (F2 e) (e.pass mod2 p)

def F1 (e : Env) (m3 : Mod) : Nat → Packet → Verdict × Packet
  | 0, p => t5F e p
  | 1, p => t4F e p
  | 2, p => t2F e p
  | 3, p => t3F e m3 p
  | _, p => (.drop, p)

def t1F (e : Env) (m3 : Mod) (p : Packet) : Verdict × Packet := after (F1 e m3) (e.pass mod1 p)

def FDf (e : Env) (m3 : Mod) : Nat → Packet → Verdict × Packet
  | 0, p => t1F e m3 p
  | 1, p => (.controller, p)
  | _, p => (.drop, p)

def dfF (e : Env) (m3 : Mod) (p : Packet) : Verdict × Packet := after (FDf e m3) (e.pass modDf p)

def FP2 (e : Env) (m3 : Mod) : Nat → Packet → Verdict × Packet
  | 0, p => dfF e m3 p
  | 1, p => (.local, p)
  | _, p => (.drop, p)

def p2F (e : Env) (m3 : Mod) (p : Packet) : Verdict × Packet := after (FP2 e m3) (e.pass modP2 p)

def FIn (e : Env) (m3 : Mod) : Nat → Packet → Verdict × Packet
  | 0, p => dfF e m3 p
  | 1, p => p2F e m3 p
  | 2, p => (.out 2, p)
  | _, p => (.drop, p)

def inF (e : Env) (mi m3 : Mod) (p : Packet) : Verdict × Packet := after (FIn e m3) (e.pass mi p)

def F6 (_ : Env) : Nat → Packet → Verdict × Packet
  | 1, p => (.controller, p)
  | 2, p => (.out 2, { p with data := p.data.take 12 ++ p.data.drop 16 })
  | _, p => (.drop, p)

def t6F (e : Env) (p : Packet) : Verdict × Packet := after (F6 e) (e.pass mod6 p)

def F0 (e : Env) (mi m3 : Mod) : Nat → Packet → Verdict × Packet
  | 0, p => inF e mi m3 p
  | 1, p => t6F e p
  | _, p => (.drop, p)

/-- The whole graph. -/
def netF (e : Env) (mi m3 : Mod) (p : Packet) : Verdict × Packet := after (F0 e mi m3) (e.pass mod0 p)

/-- A chain of modules with one gate. -/
theorem acts_one {n : Net} {e : Env} {x y : Name} {c : Nat} {m : Mod} {f : Packet → Verdict × Packet} (hm : n.mod x = some m) (hs : m.cls ≠ .sink)
    (hy : n.next x 0 = some y) (h1 : (n.links.all fun l => l.1.1 != x || decide (l.1.2 < 1)) = true)
    (hp : ∀ p, (e.pass m p).1 = some 0) (h : n.Acts e y c f) : n.Acts e x (c + 1) fun p => f (e.pass m p).2 := by
  have := acts_step (fun | 0 => f | _ => fun p => (.drop, p)) hm hs (c := c) (e := e) (fun
    | 0 => .inl ⟨y, hy, h⟩
    | g + 1 => .inr ⟨next_none h1 (by omega), rfl⟩)
  intro k p
  rw [this k p]
  simp only [after, hp]

/-- The names that differ between the scripts. -/
structure Names where
  (ipE ethE u1 u2 s2 u3 s3 u4 pop g1 gs g2 d1 d2 d3 d5 d6 : Name)

/-- What the scripts have in common. -/
structure Wired (n : Net) (w : Names) (mi m3 : Mod) : Prop where
  t0 : n.mod .t0_start = some mod0
  ti : n.mod .t0_inport = some mi
  tp : n.mod .t0_p2 = some modP2
  td : n.mod .t0_default = some modDf
  t1 : n.mod .t1_start = some mod1
  t2 : n.mod .t2_start = some mod2
  t3 : n.mod .t3_start = some m3
  t4 : n.mod .t4_start = some mod4
  t5 : n.mod .t5_start = some mod5
  t6 : n.mod .t6_start = some mod6
  grp : n.mod .grp_start = some ⟨.hashLB 2, [], [], [], none⟩
  enc : n.mod .encap_and_out1 = some ⟨.vxlanEncap, [], [], [], none⟩
  ipE : n.mod w.ipE = some ⟨.ipEncap, [], [], [], none⟩
  ethE : n.mod w.ethE = some ⟨.etherEncap, [], [], [], none⟩
  u1 : n.mod w.u1 = some ⟨.update [(HWDST, macText 0xfa 0x16 0x3e 0xcf 0xf2 0x56)], [], [], [], none⟩
  u2 : n.mod w.u2 = some ⟨.update [(HWDST, macText 0xfa 0x16 0x3e 0xf3 0x5e 0x82)], [], [], [], none⟩
  s2 : n.mod w.s2 = some ⟨.setMetadata [(TUNID, .int 0x40c), (TUNDST, ip 1 1 1 2)], [], [], [], none⟩
  u3 : n.mod w.u3 = some ⟨.update [(HWDST, macText 0xfa 0x16 0x3e 0xda 0x05 0xed)], [], [], [], none⟩
  s3 : n.mod w.s3 = some ⟨.setMetadata [(TUNID, .int 0x406), (TUNDST, ip 1 1 1 2)], [], [], [], none⟩
  u4 : n.mod w.u4 = some ⟨.update [(HWDST, macText 0xfa 0x16 0x3e 0x3e 0x82 0xe8)], [], [], [], none⟩
  pop : n.mod w.pop = some ⟨.vlanPop, [], [], [], none⟩
  g1 : n.mod w.g1 = some ⟨.update [(HWDST, macText 0xfa 0x16 0x3e 0xf3 0x5e 0x82)], [], [], [], none⟩
  gs : n.mod w.gs = some ⟨.setMetadata [(TUNID, .int 0x40c), (TUNDST, ip 1 1 1 2)], [], [], [], none⟩
  g2 : n.mod w.g2 = some ⟨.update [(HWDST, macText 0xfa 0x16 0x3e 0xcf 0xf2 0x56)], [], [], [], none⟩
  o1 : n.mod (.OUT 1) = some sinkMod
  o2 : n.mod (.OUT 2) = some sinkMod
  o3 : n.mod (.OUT 3) = some sinkMod
  o4 : n.mod (.OUT 4) = some sinkMod
  lc : n.mod .LCL = some sinkMod
  ct : n.mod .CTL = some sinkMod
  d1 : n.mod w.d1 = some sinkMod
  d2 : n.mod w.d2 = some sinkMod
  d3 : n.mod w.d3 = some sinkMod
  d5 : n.mod w.d5 = some sinkMod
  d6 : n.mod w.d6 = some sinkMod
  d1v : ∀ p, (End.sink w.d1 p).view = (.drop, p)
  d2v : ∀ p, (End.sink w.d2 p).view = (.drop, p)
  d3v : ∀ p, (End.sink w.d3 p).view = (.drop, p)
  d5v : ∀ p, (End.sink w.d5 p).view = (.drop, p)
  d6v : ∀ p, (End.sink w.d6 p).view = (.drop, p)
  t0_1 : n.next .t0_start 1 = some .t6_start
  t0_0 : n.next .t0_start 0 = some .t0_inport
  t0_n : (n.links.all fun l => l.1.1 != .t0_start || decide (l.1.2 < 2)) = true
  ti_0 : n.next .t0_inport 0 = some .t0_default
  ti_1 : n.next .t0_inport 1 = some .t0_p2
  ti_2 : n.next .t0_inport 2 = some (.OUT 2)
  ti_n : (n.links.all fun l => l.1.1 != .t0_inport || decide (l.1.2 < 3)) = true
  tp_0 : n.next .t0_p2 0 = some .t0_default
  tp_1 : n.next .t0_p2 1 = some .LCL
  tp_n : (n.links.all fun l => l.1.1 != .t0_p2 || decide (l.1.2 < 2)) = true
  td_0 : n.next .t0_default 0 = some .t1_start
  td_1 : n.next .t0_default 1 = some .CTL
  td_n : (n.links.all fun l => l.1.1 != .t0_default || decide (l.1.2 < 2)) = true
  t1_0 : n.next .t1_start 0 = some .t5_start
  t1_1 : n.next .t1_start 1 = some .t4_start
  t1_2 : n.next .t1_start 2 = some .t2_start
  t1_3 : n.next .t1_start 3 = some .t3_start
  t1_4 : n.next .t1_start 4 = some w.d1
  t1_n : (n.links.all fun l => l.1.1 != .t1_start || decide (l.1.2 < 5)) = true
  t2_0 : n.next .t2_start 0 = some (.OUT 2)
  t2_1 : n.next .t2_start 1 = some .grp_start
  t2_2 : n.next .t2_start 2 = some .t4_start
  t2_3 : n.next .t2_start 3 = some w.d2
  t2_n : (n.links.all fun l => l.1.1 != .t2_start || decide (l.1.2 < 4)) = true
  t3_0 : n.next .t3_start 0 = some w.d3
  t3_1 : n.next .t3_start 1 = some .grp_start
  t3_n : (n.links.all fun l => l.1.1 != .t3_start || decide (l.1.2 < 2)) = true
  t4_1 : n.next .t4_start 1 = some w.u1
  t4_2 : n.next .t4_start 2 = some w.u2
  t4_3 : n.next .t4_start 3 = some w.u3
  t4_4 : n.next .t4_start 4 = some w.u4
  t4_n : (n.links.all fun l => l.1.1 != .t4_start || decide (l.1.2 < 5)) = true
  t5_0 : n.next .t5_start 0 = some w.d5
  t5_1 : n.next .t5_start 1 = some (.OUT 3)
  t5_2 : n.next .t5_start 2 = some (.OUT 4)
  t5_n : (n.links.all fun l => l.1.1 != .t5_start || decide (l.1.2 < 3)) = true
  t6_0 : n.next .t6_start 0 = some w.d6
  t6_1 : n.next .t6_start 1 = some .CTL
  t6_2 : n.next .t6_start 2 = some w.pop
  t6_n : (n.links.all fun l => l.1.1 != .t6_start || decide (l.1.2 < 3)) = true
  grp_0 : n.next .grp_start 0 = some w.g1
  grp_1 : n.next .grp_start 1 = some w.g2
  grp_n : (n.links.all fun l => l.1.1 != .grp_start || decide (l.1.2 < 2)) = true
  t4_0 : n.next .t4_start 0 = none
  u1_0 : n.next w.u1 0 = some (.OUT 4)
  u1_n : (n.links.all fun l => l.1.1 != w.u1 || decide (l.1.2 < 1)) = true
  u2_0 : n.next w.u2 0 = some w.s2
  u2_n : (n.links.all fun l => l.1.1 != w.u2 || decide (l.1.2 < 1)) = true
  s2_0 : n.next w.s2 0 = some .encap_and_out1
  s2_n : (n.links.all fun l => l.1.1 != w.s2 || decide (l.1.2 < 1)) = true
  u3_0 : n.next w.u3 0 = some w.s3
  u3_n : (n.links.all fun l => l.1.1 != w.u3 || decide (l.1.2 < 1)) = true
  s3_0 : n.next w.s3 0 = some .encap_and_out1
  s3_n : (n.links.all fun l => l.1.1 != w.s3 || decide (l.1.2 < 1)) = true
  u4_0 : n.next w.u4 0 = some (.OUT 3)
  u4_n : (n.links.all fun l => l.1.1 != w.u4 || decide (l.1.2 < 1)) = true
  pop_0 : n.next w.pop 0 = some (.OUT 2)
  pop_n : (n.links.all fun l => l.1.1 != w.pop || decide (l.1.2 < 1)) = true
  g1_0 : n.next w.g1 0 = some w.gs
  g1_n : (n.links.all fun l => l.1.1 != w.g1 || decide (l.1.2 < 1)) = true
  gs_0 : n.next w.gs 0 = some .encap_and_out1
  gs_n : (n.links.all fun l => l.1.1 != w.gs || decide (l.1.2 < 1)) = true
  g2_0 : n.next w.g2 0 = some (.OUT 4)
  g2_n : (n.links.all fun l => l.1.1 != w.g2 || decide (l.1.2 < 1)) = true
  enc_0 : n.next .encap_and_out1 0 = some w.ipE
  enc_n : (n.links.all fun l => l.1.1 != .encap_and_out1 || decide (l.1.2 < 1)) = true
  ipE_0 : n.next w.ipE 0 = some w.ethE
  ipE_n : (n.links.all fun l => l.1.1 != w.ipE || decide (l.1.2 < 1)) = true
  ethE_0 : n.next w.ethE 0 = some (.OUT 1)
  ethE_n : (n.links.all fun l => l.1.1 != w.ethE || decide (l.1.2 < 1)) = true

/-- All of it that can be computed. -/
def wired (n : Net) (w : Names) (mi m3 : Mod) : Bool :=
  decide (n.mod .t0_start = some mod0) && (
  decide (n.mod .t0_inport = some mi) && (
  decide (n.mod .t0_p2 = some modP2) && (
  decide (n.mod .t0_default = some modDf) && (
  decide (n.mod .t1_start = some mod1) && (
  decide (n.mod .t2_start = some mod2) && (
  decide (n.mod .t3_start = some m3) && (
  decide (n.mod .t4_start = some mod4) && (
  decide (n.mod .t5_start = some mod5) && (
  decide (n.mod .t6_start = some mod6) && (
  decide (n.mod .grp_start = some ⟨.hashLB 2, [], [], [], none⟩) && (
  decide (n.mod .encap_and_out1 = some ⟨.vxlanEncap, [], [], [], none⟩) && (
  decide (n.mod w.ipE = some ⟨.ipEncap, [], [], [], none⟩) && (
  decide (n.mod w.ethE = some ⟨.etherEncap, [], [], [], none⟩) && (
  decide (n.mod w.u1 = some ⟨.update [(HWDST, macText 0xfa 0x16 0x3e 0xcf 0xf2 0x56)], [], [], [], none⟩) && (
  decide (n.mod w.u2 = some ⟨.update [(HWDST, macText 0xfa 0x16 0x3e 0xf3 0x5e 0x82)], [], [], [], none⟩) && (
  decide (n.mod w.s2 = some ⟨.setMetadata [(TUNID, .int 0x40c), (TUNDST, ip 1 1 1 2)], [], [], [], none⟩) && (
  decide (n.mod w.u3 = some ⟨.update [(HWDST, macText 0xfa 0x16 0x3e 0xda 0x05 0xed)], [], [], [], none⟩) && (
  decide (n.mod w.s3 = some ⟨.setMetadata [(TUNID, .int 0x406), (TUNDST, ip 1 1 1 2)], [], [], [], none⟩) && (
  decide (n.mod w.u4 = some ⟨.update [(HWDST, macText 0xfa 0x16 0x3e 0x3e 0x82 0xe8)], [], [], [], none⟩) && (
  decide (n.mod w.pop = some ⟨.vlanPop, [], [], [], none⟩) && (
  decide (n.mod w.g1 = some ⟨.update [(HWDST, macText 0xfa 0x16 0x3e 0xf3 0x5e 0x82)], [], [], [], none⟩) && (
  decide (n.mod w.gs = some ⟨.setMetadata [(TUNID, .int 0x40c), (TUNDST, ip 1 1 1 2)], [], [], [], none⟩) && (
  decide (n.mod w.g2 = some ⟨.update [(HWDST, macText 0xfa 0x16 0x3e 0xcf 0xf2 0x56)], [], [], [], none⟩) && (
  decide (n.mod (.OUT 1) = some sinkMod) && (
  decide (n.mod (.OUT 2) = some sinkMod) && (
  decide (n.mod (.OUT 3) = some sinkMod) && (
  decide (n.mod (.OUT 4) = some sinkMod) && (
  decide (n.mod .LCL = some sinkMod) && (
  decide (n.mod .CTL = some sinkMod) && (
  decide (n.mod w.d1 = some sinkMod) && (
  decide (n.mod w.d2 = some sinkMod) && (
  decide (n.mod w.d3 = some sinkMod) && (
  decide (n.mod w.d5 = some sinkMod) && (
  decide (n.mod w.d6 = some sinkMod) && (
  decide (n.next .t0_start 1 = some .t6_start) && (
  decide (n.next .t0_start 0 = some .t0_inport) && (
  (n.links.all fun l => l.1.1 != .t0_start || decide (l.1.2 < 2)) && (
  decide (n.next .t0_inport 0 = some .t0_default) && (
  decide (n.next .t0_inport 1 = some .t0_p2) && (
  decide (n.next .t0_inport 2 = some (.OUT 2)) && (
  (n.links.all fun l => l.1.1 != .t0_inport || decide (l.1.2 < 3)) && (
  decide (n.next .t0_p2 0 = some .t0_default) && (
  decide (n.next .t0_p2 1 = some .LCL) && (
  (n.links.all fun l => l.1.1 != .t0_p2 || decide (l.1.2 < 2)) && (
  decide (n.next .t0_default 0 = some .t1_start) && (
  decide (n.next .t0_default 1 = some .CTL) && (
  (n.links.all fun l => l.1.1 != .t0_default || decide (l.1.2 < 2)) && (
  decide (n.next .t1_start 0 = some .t5_start) && (
  decide (n.next .t1_start 1 = some .t4_start) && (
  decide (n.next .t1_start 2 = some .t2_start) && (
  decide (n.next .t1_start 3 = some .t3_start) && (
  decide (n.next .t1_start 4 = some w.d1) && (
  (n.links.all fun l => l.1.1 != .t1_start || decide (l.1.2 < 5)) && (
  decide (n.next .t2_start 0 = some (.OUT 2)) && (
  decide (n.next .t2_start 1 = some .grp_start) && (
  decide (n.next .t2_start 2 = some .t4_start) && (
  decide (n.next .t2_start 3 = some w.d2) && (
  (n.links.all fun l => l.1.1 != .t2_start || decide (l.1.2 < 4)) && (
  decide (n.next .t3_start 0 = some w.d3) && (
  decide (n.next .t3_start 1 = some .grp_start) && (
  (n.links.all fun l => l.1.1 != .t3_start || decide (l.1.2 < 2)) && (
  decide (n.next .t4_start 1 = some w.u1) && (
  decide (n.next .t4_start 2 = some w.u2) && (
  decide (n.next .t4_start 3 = some w.u3) && (
  decide (n.next .t4_start 4 = some w.u4) && (
  (n.links.all fun l => l.1.1 != .t4_start || decide (l.1.2 < 5)) && (
  decide (n.next .t5_start 0 = some w.d5) && (
  decide (n.next .t5_start 1 = some (.OUT 3)) && (
  decide (n.next .t5_start 2 = some (.OUT 4)) && (
  (n.links.all fun l => l.1.1 != .t5_start || decide (l.1.2 < 3)) && (
  decide (n.next .t6_start 0 = some w.d6) && (
  decide (n.next .t6_start 1 = some .CTL) && (
  decide (n.next .t6_start 2 = some w.pop) && (
  (n.links.all fun l => l.1.1 != .t6_start || decide (l.1.2 < 3)) && (
  decide (n.next .grp_start 0 = some w.g1) && (
  decide (n.next .grp_start 1 = some w.g2) && (
  (n.links.all fun l => l.1.1 != .grp_start || decide (l.1.2 < 2)) && (
  decide (n.next .t4_start 0 = none) && (
  decide (n.next w.u1 0 = some (.OUT 4)) && (
  (n.links.all fun l => l.1.1 != w.u1 || decide (l.1.2 < 1)) && (
  decide (n.next w.u2 0 = some w.s2) && (
  (n.links.all fun l => l.1.1 != w.u2 || decide (l.1.2 < 1)) && (
  decide (n.next w.s2 0 = some .encap_and_out1) && (
  (n.links.all fun l => l.1.1 != w.s2 || decide (l.1.2 < 1)) && (
  decide (n.next w.u3 0 = some w.s3) && (
  (n.links.all fun l => l.1.1 != w.u3 || decide (l.1.2 < 1)) && (
  decide (n.next w.s3 0 = some .encap_and_out1) && (
  (n.links.all fun l => l.1.1 != w.s3 || decide (l.1.2 < 1)) && (
  decide (n.next w.u4 0 = some (.OUT 3)) && (
  (n.links.all fun l => l.1.1 != w.u4 || decide (l.1.2 < 1)) && (
  decide (n.next w.pop 0 = some (.OUT 2)) && (
  (n.links.all fun l => l.1.1 != w.pop || decide (l.1.2 < 1)) && (
  decide (n.next w.g1 0 = some w.gs) && (
  (n.links.all fun l => l.1.1 != w.g1 || decide (l.1.2 < 1)) && (
  decide (n.next w.gs 0 = some .encap_and_out1) && (
  (n.links.all fun l => l.1.1 != w.gs || decide (l.1.2 < 1)) && (
  decide (n.next w.g2 0 = some (.OUT 4)) && (
  (n.links.all fun l => l.1.1 != w.g2 || decide (l.1.2 < 1)) && (
  decide (n.next .encap_and_out1 0 = some w.ipE) && (
  (n.links.all fun l => l.1.1 != .encap_and_out1 || decide (l.1.2 < 1)) && (
  decide (n.next w.ipE 0 = some w.ethE) && (
  (n.links.all fun l => l.1.1 != w.ipE || decide (l.1.2 < 1)) && (
  decide (n.next w.ethE 0 = some (.OUT 1)) && (
  (n.links.all fun l => l.1.1 != w.ethE || decide (l.1.2 < 1))))))))))))))))))))))))))))))))))))))))))))))))))))))))))))))))))))))))))))))))))))))))))))))))))))))))))

theorem wired_of {n : Net} {w : Names} {mi m3 : Mod} (h : wired n w mi m3 = true) (v0 : ∀ p, (End.sink w.d1 p).view = (.drop, p)) (v1 : ∀ p, (End.sink w.d2 p).view = (.drop, p)) (v2 : ∀ p, (End.sink w.d3 p).view = (.drop, p)) (v3 : ∀ p, (End.sink w.d5 p).view = (.drop, p)) (v4 : ∀ p, (End.sink w.d6 p).view = (.drop, p)) :
    Wired n w mi m3 := by
  simp only [wired, Bool.and_eq_true, decide_eq_true_eq] at h
  obtain ⟨h0, h1, h2, h3, h4, h5, h6, h7, h8, h9, h10, h11, h12, h13, h14, h15, h16, h17, h18, h19, h20, h21, h22, h23, h24, h25, h26, h27, h28, h29, h30, h31, h32, h33, h34, h35, h36, h37, h38, h39, h40, h41, h42, h43, h44, h45, h46, h47, h48, h49, h50, h51, h52, h53, h54, h55, h56, h57, h58, h59, h60, h61, h62, h63, h64, h65, h66, h67, h68, h69, h70, h71, h72, h73, h74, h75, h76, h77, h78, h79, h80, h81, h82, h83, h84, h85, h86, h87, h88, h89, h90, h91, h92, h93, h94, h95, h96, h97, h98, h99, h100, h101, h102, h103, h104⟩ := h
  exact { t0 := h0, ti := h1, tp := h2, td := h3, t1 := h4, t2 := h5, t3 := h6, t4 := h7, t5 := h8, t6 := h9, grp := h10, enc := h11, ipE := h12, ethE := h13, u1 := h14, u2 := h15, s2 := h16, u3 := h17, s3 := h18, u4 := h19, pop := h20, g1 := h21, gs := h22, g2 := h23, o1 := h24, o2 := h25, o3 := h26, o4 := h27, lc := h28, ct := h29, d1 := h30, d2 := h31, d3 := h32, d5 := h33, d6 := h34, t0_1 := h35, t0_0 := h36, t0_n := h37, ti_0 := h38, ti_1 := h39, ti_2 := h40, ti_n := h41, tp_0 := h42, tp_1 := h43, tp_n := h44, td_0 := h45, td_1 := h46, td_n := h47, t1_0 := h48, t1_1 := h49, t1_2 := h50, t1_3 := h51, t1_4 := h52, t1_n := h53, t2_0 := h54, t2_1 := h55, t2_2 := h56, t2_3 := h57, t2_n := h58, t3_0 := h59, t3_1 := h60, t3_n := h61, t4_1 := h62, t4_2 := h63, t4_3 := h64, t4_4 := h65, t4_n := h66, t5_0 := h67, t5_1 := h68, t5_2 := h69, t5_n := h70, t6_0 := h71, t6_1 := h72, t6_2 := h73, t6_n := h74, grp_0 := h75, grp_1 := h76, grp_n := h77, t4_0 := h78, u1_0 := h79, u1_n := h80, u2_0 := h81, u2_n := h82, s2_0 := h83, s2_n := h84, u3_0 := h85, u3_n := h86, s3_0 := h87, s3_n := h88, u4_0 := h89, u4_n := h90, pop_0 := h91, pop_n := h92, g1_0 := h93, g1_n := h94, gs_0 := h95, gs_n := h96, g2_0 := h97, g2_n := h98, enc_0 := h99, enc_n := h100, ipE_0 := h101, ipE_n := h102, ethE_0 := h103, ethE_n := h104, d1v := v0, d2v := v1, d3v := v2, d5v := v3, d6v := v4 }

def bessNames : Names where
  ipE := .anon 0; ethE := .anon 1; u1 := .anon 5; u2 := .anon 6; s2 := .anon 7; u3 := .anon 8; s3 := .anon 9; u4 := .anon 10; pop := .anon 12
  g1 := .anon 14; gs := .anon 15; g2 := .anon 16; d1 := .anon 2; d2 := .anon 3; d3 := .anon 4; d5 := .anon 11; d6 := .anon 13

def pyNames : Names where
  ipE := .ip_encap; ethE := .ether_encap; u1 := .t4u1; u2 := .t4u2; s2 := .t4s2; u3 := .t4u3; s3 := .t4s3; u4 := .t4u4; pop := .vlan_pop
  g1 := .gru1; gs := .grs1; g2 := .gru2; d1 := .DRP 1; d2 := .DRP 2; d3 := .DRP 3; d5 := .DRP 4; d6 := .DRP 5

theorem bess_wired : Wired bessNet bessNames (modIn [] (some 0)) (mod3 [([.int 3], 1)]) :=
  wired_of (by decide +kernel) (fun _ => rfl) (fun _ => rfl) (fun _ => rfl) (fun _ => rfl) (fun _ => rfl)

theorem py_wired : Wired pyNet pyNames (modIn [([.int 3], 1)] none) (mod3 []) :=
  wired_of (by decide +kernel) (fun _ => rfl) (fun _ => rfl) (fun _ => rfl) (fun _ => rfl) (fun _ => rfl)

section
variable {n : Net} {w : Names} {mi m3 : Mod} (h : Wired n w mi m3) (e : Env)
include h

theorem acts_enc : n.Acts e .encap_and_out1 4 (encapF e) :=
  acts_one h.enc (by simp) h.enc_0 h.enc_n (fun _ => rfl)
    (acts_one h.ipE (by simp) h.ipE_0 h.ipE_n (fun _ => rfl) (acts_one h.ethE (by simp) h.ethE_0 h.ethE_n (fun _ => rfl) (acts_sink h.o1)))

theorem acts_tun {x : Name} {v : Nat} {b : Bytes} (hm : n.mod x = some ⟨.setMetadata [(TUNID, .int v), (TUNDST, ip 1 1 1 2)], [], [], [], none⟩)
    (hv : e.bytes TUNID (.int v) = b) (h0 : n.next x 0 = some .encap_and_out1) (h1 : (n.links.all fun l => l.1.1 != x || decide (l.1.2 < 1)) = true) :
    n.Acts e x 5 fun p => encapF e (tun b p) := by
  have := acts_one hm (by simp) h0 h1 (fun _ => rfl) (acts_enc h e)
  subst hv
  exact this

omit h in
theorem acts_upd {x y : Name} {a b c : UInt8} {k : Nat} {f : Packet → Verdict × Packet}
    (hm : n.mod x = some ⟨.update [(HWDST, macText 0xfa 0x16 0x3e a b c)], [], [], [], none⟩)
    (h0 : n.next x 0 = some y) (h1 : (n.links.all fun l => l.1.1 != x || decide (l.1.2 < 1)) = true) (hy : n.Acts e y k f) :
    n.Acts e x (k + 1) fun p => f (upd e a b c p) :=
  acts_one hm (by simp) h0 h1 (fun _ => rfl) hy

theorem acts_grp : n.Acts e .grp_start 7 (grpF e) := by
  have := acts_step (c := 6) (e := e) (fun
    | 0 => fun p => encapF e (tun [12, 4, 0, 0] (upd e 0xf3 0x5e 0x82 p))
    | 1 => fun p => (.out 4, upd e 0xcf 0xf2 0x56 p)
    | _ => fun p => (.drop, p)) h.grp (by simp) (fun
    | 0 => .inl ⟨_, h.grp_0, acts_upd e h.g1 h.g1_0 h.g1_n (acts_tun h e h.gs rfl h.gs_0 h.gs_n)⟩
    | 1 => .inl ⟨_, h.grp_1, (acts_upd e h.g2 h.g2_0 h.g2_n (acts_sink h.o4)).mono (by omega)⟩
    | g + 2 => .inr ⟨next_none h.grp_n (by omega), rfl⟩)
  intro k p
  rw [this k p]
  simp only [grpF, after, Env.pass]
  rcases Nat.mod_two_eq_zero_or_one (e.hash p.data) with hp | hp <;> simp [hp]

theorem acts_5 : n.Acts e .t5_start 2 (t5F e) :=
  acts_step (F5 e) h.t5 (by simp [mod5]) (fun
    | 0 => .inl ⟨_, h.t5_0, acts_drop h.d5 h.d5v⟩
    | 1 => .inl ⟨_, h.t5_1, acts_sink h.o3⟩
    | 2 => .inl ⟨_, h.t5_2, acts_sink h.o4⟩
    | g + 3 => .inr ⟨next_none h.t5_n (by omega), rfl⟩)

theorem acts_4 : n.Acts e .t4_start 7 (t4F e) :=
  acts_step (F4 e) h.t4 (by simp [mod4]) (fun
    | 0 => .inr ⟨h.t4_0, rfl⟩
    | 1 => .inl ⟨_, h.t4_1, (acts_upd e h.u1 h.u1_0 h.u1_n (acts_sink h.o4)).mono (by omega)⟩
    | 2 => .inl ⟨_, h.t4_2, acts_upd e h.u2 h.u2_0 h.u2_n (acts_tun h e h.s2 rfl h.s2_0 h.s2_n)⟩
    | 3 => .inl ⟨_, h.t4_3, acts_upd e h.u3 h.u3_0 h.u3_n (acts_tun h e h.s3 rfl h.s3_0 h.s3_n)⟩
    | 4 => .inl ⟨_, h.t4_4, (acts_upd e h.u4 h.u4_0 h.u4_n (acts_sink h.o3)).mono (by omega)⟩
    | g + 5 => .inr ⟨next_none h.t4_n (by omega), rfl⟩)

theorem acts_3 (hs : m3.cls ≠ .sink) : n.Acts e .t3_start 8 (t3F e m3) :=
  acts_step (F3 e) h.t3 hs (fun
    | 0 => .inl ⟨_, h.t3_0, (acts_drop h.d3 h.d3v).mono (by omega)⟩
    | 1 => .inl ⟨_, h.t3_1, acts_grp h e⟩
    | g + 2 => .inr ⟨next_none h.t3_n (by omega), rfl⟩)

theorem acts_2 : n.Acts e .t2_start 8 (t2F e) :=
  acts_step (F2 e) h.t2 (by simp [mod2]) (fun
    | 0 => .inl ⟨_, h.t2_0, (acts_sink h.o2).mono (by omega)⟩
    | 1 => .inl ⟨_, h.t2_1, acts_grp h e⟩
    | 2 => .inl ⟨_, h.t2_2, acts_4 h e⟩
    | 3 => .inl ⟨_, h.t2_3, (acts_drop h.d2 h.d2v).mono (by omega)⟩
    | g + 4 => .inr ⟨next_none h.t2_n (by omega), rfl⟩)

theorem acts_1 (hs : m3.cls ≠ .sink) : n.Acts e .t1_start 9 (t1F e m3) :=
  acts_step (F1 e m3) h.t1 (by simp [mod1]) (fun
    | 0 => .inl ⟨_, h.t1_0, (acts_5 h e).mono (by omega)⟩
    | 1 => .inl ⟨_, h.t1_1, (acts_4 h e).mono (by omega)⟩
    | 2 => .inl ⟨_, h.t1_2, acts_2 h e⟩
    | 3 => .inl ⟨_, h.t1_3, acts_3 h e hs⟩
    | 4 => .inl ⟨_, h.t1_4, (acts_drop h.d1 h.d1v).mono (by omega)⟩
    | g + 5 => .inr ⟨next_none h.t1_n (by omega), rfl⟩)

theorem acts_df (hs : m3.cls ≠ .sink) : n.Acts e .t0_default 10 (dfF e m3) :=
  acts_step (FDf e m3) h.td (by simp [modDf]) (fun
    | 0 => .inl ⟨_, h.td_0, acts_1 h e hs⟩
    | 1 => .inl ⟨_, h.td_1, (acts_sink h.ct).mono (by omega)⟩
    | g + 2 => .inr ⟨next_none h.td_n (by omega), rfl⟩)

theorem acts_p2 (hs : m3.cls ≠ .sink) : n.Acts e .t0_p2 11 (p2F e m3) :=
  acts_step (FP2 e m3) h.tp (by simp [modP2]) (fun
    | 0 => .inl ⟨_, h.tp_0, acts_df h e hs⟩
    | 1 => .inl ⟨_, h.tp_1, (acts_sink h.lc).mono (by omega)⟩
    | g + 2 => .inr ⟨next_none h.tp_n (by omega), rfl⟩)

theorem acts_in (hi : mi.cls ≠ .sink) (hs : m3.cls ≠ .sink) : n.Acts e .t0_inport 12 (inF e mi m3) :=
  acts_step (FIn e m3) h.ti hi (fun
    | 0 => .inl ⟨_, h.ti_0, (acts_df h e hs).mono (by omega)⟩
    | 1 => .inl ⟨_, h.ti_1, acts_p2 h e hs⟩
    | 2 => .inl ⟨_, h.ti_2, (acts_sink h.o2).mono (by omega)⟩
    | g + 3 => .inr ⟨next_none h.ti_n (by omega), rfl⟩)

theorem acts_6 : n.Acts e .t6_start 3 (t6F e) :=
  acts_step (F6 e) h.t6 (by simp [mod6]) (fun
    | 0 => .inl ⟨_, h.t6_0, (acts_drop h.d6 h.d6v).mono (by omega)⟩
    | 1 => .inl ⟨_, h.t6_1, (acts_sink h.ct).mono (by omega)⟩
    | 2 => .inl ⟨_, h.t6_2, acts_one h.pop (by simp) h.pop_0 h.pop_n (fun _ => rfl) (acts_sink h.o2)⟩
    | g + 3 => .inr ⟨next_none h.t6_n (by omega), rfl⟩)

theorem acts_0 (hi : mi.cls ≠ .sink) (hs : m3.cls ≠ .sink) : n.Acts e .t0_start 13 (netF e mi m3) :=
  acts_step (F0 e mi m3) h.t0 (by simp [mod0]) (fun
    | 0 => .inl ⟨_, h.t0_0, acts_in h e hi hs⟩
    | 1 => .inl ⟨_, h.t0_1, (acts_6 h e).mono (by omega)⟩
    | g + 2 => .inr ⟨next_none h.t0_n (by omega), rfl⟩)

end

theorem bess_acts (e : Env) : bessNet.Acts e .t0_start 13 (netF e (modIn [] (some 0)) (mod3 [([.int 3], 1)])) :=
  acts_0 bess_wired e (by simp [modIn]) (by simp [mod3])

theorem py_acts (e : Env) : pyNet.Acts e .t0_start 13 (netF e (modIn [([.int 3], 1)] none) (mod3 [])) :=
  acts_0 py_wired e (by simp [modIn]) (by simp [mod3])

end Twink.Cord
