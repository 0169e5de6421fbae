import Verif.Props.AgentReply
import Verif.Props.Of13Layout
import Verif.Props.Hello
import Verif.Proof.Fields

/-!
# C50, C52: what the software switch says about itself
-/

namespace Twink.Agent
open Of13 Spec Fmt

/-- A field of `n` bytes with the text, filled with zeros. -/
def textField (n : Nat) (s : String) : Bytes := asciiBytes s ++ zeros (n - (asciiBytes s).length)

/-- What the agent says in reply to the request `m`, after the header of the reply: its features are datapath id 1, 2 buffers, 3 tables,
no auxiliary connection, and statistics of flows, tables, ports and groups; its configuration is to handle fragments normally and to send
0xffe5 bytes of a packet to the controller (OFPCML_MAX of the standard); it takes any role it is asked to take; it describes
itself as BESS. -/
def tells (m : Bytes) : Option Bytes :=
  if u8 m 1 = 5 then some (be64 1 ++ be32 2 ++ b8 3 ++ b8 0 ++ zeros 2 ++ be32 (1 + 2 + 4 + 8) ++ zeros 4)
  else if u8 m 1 = 7 then some (be16 0 ++ be16 0xffe5)
  else if u8 m 1 = 24 then some (be32 (u32 m 8) ++ zeros 4 ++ be64 (u64 m 16))
  else if u8 m 1 = 18 ∧ u16 m 8 = 0 then
    some (be16 0 ++ be16 0 ++ zeros 4 ++ textField 256 "UC Berkeley" ++ textField 256 "Intel Xeon" ++ textField 256 "BESS" ++
      textField 32 "commit-6e343" ++ textField 256 "")
  else none

theorem reply_body {rnd : Nat} {hd : HdrArg} {r : Bytes} (c : Call) (hw : c.WellShaped)
    (h7 : c.run rnd hd = .ok r) : r.drop 8 = c.body := by
  have := C56_layout rnd hd c r hw h7
  rw [this]
  simp [ofHeader, b8, be16, be32]

theorem role_fields {m : Bytes} {hd : Hdr} {a g : Nat} (h8 : 8 ≤ m.length) (hv : u8 m 0 = 4) (ht : u8 m 1 = 24) (hl : 24 ≤ m.length)
    (hp : parse m 0 = .ok (.role hd a g)) : a = u32 m 8 ∧ g = u64 m 16 := by
  have : parse m 0 = .ok (.role ⟨4, 24, u16 m 2, u32 m 4⟩ (decBE ((m.drop 8).take 4)) (decBE ((m.drop 16).take 8))) := by
    apply parse_make h8 hv
    rw [ht]
    show parseRole m 0 = _
    unfold parseRole
    rw [parseHdr_make h8 hv, ok_bind, ht]
    have hr := rd_make (f := [I, X 4, Q]) (m := m) (off := 8) (k := two (Msg.role ⟨4, 24, u16 m 2, u32 m 4⟩))
      (a := .role ⟨4, 24, u16 m 2, u32 m 4⟩ (decBE ((m.drop 8).take 4)) (decBE ((m.drop 16).take 8)))
      (by simp [calcsize, Item.width]; omega) (by simp [dec, two])
    simp only [hr, ok_bind]
  rw [this] at hp
  simp only [ok_inj, Msg.role.injEq] at hp
  obtain ⟨_, rfl, rfl⟩ := hp
  exact ⟨decBE_u32 m 8 (by omega), decBE_u64 m 16 (by omega)⟩

theorem desc_tells : descBytes = textField 256 "UC Berkeley" ++ textField 256 "Intel Xeon" ++ textField 256 "BESS" ++
    textField 32 "commit-6e343" ++ textField 256 "" := by decide +kernel

/-- C50. What the answers say: for each of the requests of `C50_answered`, in every state, the bytes after the header of the
reply. -/
theorem C50_contents (o : Order) (rnd : Nat) (st : St) (m : Bytes) (h8 : 8 ≤ m.length) (hv : u8 m 0 = 4)
    (ht : u8 m 1 = 5 ∨ u8 m 1 = 7 ∨ (u8 m 1 = 24 ∧ 24 ≤ m.length) ∨ (u8 m 1 = 18 ∧ u16 m 8 = 0 ∧ 16 ≤ m.length)) :
    ∃ r, switchProc o rnd st m = .ok (st, [.send r]) ∧ some (r.drop 8) = tells m := by
  obtain ⟨t, r, hr, hs, hR⟩ := C50_answered o rnd st m h8 hv ht
  refine ⟨r, hs, ?_⟩
  simp only [switchProc, bind_ok] at hs
  obtain ⟨msg, hp, h⟩ := hs
  obtain ⟨_, _, hh, _⟩ := parse_hdr hp
  have ht' : (hdrOf msg).type = u8 m 1 := by rw [hh]
  generalize hes : [Eff.send r] = es at h
  generalize hst : st = st' at h
  have h := (show switchMsg o rnd st msg = .ok (st', es) by rw [← h, hst])
  cases does_of h with
  | features _ hd r' h5 h6 h7 =>
    cases hes
    have := reply_body (.features 1 2 3 0 0xf) trivial h7
    rw [this, tells, if_pos (ht'.symm.trans h5)]; rfl
  | config _ hd r' h5 h6 h7 =>
    cases hes
    have := reply_body (.config 0 (some 0xffe5)) trivial h7
    rw [this, tells, if_neg (by omega), if_pos (by omega)]; rfl
  | role hd0 a g hd r' h5 h6 h7 =>
    cases hes
    simp only [hdrOf] at ht'
    have := reply_body (.role a g) trivial h7
    obtain ⟨rfl, rfl⟩ := role_fields h8 hv (by omega) (by omega) hp
    rw [this, tells, if_neg (by omega), if_neg (by omega), if_pos (by omega)]; rfl
  | answer hd0 type fl bd body hd r' h5 hb h6 h7 =>
    cases hes
    obtain ⟨e1, _, _⟩ := mpRequest_type hp h5
    simp only [hdrOf] at ht'
    have e0 : type = 0 := by omega
    subst e0
    have : mpBody o st 0 = .ok (some (.raw descBytes)) := by
      unfold mpBody
      rw [if_neg (by decide), if_neg (by decide), if_pos rfl, desc_ok.1, ok_bind]
    rw [this] at hb
    simp only [ok_inj, Option.some.injEq] at hb
    subst hb
    have := reply_body (.mpReply 0 0 (.raw descBytes)) ⟨by simp, trivial⟩ h7
    rw [this, tells, if_neg (by omega), if_neg (by omega), if_neg (by omega), if_pos (by omega), Call.body]
    simp only [Body.bytes]
    rw [desc_tells]
    simp only [List.append_assoc]
  | flow => cases hes
  | ignore => cases hes
  | packet hd0 _ _ _ _ _ _ h5 => simp only [hdrOf] at ht'; omega
  | quiet _ h5 => omega

/-- A request for the description of the switch. -/
example : ((tells [4, 18, 0, 16, 0, 0, 0, 9, 0, 0, 0, 0, 0, 0, 0, 0]).map fun r => ((r.drop 776).take 5, r.length)) =
    some ([99, 111, 109, 109, 105], 1064) := by decide +kernel

/-- The ports the switch has at the start, by the texts in the source: local port, tunnel port and physical port, with their Ethernet
addresses, names, and everything else zero. -/
def firstPorts : List Spec.Port :=
  [⟨0xfffffffe, [0x00, 0x00, 0xde, 0xad, 0xbe, 0xef], textField 16 "br-int", List.replicate 8 0⟩,
   ⟨1, [0x00, 0x00, 0xde, 0xad, 0xde, 0xad], textField 16 "vxlan", List.replicate 8 0⟩,
   ⟨2, [0x00, 0x00, 0x00, 0x00, 0x00, 0x01], textField 16 "dpif", List.replicate 8 0⟩]

/-- C50. A switch just started answers every request for the ports by the description of the local, tunnel and physical port, in some order. -/
theorem C50_first_ports (o : Order) (rnd : Nat) (vxlan dpif : Option Nat) (m : Bytes) (h16 : 16 ≤ m.length) (hv : u8 m 0 = 4)
    (ht : u8 m 1 = 18) (hm : u16 m 8 = 13) :
    ∃ ps, ps.Perm firstPorts ∧
      switchProc o rnd (start vxlan dpif) m = .ok (start vxlan dpif, [.send (portDescReply 4 (u32 m 4) 0 ps)]) := by
  have := C50_ports_answered o rnd (start vxlan dpif) m h16 hv ht hm
    (by intro e he; simp only [start, List.mem_cons, List.not_mem_nil, or_false] at he
        rcases he with rfl | rfl | rfl <;> exact ⟨rfl, ⟨_, rfl, by decide, by decide⟩, by simp⟩) (by simp [start])
  have e : (start vxlan dpif).ports.map (fun e => asPort e.2.desc) = firstPorts := by
    simp only [start, List.map_cons, List.map_nil]; decide +kernel
  rwa [e] at this

/-- C52. The first port added to a switch is number 3. -/
theorem C52_first (rnd : Nat) (vxlan dpif : Option Nat) (dev mac : Bytes) (s : Option (Option Nat)) (c : Bool) (st' : St) (es : List Eff)
    (r : Ret) (h : addPort rnd (start vxlan dpif) dev mac c s = (st', es, .ok r)) : r = .added 3 := by
  rcases addPort_cases rnd (start vxlan dpif) dev mac c s with ⟨hl, he⟩ | ⟨hl, e, he⟩ | ⟨hl, hw, sk, _, hs, hx, e, ⟨_, he⟩ | ⟨m, hm, he⟩⟩ <;>
    rw [he] at h <;> simp only [Prod.mk.injEq, ok_inj, reduceCtorEq, and_false] at h
  · simp [start] at hl
  · exact h.2.2.symm

/-- C52. What is said about a port that is added: the message has the number, the address and the name, the current features 10 Mbit/s full
duplex (2) over copper (2048), and zeros. -/
theorem C52_says (rnd : Nat) (st : St) (dev mac : Bytes) (c : Bool) (s : Option (Option Nat))
    (st' : St) (es : List Eff) (n : Nat) (h : addPort rnd st dev mac c s = (st', es, .ok (.added n))) :
    ∃ hw, HexText (mac.take 12) hw ∧ dev.length ≤ 16 ∧
      es = [.send (portStatus 4 0 0 ⟨n, hw, dev ++ zeros (16 - dev.length), [0, 0, 2048 + 2, 0, 0, 0, 0, 0]⟩)] := by
  rcases addPort_cases rnd st dev mac c s with ⟨hl, he⟩ | ⟨hl, e, he⟩ | ⟨hl, hw, sk, _, hs, hx, e, ⟨_, he⟩ | ⟨m, hm, he⟩⟩ <;>
    rw [he] at h <;> simp only [Prod.mk.injEq, ok_inj, reduceCtorEq, and_false] at h
  obtain ⟨rfl, rfl, e⟩ := h
  cases e
  obtain ⟨rfl, _, hw', _⟩ := statusMsg_bytes hm
  refine ⟨hw, a2bHex_spec _ _ hx, ?_, rfl⟩
  simp only [asPort, newPort, List.length_append, zeros, List.length_replicate] at hw'
  omega

/-- A port that is added to a switch just started: number 3, address 0a:00:00:00:00:01, name "ab". -/
example : (addPort 0 (start none none) [97, 98] [48, 97, 48, 48, 48, 48, 48, 48, 48, 48, 48, 49] true (some none)).2.2 = .ok (.added 3) := by
  decide +kernel

end Twink.Agent
