import Verif.Props.AgentView

/-!
# C61 and C62: packet-outs and port numbers of the software switch
-/

namespace Twink.Agent
open Of13 Spec Fmt

/-! ## C61 -/

theorem packetOut_does {o : Order} {rnd : Nat} {st : St} {m : Bytes} {hd : Hdr} {b i l : Nat} {as : List Action} {d : Bytes}
    (hp : parse m 0 = .ok (.packetOut hd b i l as d)) (ht : hd.type = 13) :
    switchProc o rnd st m = (packetOutStep st as d).map fun es => (st, es) := by
  rw [switchProc_of hp]
  unfold switchMsg
  simp only [hdrOf, ht]
  rw [if_neg (by decide), if_neg (by decide), if_neg (by decide), if_neg (by decide), if_neg (by decide), if_pos trivial]
  cases packetOutStep st as d <;> rfl

theorem firstPort_ok {as : List Action} {n : Nat} (h : firstPort as = .ok n) : ∃ t l ml rest, as = .output t l n ml :: rest := by
  unfold firstPort at h
  split at h
  · cases h
  · simp only [ok_inj] at h; subst h; exact ⟨_, _, _, _, rfl⟩
  · cases h

/-- C61, in part. A PACKET_OUT message that is handled without an exception is forwarded as its first action says, and the state
does not change; the first action is an output to an existing port. Missing: the other actions, see `C61_second_refuted`. -/
theorem C61_first_partial (o : Order) (rnd : Nat) (st st' : St) (m : Bytes) (es : List Eff) (ht : u8 m 1 = 13)
    (h : switchProc o rnd st m = .ok (st', es)) :
    ∃ hd b i l t len n ml rest d, parse m 0 = .ok (.packetOut hd b i l (.output t len n ml :: rest) d) ∧
      st.ports.lookup n ≠ none ∧ st' = st ∧ es = forwards st [.output t len n ml] d := by
  simp only [switchProc, bind_ok] at h
  obtain ⟨msg, hp, h⟩ := h
  obtain ⟨_, _, hh, _⟩ := parse_hdr hp
  have ht' : (hdrOf msg).type = 13 := by rw [hh]; exact ht
  cases does_of h with
  | packet hd b i l as d _ h5 hs =>
    simp only [packetOutStep, bind_ok] at hs
    obtain ⟨n, hn, hs⟩ := hs
    obtain ⟨t, len, ml, rest, rfl⟩ := firstPort_ok hn
    split at hs
    · cases hs
    · rename_i p hlk
      refine ⟨hd, b, i, l, t, len, n, ml, rest, d, hp, by rw [hlk]; simp, rfl, ?_⟩
      split at hs <;> simp only [ok_inj] at hs <;> subst hs <;> rename_i hsk <;> simp [forwards, hlk, hsk]
  | features _ _ _ h5 => omega
  | config _ _ _ h5 => omega
  | role _ _ _ _ _ h5 => simp only [hdrOf] at ht'; omega
  | flow _ _ _ _ _ _ _ _ _ _ _ _ _ _ h5 => simp only [hdrOf] at ht'; omega
  | answer _ _ _ _ _ _ _ h5 => simp only [hdrOf] at ht'; omega
  | ignore _ _ _ _ h5 => simp only [hdrOf] at ht'; omega
  | quiet _ h5 => omega

/-- The message of the library's builder, as the agent sees it. -/
theorem built_packetOut {rnd : Nat} {h : HdrArg} {b : Option Nat} {ip : Nat} {as : List Action} {d : Option Bytes} {m : Bytes}
    (hb : buildPacketOut rnd h b ip (tups as) d = .ok m) (hp : ∀ a ∈ as, a.Parseable) :
    parse m 0 = .ok (.packetOut ⟨4, 13, m.length, h.xid rnd⟩ (b.getD 0xffffffff) ip (actionsSize (tups as)) (as.map Action.wire) (d.getD [])) := by
  have := C43_packet_out_partial rnd h b ip (tups as) d m [] [] hb (all_tups hp)
  simpa [values_tups] using this

/-- C61, in part: a packet-out with one output action to an existing port, built by the library, is forwarded exactly so. -/
theorem C61_one_action_partial (o : Order) (rnd : Nat) (st : St) (rnd' : Nat) (h : HdrArg) (b : Option Nat) (ip n ml : Nat)
    (d : Option Bytes) (m : Bytes) (hb : buildPacketOut rnd' h b ip (tups [.output none none n ml]) d = .ok m)
    (hn : st.ports.lookup n ≠ none) :
    switchProc o rnd st m = .ok (st, forwards st [.output none none n ml] (d.getD [])) := by
  rw [packetOut_does (built_packetOut hb (by simp [Action.Parseable])) rfl]
  simp only [packetOutStep, List.map_cons, Action.wire, firstPort, ok_bind, forwards]
  cases hlk : st.ports.lookup n with
  | none => exact absurd hlk hn
  | some p => cases hsk : p.sock <;> simp [hsk, hlk, Except.map]

/-- C61 is false for two output actions to ports with sockets: the second is ignored. -/
theorem C61_second_refuted (o : Order) (rnd : Nat) (st : St) (rnd' : Nat) (h : HdrArg) (b : Option Nat) (ip n ml n' ml' : Nat)
    (d : Option Bytes) (m : Bytes)
    (hb : buildPacketOut rnd' h b ip (tups [.output none none n ml, .output none none n' ml']) d = .ok m) (p p' : OfPort)
    (hn : st.ports.lookup n = some p) (hn' : st.ports.lookup n' = some p') (s s' : Nat) (hs : p.sock = some s) (hs' : p'.sock = some s') :
    switchProc o rnd st m = .ok (st, [.out s (d.getD [])]) ∧
    forwards st [.output none none n ml, .output none none n' ml'] (d.getD []) = [.out s (d.getD []), .out s' (d.getD [])] := by
  constructor
  · rw [packetOut_does (built_packetOut hb (by simp [Action.Parseable])) rfl]
    simp [packetOutStep, Action.wire, firstPort, ok_bind, hn, hs, Except.map]
  · simp [forwards, hn, hs, hn', hs']

/-- C61 is false for messages without actions, which should be dropped silently, and for output to a port that does not exist, such as
the reserved port "flood": an exception is raised (which ends the connection). -/
theorem C61_exception_refuted (o : Order) (rnd : Nat) (st : St) (rnd' : Nat) (h : HdrArg) (b : Option Nat) (ip : Nat) (d : Option Bytes)
    (m : Bytes) :
    (buildPacketOut rnd' h b ip (tups []) d = .ok m → switchProc o rnd st m = .error .indexError) ∧
    ∀ n ml, st.ports.lookup n = none → buildPacketOut rnd' h b ip (tups [.output none none n ml]) d = .ok m →
      switchProc o rnd st m = .error .keyError := by
  refine ⟨fun hb => ?_, fun n ml hn hb => ?_⟩
  · rw [packetOut_does (built_packetOut hb (by simp)) rfl]
    rfl
  · rw [packetOut_does (built_packetOut hb (by simp [Action.Parseable])) rfl]
    simp [packetOutStep, Action.wire, firstPort, ok_bind, hn, Except.map]

example : (∃ m, buildPacketOut 1 .none none 2 (tups [.output none none 1 0, .output none none 2 0]) (some [7]) = .ok m) ∧
    (∃ p, (start (some 5) (some 6)).ports.lookup 1 = some p ∧ p.sock = some 5) ∧
    (∃ p, (start (some 5) (some 6)).ports.lookup 2 = some p ∧ p.sock = some 6) ∧
    (start (some 5) (some 6)).ports.lookup 0xfffffffb = none := ⟨⟨_, rfl⟩, ⟨_, rfl, rfl⟩, ⟨_, rfl, rfl⟩, rfl⟩

/-! ## C62 -/

/-- Number of attempts to add a port. -/
def additions (hs : List Happening) : Nat := hs.countP fun | (_, _, .op (.add ..)) => true | _ => false

theorem step_bound (st : St) (h : Happening) : (step st h).1.lastNo ≤ st.lastNo + additions [h] := by
  obtain ⟨o, rnd, ev⟩ := h
  cases ev with
  | msg m =>
    unfold step
    simp only
    split
    · rename_i he
      rw [(switchProc_keeps he).2]; omega
    · exact Nat.le_add_right _ _
  | op a =>
    unfold step
    simp only
    cases a with
    | add dev mac c s =>
      have : additions [(o, rnd, Ev.op (.add dev mac c s))] = 1 := rfl
      rw [this]
      rcases addPort_cases rnd st dev mac c s with ⟨_, he⟩ | ⟨hl, e, he⟩ | ⟨hl, hw, sk, _, _, _, e, ⟨_, he⟩ | ⟨m, _, he⟩⟩ <;>
        simp only [portOp, he] <;> omega
    | del dev d =>
      rcases delPort_cases o rnd st dev d with ⟨_, he⟩ | ⟨e, _, _, ⟨_, _, he⟩ | ⟨m, _, ⟨_, he⟩ | ⟨_, he⟩⟩⟩ <;> simp only [portOp, he] <;> omega

theorem additions_cons (h : Happening) (hs : List Happening) : additions (h :: hs) = additions [h] + additions hs := by
  simp only [additions, List.countP_cons, List.countP_nil]; omega

theorem numbers_bound (st : St) (hs : List Happening) :
    ∀ n ∈ (returned st hs).filterMap Ret.number, n ≤ st.lastNo + additions hs := by
  induction hs generalizing st with
  | nil => intro n hn; cases hn
  | cons h hs ih =>
    intro n hn
    have hb := step_bound st h
    rw [additions_cons]
    simp only [returned, List.filterMap_append, List.mem_append] at hn
    rcases hn with hn | hn
    · cases hr : (step st h).2.2 with
      | none => rw [hr] at hn; cases hn
      | some r =>
        rw [hr] at hn
        cases hk : r.number with
        | none => simp [hk] at hn
        | some k =>
          simp [hk] at hn
          subst hn
          have := ((step_last st h).2 r n hr hk).2.2
          omega
    · have := ih _ n hn
      omega

/-- C62, in part: as long as no more than 0xfffffefe ports have been asked for, every number given out lies between 1 and OFPP_MAX.
Missing: later additions, see `C62_reserved_refuted`. -/
theorem C62_valid_partial (vxlan dpif : Option Nat) (hs : List Happening) (h : additions hs ≤ 0xfffffefe) :
    ∀ n ∈ (returned (start vxlan dpif) hs).filterMap Ret.number, 1 ≤ n ∧ n ≤ 0xffffff00 := by
  intro n hn
  have h1 := (numbers_above _ (tidy_start vxlan dpif) hs).2 n hn
  have h2 := numbers_bound _ hs n hn
  have : (start vxlan dpif).lastNo = 2 := rfl
  omega

/-- C62, in part: whatever happens, OFPP_LOCAL, OFPP_ANY, and numbers that are not numbers of 32 bits are not given out. -/
theorem C62_below_local_partial (vxlan dpif : Option Nat) (hs : List Happening) :
    ∀ n ∈ (returned (start vxlan dpif) hs).filterMap Ret.number, 3 ≤ n ∧ n < 0xfffffffe := by
  intro n hn
  have h1 := (numbers_above _ (tidy_start vxlan dpif) hs).2 n hn
  have : (start vxlan dpif).lastNo = 2 := rfl
  omega

/-- A successful addition: device `d`, address 00:00:00:00:00:00. -/
def goodAdd (sock : Option Nat) : Op := .add [100] (List.replicate 12 48) true (some sock)

theorem goodAdd_step (o : Order) (rnd : Nat) (st : St) (sock : Option Nat) (h : st.lastNo + 1 < 0xfffffffe) :
    ∃ m, step st (o, rnd, .op (goodAdd sock)) =
      ({ st with lastNo := st.lastNo + 1, ports := put st.ports (st.lastNo + 1) (newPort (st.lastNo + 1) (List.replicate 6 0) [100] sock) },
        [.send m], some (.added (st.lastNo + 1))) := by
  have hx : a2bHex ((List.replicate 12 (48 : UInt8)).take 12) = .ok (List.replicate 6 0) := by decide
  have hg : GoodPort (newPort (st.lastNo + 1) (List.replicate 6 0) [100] sock).desc := by
    refine ⟨rfl, ⟨[100], rfl, by decide, ?_⟩, ?_⟩
    all_goals simp [newPort]
    all_goals omega
  obtain ⟨m, hm⟩ := statusMsg_make rnd (reason := 0) hg (by decide)
  refine ⟨m, ?_⟩
  simp only [step, portOp, goodAdd, addPort]
  rw [if_neg (by omega), if_neg (by decide), hx]
  simp only [hm]

/-- `n` additions in a row. -/
theorem adds_run (o : Order) (rnd : Nat) (sock : Option Nat) (st : St) (ht : Tidy st) (n : Nat) (h : st.lastNo + n < 0xfffffffe) :
    (after st (List.replicate n (o, rnd, .op (goodAdd sock)))).lastNo = st.lastNo + n ∧
    (after st (List.replicate n (o, rnd, .op (goodAdd sock)))).ports.length = st.ports.length + n ∧
    (returned st (List.replicate n (o, rnd, .op (goodAdd sock)))) = (List.range' (st.lastNo + 1) n).map .added := by
  induction n generalizing st with
  | zero => exact ⟨rfl, rfl, rfl⟩
  | succ n ih =>
    obtain ⟨m, hm⟩ := goodAdd_step o rnd st sock (by omega)
    have ht' := step_tidy st ht (o, rnd, .op (goodAdd sock))
    have hl : (step st (o, rnd, .op (goodAdd sock))).1.lastNo = st.lastNo + 1 := by rw [hm]
    have hp : (step st (o, rnd, .op (goodAdd sock))).1.ports.length = st.ports.length + 1 := by
      rw [hm]
      show (put _ _ _).length = _
      rw [put_new (ht.new_no (by omega))]
      simp
    have hr : (step st (o, rnd, .op (goodAdd sock))).2.2 = some (.added (st.lastNo + 1)) := by rw [hm]
    obtain ⟨h1, h2, h3⟩ := ih _ ht' (by omega)
    rw [List.replicate_succ, after, returned, h1, h2, h3, hl, hp, hr]
    exact ⟨by omega, by omega, by simp [List.range'_succ]⟩

/-- C62 is false: the four thousand millionth port or so gets the number of the reserved port "controller". -/
theorem C62_reserved_refuted (o : Order) (rnd : Nat) (vxlan dpif sock : Option Nat) :
    ∃ hs, 0xfffffffd ∈ (returned (start vxlan dpif) hs).filterMap Ret.number := by
  refine ⟨List.replicate 0xfffffffb (o, rnd, .op (goodAdd sock)), ?_⟩
  rw [(adds_run o rnd sock _ (tidy_start vxlan dpif) 0xfffffffb (by show 2 + 0xfffffffb < _; decide)).2.2]
  refine List.mem_filterMap.2 ⟨.added 0xfffffffd, List.mem_map.2 ⟨0xfffffffd, ?_, rfl⟩, rfl⟩
  rw [List.mem_range'_1]
  show 2 + 1 ≤ 0xfffffffd ∧ 0xfffffffd < 2 + 1 + 0xfffffffb
  decide

/-- An addition for which BESS cannot create the port. -/
def badAdd : Op := .add [100] [] false none

theorem badAdds_run (o : Order) (rnd : Nat) (st : St) (n : Nat) (h : st.lastNo + n < 0xfffffffe) :
    after st (List.replicate n (o, rnd, .op badAdd)) = { st with lastNo := st.lastNo + n } := by
  induction n generalizing st with
  | zero => rfl
  | succ n ih =>
    have hs : step st (o, rnd, .op badAdd) = ({ st with lastNo := st.lastNo + 1 }, [], none) := by
      simp only [step, portOp, badAdd, addPort]
      rw [if_neg (by omega), if_pos trivial]
    rw [List.replicate_succ, after, hs, ih _ (by show st.lastNo + 1 + n < _; omega)]
    show St.mk _ _ _ = St.mk _ _ _
    rw [show st.lastNo + 1 + n = st.lastNo + (n + 1) by omega]

/-- C62, in part: when the numbers up to OFPP_LOCAL are used up, additions are refused and nothing else happens. -/
theorem C62_refused_partial (o : Order) (rnd : Nat) (st : St) (dev mac : Bytes) (c : Bool) (s : Option (Option Nat))
    (h : st.lastNo = 0xfffffffd) : step st (o, rnd, .op (.add dev mac c s)) = (st, [], some .refused) := by
  simp only [step, portOp, addPort, h]
  rw [if_pos trivial]

/-- C62 is false: an addition can be refused though almost all numbers are free, because numbers are never used again, not even those
of ports that could not be created. -/
theorem C62_refusal_refuted (o : Order) (rnd : Nat) (vxlan dpif sock : Option Nat) :
    ∃ hs, (after (start vxlan dpif) hs).ports.map Prod.fst = [0xfffffffe, 1, 2] ∧
      (step (after (start vxlan dpif) hs) (o, rnd, .op (goodAdd sock))).2.2 = some .refused := by
  have h2 : (start vxlan dpif).lastNo = 2 := rfl
  refine ⟨List.replicate 0xfffffffb (o, rnd, .op badAdd), ?_⟩
  rw [badAdds_run o rnd _ _ (by omega)]
  exact ⟨rfl, by rw [goodAdd, C62_refused_partial _ _ _ _ _ _ _ (by show (start vxlan dpif).lastNo + _ = _; omega)]⟩

/-- The number of ports for which `C50_many_ports_refuted` shows that the agent does not answer is reached. -/
theorem many_ports (o : Order) (rnd : Nat) (vxlan dpif sock : Option Nat) :
    1024 ≤ (after (start vxlan dpif) (List.replicate 1021 (o, rnd, .op (goodAdd sock)))).ports.length := by
  rw [(adds_run o rnd sock _ (tidy_start vxlan dpif) 1021 (by show 2 + 1021 < _; decide)).2.1]
  exact Nat.le_refl _

example (o : Order) : additions [(o, 0, .op (goodAdd none)), (o, 0, .msg []), (o, 0, .op badAdd)] = 2 ∧
    (returned (start none none) [(o, 0, .op (goodAdd none)), (o, 0, .msg [])]).filterMap Ret.number = [3] := by
  refine ⟨rfl, ?_⟩
  have := (adds_run o 0 none _ (tidy_start none none) 1 (by show 2 + 1 < _; decide)).2.2
  simp only [List.replicate_one, returned, List.append_nil] at this
  simp only [returned, List.append_nil, List.filterMap_append, this]
  rfl

end Twink.Agent
