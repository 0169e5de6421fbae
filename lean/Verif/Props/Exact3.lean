import Verif.Props.Ovs
import Verif.Props.AgentOut
import Verif.Props.Session
import Verif.Props.Layers
import Verif.Props.Parent
import Verif.Props.Attach

/-!
# Exactly when: C32, C58, C62, C93, C97, C110
-/

namespace Twink.Exact3

/-! ## C58: the option for the version -/

section
open Ovs Spec Of13
variable {V : Type}

/-- The name that `ovs-ofctl` has for the version with this number on the wire. -/
def nameOfVersion (v : Nat) : Option Str := if v = 0 then none else protocols[v - 1]?

theorem ofctl_any {options : List (Str × Option V)} (ho : ∀ x ∈ options, x.1 ≠ "O".toList ∧ x.1 ≠ "protocols".toList) :
    options.any (fun o => o.1 = "O".toList || o.1 = "protocols".toList) = false := by
  rw [List.any_eq_false]
  intro x hx
  obtain ⟨h1, h2⟩ := ho x hx
  simp only [h1, h2, decide_false, Bool.or_false, Bool.false_eq_true, not_false_eq_true]

theorem makeOptions_O (conv : ArgTy → V → Py Str) (text : Str → V) (hconv : ∀ s, conv .str (text s) = .ok s) (p : Str) (options : List (Str × Option V)) (os : List Str)
    (hos : makeOptions conv options = .ok os) : makeOptions conv (options ++ [("O".toList, some (text p))]) = .ok (os ++ ["-O".toList, p]) := by
  have hk : known.lookup "O".toList = some ⟨false, some .str, false⟩ := by decide +kernel
  have h1 : optArgs conv "O".toList (some (text p)) = .ok ["-O".toList, p] := by
    simp only [optArgs, hk, hconv, ok_bind]; rfl
  induction options generalizing os with
  | nil =>
    simp only [makeOptions, ok_inj] at hos
    subst hos
    simp only [List.nil_append, makeOptions, h1, ok_bind, List.append_nil]
  | cons x options ih =>
    obtain ⟨n, v⟩ := x
    simp only [List.cons_append, makeOptions, bind_ok, ok_inj] at hos ⊢
    obtain ⟨a, h2, as, h3, rfl⟩ := hos
    exact ⟨a, h2, as ++ ["-O".toList, p], ih as h3, by simp⟩

/-- What `ofctl` does, by the version of the channel, when the caller chose no version. -/
theorem ofctl_value (conv : ArgTy → V → Py Str) (text : Str → V) (hconv : ∀ s, conv .str (text s) = .ok s) (version : Option Nat) (addr action : Str) (args : List Str)
    (options : List (Str × Option V)) (ho : ∀ x ∈ options, x.1 ≠ "O".toList ∧ x.1 ≠ "protocols".toList) (os : List Str) (hos : makeOptions conv options = .ok os) :
    ofctl conv text version addr action args options =
      if version = some 1 then ([.start, .run (["ovs-ofctl".toList] ++ os ++ [action, addr] ++ args), .halt], .ok ())
      else match protoName version with
        | .ok p => ([.start, .run (["ovs-ofctl".toList] ++ os ++ ["-O".toList, p] ++ [action, addr] ++ args), .halt], .ok ())
        | .error e => ([.start, .halt], .error e) := by
  by_cases h1 : version = some 1
  · rw [if_pos h1]
    have : ofctlCmd conv text version addr action args options = .ok (["ovs-ofctl".toList] ++ os ++ [action, addr] ++ args) := by
      unfold ofctlCmd withProto
      rw [if_neg (by simp [h1])]
      simp only [ok_bind, hos]
    unfold ofctl
    rw [this]
  · rw [if_neg h1]
    cases hp : protoName version with
    | ok p =>
      have : ofctlCmd conv text version addr action args options = .ok (["ovs-ofctl".toList] ++ os ++ ["-O".toList, p] ++ [action, addr] ++ args) := by
        unfold ofctlCmd withProto
        rw [if_pos h1, ofctl_any ho]
        simp only [Bool.false_eq_true, if_false, hp, ok_bind, makeOptions_O conv text hconv p options os hos]
        simp only [List.append_assoc]
      unfold ofctl
      rw [this]
    | error e =>
      have : ofctlCmd conv text version addr action args options = .error e := by
        unfold ofctlCmd withProto
        rw [if_pos h1, ofctl_any ho]
        simp only [Bool.false_eq_true, if_false, hp]
        rfl
      unfold ofctl
      rw [this]

/-- C58, exactly: with well-formed options among which is no choice of the version, the command line says `-O` and the name of the channel's version if and only if the
version is 2, 3 or 4; and a command is run at all if and only if the version is known and at most 4.  (`C58_version5_refuted` is the case 5.) -/
theorem C58_exact (conv : ArgTy → V → Py Str) (text : Str → V) (hconv : ∀ s, conv .str (text s) = .ok s) (version : Option Nat) (addr action : Str) (args : List Str)
    (options : List (Str × Option V)) (ho : ∀ x ∈ options, x.1 ≠ "O".toList ∧ x.1 ≠ "protocols".toList) (os : List Str) (hos : makeOptions conv options = .ok os) :
    ((∃ v p, version = some v ∧ nameOfVersion v = some p ∧
      (ofctl conv text version addr action args options).1 = [.start, .run (["ovs-ofctl".toList] ++ os ++ ["-O".toList, p] ++ [action, addr] ++ args), .halt])
      ↔ version = some 2 ∨ version = some 3 ∨ version = some 4) ∧
    ((∃ cmd, .run cmd ∈ (ofctl conv text version addr action args options).1) ↔ ∃ v, version = some v ∧ v ≤ 4) := by
  rw [ofctl_value conv text hconv version addr action args options ho os hos]
  have hlong : ∀ (p : Str), (["ovs-ofctl".toList] ++ os ++ [action, addr] ++ args) ≠ (["ovs-ofctl".toList] ++ os ++ ["-O".toList, p] ++ [action, addr] ++ args) := by
    intro p h
    have := congrArg List.length h
    simp at this
  have hn0 : nameOfVersion 0 = none := rfl
  have hn2 : nameOfVersion 2 = some "OpenFlow11".toList := rfl
  have hn3 : nameOfVersion 3 = some "OpenFlow12".toList := rfl
  have hn4 : nameOfVersion 4 = some "OpenFlow13".toList := rfl
  match version with
  | none => simp [protoName]
  | some 0 => simp [protoName, hn0]
  | some 1 =>
    constructor
    · constructor
      · rintro ⟨v, p, hv, hp, h⟩
        rw [if_pos rfl] at h
        simp only [List.cons.injEq, Effect.run.injEq, and_true, true_and] at h
        exact absurd h (hlong p)
      · rintro (h | h | h) <;> cases h
    · simp
  | some 2 => exact ⟨⟨fun _ => by simp, fun _ => ⟨2, _, rfl, hn2, rfl⟩⟩, by simp [protoName]⟩
  | some 3 => exact ⟨⟨fun _ => by simp, fun _ => ⟨3, _, rfl, hn3, rfl⟩⟩, by simp [protoName]⟩
  | some 4 => exact ⟨⟨fun _ => by simp, fun _ => ⟨4, _, rfl, hn4, rfl⟩⟩, by simp [protoName]⟩
  | some (n + 5) => simp [protoName]

example : makeOptions (V := Str) (fun _ s => .ok s) [("m".toList, none), ("F".toList, some "any".toList)] = .ok ["-m".toList, "-F".toList, "any".toList] ∧
    nameOfVersion 5 = some "OpenFlow14".toList := by decide +kernel

end

/-! ## C62: the number of a port -/

section
open Agent

/-- The last number given out counts the attempts, until the numbers are used up. -/
theorem lastNo_step (st : St) (h : Happening) (hb : st.lastNo ≤ 0xfffffffd) : (step st h).1.lastNo = min (st.lastNo + additions [h]) 0xfffffffd := by
  obtain ⟨o, rnd, ev⟩ := h
  cases ev with
  | msg m =>
    have : additions [(o, rnd, Ev.msg m)] = 0 := rfl
    rw [this]
    unfold step
    simp only
    split
    · rename_i he
      rw [(switchProc_keeps he).2]; omega
    · show st.lastNo = _; omega
  | op a =>
    unfold step
    simp only
    cases a with
    | add dev mac c s =>
      have : additions [(o, rnd, Ev.op (.add dev mac c s))] = 1 := rfl
      rw [this]
      rcases addPort_cases rnd st dev mac c s with ⟨_, he⟩ | ⟨hl, e, he⟩ | ⟨hl, hw, sk, _, _, _, e, ⟨_, he⟩ | ⟨m, _, he⟩⟩ <;>
        simp only [portOp, he] <;> omega
    | del dev d =>
      have : additions [(o, rnd, Ev.op (.del dev d))] = 0 := rfl
      rw [this]
      rcases delPort_cases o rnd st dev d with ⟨_, he⟩ | ⟨e, _, _, ⟨_, _, he⟩ | ⟨m, _, ⟨_, he⟩ | ⟨_, he⟩⟩⟩ <;> simp only [portOp, he] <;> omega

theorem lastNo_after (st : St) (hs : List Happening) (hb : st.lastNo ≤ 0xfffffffd) : (after st hs).lastNo = min (st.lastNo + additions hs) 0xfffffffd := by
  induction hs generalizing st with
  | nil => show st.lastNo = min (st.lastNo + 0) _; omega
  | cons h hs ih =>
    have h1 := lastNo_step st h hb
    rw [after, ih _ (by omega), additions_cons, h1]
    omega

/-- C62, exactly: the number that an addition returns is three more than the number of additions attempted before, failed ones included.  So it is the number of a
physical or logical port (at most OFPP_MAX) if and only if no more than 0xfffffefd were attempted before. -/
theorem C62_exact (vxlan dpif : Option Nat) (hs : List Happening) (o : Order) (rnd : Nat) (a : Op) (n : Nat)
    (h : (step (after (start vxlan dpif) hs) (o, rnd, .op a)).2.2 = some (.added n)) :
    n = 3 + additions hs ∧ (n ≤ 0xffffff00 ↔ additions hs ≤ 0xfffffefd) := by
  have hl := lastNo_after (start vxlan dpif) hs (by show 2 ≤ _; decide)
  have h2 : (start vxlan dpif).lastNo = 2 := rfl
  rw [h2] at hl
  have h3 := (step_last (after (start vxlan dpif) hs) (o, rnd, .op a)).2 _ n h rfl
  have h4 := lastNo_step (after (start vxlan dpif) hs) (o, rnd, .op a) (by omega)
  have h5 := step_bound (after (start vxlan dpif) hs) (o, rnd, .op a)
  have h6 : additions [(o, rnd, Ev.op a)] ≤ 1 := by
    unfold additions
    exact List.countP_le_length
  constructor
  · omega
  · omega

example (o : Order) (rnd : Nat) : (step (after (start none none) [(o, rnd, .op (.add [100] [] true none))]) (o, rnd, .op (goodAdd none))).2.2 = some (.added 4) := by
  obtain ⟨m, hm⟩ := goodAdd_step o rnd (after (start none none) [(o, rnd, .op (.add [100] [] true none))]) none (by
    rw [lastNo_after _ _ (by decide)]; show min (2 + 1) _ + 1 < _; decide)
  rw [hm, lastNo_after _ _ (by decide)]
  rfl

end

/-! ## C93: the greeting -/

section
open Session Spec

/-- C93, exactly: the greeting of a controller that speaks 1.3 is handled without an exception, by the example and by the agent, if and only if the version in its header
is 1.3, that is, if and only if it speaks nothing higher. -/
theorem C93_exact (xid : Nat) (hx : xid < 2 ^ 32) (v : Nat) (g : Bytes) (hg : Greets v g) (rnd : Nat) (s : Sess Unit) (o : Agent.Order) (t : Sess Agent.St) :
    ((message (.seq [.int 4]) xid (exHandle rnd) s g).2 = .ok () ↔ v = 4) ∧
    ((message (.seq [.int 4]) xid (agentHandle o rnd) t g).2 = .ok () ↔ v = 4) := by
  by_cases hv : v = 4
  · subst hv
    obtain ⟨h1, h2⟩ := C93_partial xid hx g hg rnd s o t
    rw [h1, h2]
    simp
  · have hp := not_readable hg.1.1 (by rw [hg.2.1]; exact hv)
    have hz : u8 g 1 = 0 := hg.2.2.1
    have he : exProc rnd g = .error .assertion := by unfold exProc; rw [hp]; rfl
    have ha : ∀ st, Agent.switchProc o rnd st g = .error .assertion := by intro st; unfold Agent.switchProc; rw [hp]; rfl
    constructor
    · rw [greets_message xid hx _ _ hg, intercept_handle _ _ hg.1.1 (by omega : u8 g 1 ≠ 2)]
      simp [exHandle, he, hv]
    · rw [greets_message xid hx _ _ hg, intercept_handle _ _ hg.1.1 (by omega : u8 g 1 ≠ 2)]
      simp [agentHandle, ha, hv]

example : (∃ g, hello (.seq [.int 4]) 7 = .ok g ∧ Greets 4 g) ∧ ∃ g, hello (.seq [.int 4, .int 5]) 7 = .ok g ∧ Greets 5 g :=
  ⟨⟨_, rfl, ⟨by decide, by decide⟩, by decide, by decide, Or.inr (by decide)⟩, ⟨_, rfl, ⟨by decide, by decide⟩, by decide, by decide, Or.inr (by decide)⟩⟩

end

/-! ## C110: which `handle` is called -/

section
open Mro Layers

theorem find_exact {p : Cls → Bool} {l : List Cls} (hnd : l.Nodup) (x : Cls) :
    l.find? p = some x ↔ x ∈ l ∧ p x = true ∧ ∀ y, [y, x].Sublist l → p y = false := by
  constructor
  · intro h
    obtain ⟨hp, as, bs, rfl, has⟩ := List.find?_eq_some_iff_append.1 h
    refine ⟨by simp, hp, fun y hy => ?_⟩
    have : y ∈ as := by
      by_contra hc
      have hx : x ∉ as ∧ x ∉ bs := by
        rw [List.nodup_append] at hnd
        obtain ⟨_, h2, h3⟩ := hnd
        exact ⟨fun hm => h3 x hm x (by simp) rfl, (List.nodup_cons.1 h2).1⟩
      have h4 : [y, x].Sublist (x :: bs) := by
        clear h has hnd
        induction as with
        | nil => exact hy
        | cons a as ih =>
          simp only [List.mem_cons, not_or] at hc hx
          refine ih ?_ hc.2 ⟨hx.1.2, hx.2⟩
          cases hy with
          | cons _ h => exact h
          | cons_cons _ h => exact absurd rfl hc.1
      cases h4 with
      | cons _ h => exact hx.2 (h.subset (by simp))
      | cons_cons _ h => exact hx.2 (List.singleton_sublist.1 h)
    simpa using has y this
  · rintro ⟨hm, hp, hb⟩
    obtain ⟨y, h1, h2, h3 | h3⟩ := find_before hm hp
    · rw [h1, h3]
    · rw [hb y h3] at h2; cases h2

/-- C110, exactly: the `handle` in the body of a user's class is the one that is called if and only if the class is among the ancestors of the object's class and no class
before it in the order of resolution has a `handle` of its own: none of the user's, and not the empty one of `OpenflowServerChannel`, nor those of the two channels to a
parent. -/
theorem C110_exact (defs : List Def) (env : Env) (h : run (library ++ defs) builtin = some env) (c : Cls) (l : List Cls) (hc : env.lookup c = some l) (user : Nat → Bool)
    (n : Nat) :
    handleOf user l = some (.user n) ↔ Ancestor (library ++ defs) (.user n) c ∧ user n = true ∧ (∀ m, user m = true → ¬ Before l (.user m) (.user n)) ∧
      ¬ Before l .server (.user n) ∧ ¬ Before l .child (.user n) ∧ ¬ Before l .jackinChild (.user n) := by
  obtain ⟨hnd, hmem, _⟩ := C107_order _ env h c l hc
  unfold handleOf
  rw [find_exact hnd, hmem]
  constructor
  · rintro ⟨h1, h2, h3⟩
    refine ⟨h1, h2, fun m hm hb => ?_, fun hb => ?_, fun hb => ?_, fun hb => ?_⟩
    · have := h3 _ hb
      simp only [hasHandle, hm] at this
      cases this
    · cases h3 _ hb
    · cases h3 _ hb
    · cases h3 _ hb
  · rintro ⟨h1, h2, h3, h4, h5, h6⟩
    refine ⟨h1, h2, fun y hy => ?_⟩
    by_contra hc
    have hc : hasHandle user y = true := by simpa using hc
    cases y with
    | user m => exact h3 m hc hy
    | server => exact h4 hy
    | child => exact h5 hy
    | jackinChild => exact h6 hy
    | _ => cases hc

/-- `class Mixin(OpenflowServerChannel)` with a `handle`, `class App(AutoEchoChannel, Mixin)`: nothing with a `handle` comes before. -/
example : ∃ env l, run (library ++ [(.user 0, [.server]), (.user 1, [.autoEcho, .user 0])]) builtin = some env ∧ env.lookup (.user 1) = some l ∧
    (∀ m, decide (m = 0) = true → ¬ Before l (.user m) (.user 0)) ∧ ¬ Before l .server (.user 0) ∧ ¬ Before l .child (.user 0) ∧ ¬ Before l .jackinChild (.user 0) :=
  ⟨_, _, rfl, rfl, fun m hm => by have : m = 0 := by simpa using hm
                                  subst this; decide +kernel, by decide +kernel, by decide +kernel, by decide +kernel⟩

end

/-! ## C32: which monitors get a message, and when it is handed on -/

section
open Spec

theorem fanout_takeWhile (ok : Nat → Bool) (m : Bytes) (order : List Nat) (w : List (Nat × Bytes)) :
    fanout ok m order w = (w ++ (order.takeWhile ok).map (·, m), if order.all ok then .ok () else .error .other) := by
  induction order generalizing w with
  | nil => simp [fanout]
  | cons k ks ih =>
    by_cases h : ok k = true
    · simp [fanout, h, ih]
    · simp [fanout, h]

/-- C32, exactly.  A message other than a hello is written to the monitors up to the first, in the order in which the set is traversed, that cannot be written to, and to no
others; it is handed on if and only if all can be written to.  A hello is written to nobody; it is handed on if and only if the channel is not monitored or this is its
first. -/
theorem C32_exact (p : Parent) (m : Bytes) (hm : 8 ≤ m.length) (order : List Nat) (ok : Nat → Bool) :
    (u8 m 1 ≠ 0 → (parentRecv order ok p m).1.wrote = p.wrote ++ (order.takeWhile ok).map (·, m) ∧
      ((parentRecv order ok p m).2 = .ok m ↔ ∀ k ∈ order, ok k = true)) ∧
    (u8 m 1 = 0 → (parentRecv order ok p m).1.wrote = p.wrote ∧
      ((parentRecv order ok p m).2 = .ok m ↔ ¬ (p.monitor = true ∧ p.serving = true))) := by
  unfold parentRecv
  rw [if_neg (by intro e; subst e; simp at hm), parseHeader_fields m hm]
  constructor
  · intro h
    simp only [if_neg h, fanout_takeWhile]
    by_cases ha : order.all ok = true
    · rw [if_pos ha]
      exact ⟨rfl, fun _ => by simpa using ha, fun _ => rfl⟩
    · rw [if_neg ha]
      refine ⟨rfl, ?_⟩
      simp only [List.all_eq_true] at ha
      simp only [ha, iff_false]
      intro e; cases e
  · intro h
    simp only [if_pos h]
    cases p.monitor <;> cases p.serving <;> simp

/-- Three monitors, the second of which has gone away. -/
example : (parentRecv [1, 2, 3] (fun k => k != 2) ⟨true, true, [1, 2, 3], []⟩ [4, 10, 0, 8, 0, 0, 0, 1]).1.wrote = [(1, [4, 10, 0, 8, 0, 0, 0, 1])] := by decide

end

/-! ## C97: a channel that starts afresh -/

section
open Att

/-- C97, exactly: a channel that is attached to a connection starts afresh there - open, nothing read, no version, the greeting sent - if and only if it has never been
started, knows no version, and has no bytes left. -/
theorem C97_exact (accept : PyVers) (xid : Nat) (tr : List Raw) (h : Bytes) (hh : hello accept xid = .ok h) (s : St) :
    JustGreeted (attach accept xid true tr s).1 tr h ↔ s.started = false ∧ s.version = none ∧ s.chan.buf = [] := by
  obtain ⟨⟨closed, buf, old⟩, started, version, out⟩ := s
  cases started
  · simp [attach, start, hh, send, JustGreeted, Chan.attach]
    constructor
    · rintro ⟨h1, h2⟩; exact ⟨h2, h1⟩
    · rintro ⟨h1, h2⟩; exact ⟨h2, h1⟩
  · simp [attach, start, JustGreeted, Chan.attach]

example : hello (.seq [.int 4]) 7 = .ok [4, 0, 0, 16, 0, 0, 0, 7, 0, 1, 0, 8, 0, 0, 0, 16] := by decide +kernel

end

end Twink.Exact3
