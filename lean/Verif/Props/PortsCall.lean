import Verif.Model.PortsCall
import Verif.Props.Ports
import Verif.Proof.Sync
import Mathlib.Data.List.Induction

/-!
# C100: what the property `ports` returns
-/

namespace Twink.PortsCall
open Spec Fmt

/-! ## Specification -/

/-- A message that tells nothing about ports. -/
def NoPorts (v : Nat) (m : Bytes) : Prop :=
  m = [] ∨ (8 ≤ m.length ∧ u8 m 1 ≠ 12 ∧ (u8 m 1 = 6 → v = 4) ∧ (u8 m 1 = 19 → v = 4 → 16 ≤ m.length ∧ u16 m 8 ≠ 13))

/-- What a correct switch whose ports are `M` can send, and its ports afterwards: an event, a list of all its ports (from OpenFlow
1.3 in a multipart reply of one part, before that in a FEATURES_REPLY), or something that tells nothing about ports. -/
inductive Sends (v : Nat) : SwPorts → Bytes → SwPorts → Prop
  | event {M : SwPorts} (e : PortEv) (xid : Nat) (hx : xid < 4294967296) (hw : e.port.Wf v) (ha : e.Allowed M) :
      Sends v M (portStatus v xid e.reason e.port) (e.apply M)
  | other {M : SwPorts} (m : Bytes) (h : NoPorts v m) : Sends v M m M
  | features (ps : List Port) (xid : Nat) (fb : Bytes) (hv : v ≠ 4) (hx : xid < 4294967296) (hf : fb.length = 24)
      (hw : ∀ p ∈ ps, p.Wf v) (hn : (ps.map Port.no).Nodup) (hl : 32 + portSize v * ps.length < 65536) :
      Sends v (ofList ps) (featuresReply v xid fb ps) (ofList ps)
  | desc (ps : List Port) (xid flags : Nat) (hv : v = 4) (hx : xid < 4294967296) (hf : flags < 65536) (h0 : flags % 2 = 0)
      (hw : ∀ p ∈ ps, p.Wf v) (hn : (ps.map Port.no).Nodup) (hl : 16 + portSize v * ps.length < 65536) :
      Sends v (ofList ps) (portDescReply v xid flags ps) (ofList ps)

/-- The switch sends a sequence of messages. -/
inductive Stream (v : Nat) (M0 : SwPorts) : List Bytes → SwPorts → Prop
  | nil : Stream v M0 [] M0
  | snoc {ms : List Bytes} {M M' : SwPorts} {m : Bytes} (h : Stream v M0 ms M) (hs : Sends v M m M') : Stream v M0 (ms ++ [m]) M'

/-- Every entry describes an existing port as it is, no port occurs twice; ports may be missing. -/
def Part (ports : List PTuple) (M : SwPorts) : Prop := ∃ M0 : SwPorts, (∀ n, M0 n = none ∨ M0 n = M n) ∧ Mirrors ports M0

/-- The messages received in a run. -/
def received : List Ev → List Bytes
  | [] => []
  | .recv m :: evs => m :: received evs
  | _ :: evs => received evs

/-- A request for the list of ports: FEATURES_REQUEST up to OpenFlow 1.2, a PORT_DESC multipart request from 1.3. -/
def IsRequest (v : Nat) (m : Bytes) : Prop :=
  ∃ xid < 4294967296, m = if v = 4 ∨ v = 5 then ofHeader v 18 16 xid ++ be16 13 ++ be16 0 ++ zeros 4 else ofHeader v 5 8 xid

/-! ## Lemmas -/

theorem received_append (a b : List Ev) : received (a ++ b) = received a ++ received b := by
  induction a with
  | nil => rfl
  | cons e a ih => cases e <;> simp [received, ih]

theorem run_snoc (s : Sys) (evs : List Ev) (e : Ev) : run s (evs ++ [e]) = evStep (run s evs) e := by
  simp [run, List.foldl_append]

theorem multiGet_mem {d : List (Nat × List PTuple)} {x : Nat} {acc : List PTuple} (h : multiGet d x = some acc) :
    (x, acc) ∈ d := by
  unfold multiGet at h
  induction d with
  | nil => simp at h
  | cons q d ih =>
    obtain ⟨y, b⟩ := q
    rw [List.lookup_cons] at h
    split at h
    · rename_i hxy
      simp at hxy h
      subst hxy h; simp
    · exact List.mem_cons_of_mem _ (ih h)

/-- One event of a correct switch, before the list is complete. -/
theorem updatePort_part (s : PortSt) (hq : NoWaiters s) (hi : s.init = false) (M : SwPorts) (hM : Part s.ports M)
    (e : PortEv) (ha : e.Allowed M) :
    ∃ ps, updatePort s e.reason (portView e.port) = .ok ps ∧ Part ps (e.apply M) := by
  obtain ⟨M0, hle, hM⟩ := hM
  have le_apply : ∀ (p : Port) (M1 : SwPorts), (∀ n, M1 n = if n = p.no then some p else M0 n) →
      ∀ n, M1 n = none ∨ M1 n = if n = p.no then some p else M n := by
    intro p M1 h n
    rw [h n]
    by_cases en : n = p.no
    · simp [en]
    · simp only [if_neg en]; exact hle n
  by_cases ha0 : e.Allowed M0
  · obtain ⟨ps, h1, h2⟩ := updatePort_mirrors s hq M0 hM e ha0
    refine ⟨ps, h1, e.apply M0, ?_, h2⟩
    cases e with
    | add p => exact le_apply p _ (fun n => rfl)
    | modify p => exact le_apply p _ (fun n => rfl)
    | delete p =>
      intro n
      simp only [PortEv.apply]
      by_cases en : n = p.no
      · simp [en]
      · simp only [if_neg en]; exact hle n
  · have hhit : ∀ p : Port, M0 p.no = none → s.ports.filter (fun x => portNo x == portNo (portView p)) = [] := by
      intro p hp; rw [portNo_view, filter_hit hM.2, hM.1, hp]; rfl
    cases e with
    | add p =>
      exfalso
      apply ha0
      simp only [PortEv.Allowed] at ha ⊢
      rcases hle p.no with h | h
      · exact h
      · rw [h]; exact ha
    | delete p =>
      simp only [PortEv.Allowed, ne_eq, not_not] at ha0
      refine ⟨s.ports, ?_, M0, ?_, hM⟩
      · simp [updatePort, PortEv.reason, PortEv.port, hhit p ha0, hi, waiter_quiet hq.2]
      · intro n
        simp only [PortEv.apply]
        by_cases en : n = p.no
        · left; rw [en]; exact ha0
        · simp only [if_neg en]; exact hle n
    | modify p =>
      simp only [PortEv.Allowed, ne_eq, not_not] at ha0
      obtain ⟨ps, h1, h2⟩ := updatePort_mirrors s hq M0 hM (.add p) ha0
      refine ⟨ps, ?_, (PortEv.add p).apply M0, le_apply p _ (fun n => rfl), h2⟩
      rw [← h1]
      simp [updatePort, PortEv.reason, PortEv.port, hhit p ha0, hi, waiter_quiet hq.1]

theorem Part.of_mirrors {ports : List PTuple} {M : SwPorts} (h : Mirrors ports M) : Part ports M := ⟨M, fun _ => .inr rfl, h⟩

/-- What is known about the channel when the switch's ports are `M`. -/
structure ChanOk (v : Nat) (c : PortSt) (M : SwPorts) : Prop where
  version : c.version = v
  quiet : NoWaiters c
  multi : ∀ q ∈ c.multi, q.2 = [] ∧ v = 4
  part : Part c.ports M
  full : c.init = true → Mirrors c.ports M

theorem recv_noPorts {v : Nat} {c : PortSt} {M : SwPorts} (h : ChanOk v c M) {m : Bytes} (hm : NoPorts v m) :
    portRecv c m = (c, .ok m) := by
  rcases hm with rfl | ⟨h8, h12, h6, h19⟩
  · simp [portRecv]
  · by_cases e : u8 m 1 = 19
    · cases hg : multiGet c.multi (u32 m 4) with
      | none =>
        apply recv_unrelated c (fun x => multiGet c.multi x ≠ none) (fun x h => h)
        exact .inr ⟨h8, h12, by rw [h.version]; exact h6, fun _ h' => h' hg⟩
      | some acc =>
        obtain ⟨-, hv⟩ := h.multi _ (multiGet_mem hg)
        obtain ⟨h16, h13⟩ := h19 e hv
        have hu : unpackFrom [H, H, X 4] m 8 = .ok [.int (u16 m 8), .int (u16 m 10)] := by
          rw [unpackFrom, if_pos (by simp [calcsize, Item.width]; omega)]
          simp only [dec, List.drop_drop, decBE_u16 m 8 (by omega), decBE_u16 m 10 (by omega)]
        unfold portRecv
        have hne : m ≠ [] := by rintro rfl; simp at h8
        rw [if_neg hne, parseHeader_fields m h8]
        have : recvMulti c m (u16 m 2) (u32 m 4) acc = (c, .ok ()) := by
          unfold recvMulti
          rw [if_neg (by rw [h.version]; omega), hu]
          simp only [if_neg h13]
        simp [portDispatch, hg, e, this]; rfl
    · apply recv_unrelated c (fun _ => True) (fun _ _ => trivial)
      exact .inr ⟨h8, h12, by rw [h.version]; exact h6, fun h' => absurd h' e⟩

theorem mem_multiDel_set {d : List (Nat × List PTuple)} {x : Nat} {l : List PTuple} {q : Nat × List PTuple}
    (h : q ∈ multiDel (multiSet d x l) x) : q ∈ d := by
  simp only [multiDel, multiSet, List.mem_filter, List.mem_cons, bne_iff_ne] at h
  rcases h with ⟨rfl | h, hne⟩
  · exact absurd rfl hne
  · exact h.1

/-- Receiving a message of a correct switch. -/
theorem recv_sends {v : Nat} (hv : v = 1 ∨ v = 2 ∨ v = 3 ∨ v = 4) {c : PortSt} {M M' : SwPorts} (h : ChanOk v c M) {m : Bytes}
    (hs : Sends v M m M') :
    ∃ c', portRecv c m = (c', .ok m) ∧ ChanOk v c' M' ∧ (c.init = true → c'.init = true) := by
  cases hs with
  | event e xid hx hw ha =>
    have hr := recv_status hv c h.version xid e.reason hx (by cases e <;> simp [PortEv.reason]) e.port hw
    by_cases hi : c.init = true
    · obtain ⟨ps, hu, hps⟩ := updatePort_mirrors c h.quiet _ (h.full hi) e ha
      rw [hu] at hr
      exact ⟨_, hr, ⟨h.version, h.quiet, h.multi, .of_mirrors hps, fun _ => hps⟩, fun h => h⟩
    · have hi : c.init = false := by simpa using hi
      obtain ⟨ps, hu, hps⟩ := updatePort_part c h.quiet hi _ h.part e ha
      rw [hu] at hr
      exact ⟨_, hr, ⟨h.version, h.quiet, h.multi, hps, fun h' => absurd h' (by simp [hi])⟩, fun h => h⟩
  | other _ hm => exact ⟨c, recv_noPorts h hm, h, fun h => h⟩
  | features ps xid fb hv4 hx hf hw hn hl =>
    have hr := recv_features (v := v) (by omega) c h.version h.quiet xid hx fb hf ps hw hl
    have hps := mirrors_ofList ps hn
    exact ⟨_, hr, ⟨h.version, h.quiet, h.multi, .of_mirrors hps, fun _ => hps⟩, fun _ => rfl⟩
  | desc ps xid flags hv4 hx hf h0 hw hn hl =>
    have hps := mirrors_ofList ps hn
    cases hg : multiGet c.multi xid with
    | none =>
      refine ⟨c, ?_, h, fun h => h⟩
      have hlen : 8 ≤ (portDescReply v xid flags ps).length := by
        unfold portDescReply; simp only [List.length_append, ofHeader, b8, be16, be32, List.length_cons]; omega
      have ht : u8 (portDescReply v xid flags ps) 1 = 19 := by
        unfold portDescReply; simp [ofHeader, u8, b8]
      have hx' : u32 (portDescReply v xid flags ps) 4 = xid := by
        unfold portDescReply
        simp only [ofHeader, u32, u16, u8, b8, be16, be32, List.cons_append, List.nil_append, List.getD_cons_succ,
          List.getD_cons_zero, UInt8.toNat_ofNat']
        omega
      apply recv_unrelated c (fun x => multiGet c.multi x ≠ none) (fun x h => h)
      refine .inr ⟨hlen, by rw [ht]; decide, by rw [ht]; intro h; exact absurd h (by decide), ?_⟩
      rw [hx']; intro _ h'; exact h' hg
    | some acc =>
      obtain ⟨ha, -⟩ := h.multi _ (multiGet_mem hg)
      simp only at ha
      subst ha
      have hr := recv_portDesc hv4 c h.version h.quiet xid flags hx hf [] hg ps hw hl
      rw [if_pos h0] at hr
      exact ⟨_, hr, ⟨h.version, h.quiet, fun q hq => h.multi q (mem_multiDel_set hq), .of_mirrors hps, fun _ => hps⟩, fun _ => rfl⟩

/-- What a thread that reads `ports` knows. -/
structure CallOk (v : Nat) (M0 : SwPorts) (ms : List Bytes) (init : Bool) (t : Call) : Prop where
  read : t.pc = .read → t.timedOut = true ∨ init = true
  done : ∀ l, t.pc = .done (.ok l) → ∃ ms1 M1, ms1 <+: ms ∧ Stream v M0 ms1 M1 ∧ Part l M1 ∧ (t.timedOut = false → Mirrors l M1)

theorem CallOk.mono {v : Nat} {M0 : SwPorts} {ms : List Bytes} {i j : Bool} {t : Call} (h : CallOk v M0 ms i t)
    (hij : i = true → j = true) (m : List Bytes) : CallOk v M0 (ms ++ m) j t := by
  refine ⟨fun hp => (h.read hp).imp id hij, fun l hl => ?_⟩
  obtain ⟨ms1, M1, h1, h2⟩ := h.done l hl
  exact ⟨ms1, M1, h1.trans (List.prefix_append _ _), h2⟩

/-- The invariant of all runs with a correct switch. -/
structure SysOk (v : Nat) (M0 : SwPorts) (ms : List Bytes) (M : SwPorts) (s : Sys) : Prop where
  dead : s.dead = none
  stream : Stream v M0 ms M
  chan : ChanOk v s.chan M
  calls : ∀ t ∈ s.calls, CallOk v M0 ms s.chan.init t

/-- `portsRequest` registers at most an empty list. -/
theorem portsRequest_chan {v : Nat} (hv : v ≠ 5) {c : PortSt} {M : SwPorts} (h : ChanOk v c M) (x : Nat) :
    ChanOk v { (portsRequest { c with init := false } x).1 with init := c.init } M := by
  unfold portsRequest
  simp only [Bool.false_eq_true, if_false]
  split
  · rename_i h45
    refine ⟨h.version, h.quiet, ?_, h.part, h.full⟩
    intro q hq
    simp only [multiSet, List.mem_cons, List.mem_filter] at hq
    rcases hq with rfl | hq
    · rw [h.version] at h45; exact ⟨rfl, by omega⟩
    · exact h.multi q hq.1
  · split <;> exact ⟨h.version, h.quiet, h.multi, h.part, h.full⟩

theorem set_ok {P : Call → Prop} {l : List Call} {i : Nat} {t : Call} (h : ∀ t ∈ l, P t) (ht : P t) : ∀ u ∈ l.set i t, P u := by
  intro u hu
  rcases List.mem_or_eq_of_mem_set hu with h' | rfl
  · exact h u h'
  · exact ht

theorem sysOk_step {v : Nat} (hv : v = 1 ∨ v = 2 ∨ v = 3 ∨ v = 4) {M0 M : SwPorts} {ms : List Bytes} {s : Sys}
    (h : SysOk v M0 ms M s) (i : Nat) (t : Call) (hi : s.calls[i]? = some t) (c : Choice) : SysOk v M0 ms M (callStep s i t c) := by
  have ht := h.calls t (List.mem_of_getElem? hi)
  have trivialOk : ∀ (pc : Pc) (b : Bool), pc ≠ .read → (∀ l, pc ≠ .done (.ok l)) → CallOk v M0 ms s.chan.init ⟨pc, b⟩ :=
    fun pc b h1 h2 => ⟨fun h => absurd h h1, fun l hl => absurd hl (h2 l)⟩
  have hM := h.stream
  have hc := h.chan
  unfold callStep
  split
  · refine ⟨h.dead, hM, hc, set_ok h.calls ?_⟩
    by_cases hin : s.chan.init = true
    · simp only [hin, if_true]
      exact ⟨fun _ => .inr rfl, fun l hl => by simp at hl⟩
    · simp only [hin, Bool.false_eq_true, if_false]
      exact ⟨fun h => by simp at h, fun l hl => by simp at hl⟩
  · have hp := portsRequest_chan (v := v) (by omega) hc c.xid
    simp only
    split
    · exact ⟨h.dead, hM, hp, set_ok h.calls (trivialOk _ _ (by simp) (by simp))⟩
    · exact h
    · exact ⟨h.dead, hM, hp, set_ok h.calls (trivialOk _ _ (by simp) (by simp))⟩
  · split
    · exact ⟨h.dead, hM, hc, set_ok h.calls (trivialOk _ _ (by simp) (by simp))⟩
    · exact ⟨h.dead, hM, hc, set_ok h.calls (trivialOk _ _ (by simp) (by simp))⟩
  · split
    · rename_i hin
      exact ⟨h.dead, hM, hc, set_ok h.calls ⟨fun _ => .inr hin, fun l hl => by simp at hl⟩⟩
    · split
      · exact ⟨h.dead, hM, hc, set_ok h.calls ⟨fun _ => .inl rfl, fun l hl => by simp at hl⟩⟩
      · exact h
  · rename_i hpc
    refine ⟨h.dead, hM, hc, set_ok h.calls ⟨fun h => by simp at h, ?_⟩⟩
    intro l hl
    simp only [Pc.done.injEq, Except.ok.injEq] at hl
    subst hl
    refine ⟨ms, M, List.prefix_rfl, hM, hc.part, fun hf => ?_⟩
    rcases ht.read hpc with h' | h'
    · simp only at hf; rw [h'] at hf; cases hf
    · exact hc.full h'
  · exact h

/-- The fresh channel. -/
theorem sysOk_fresh (v : Nat) (M0 : SwPorts) : SysOk v M0 [] M0 (fresh v) := by
  refine ⟨rfl, .nil, ⟨rfl, ⟨fun _ => rfl, fun _ => rfl⟩, by simp [fresh], ?_, by simp [fresh]⟩, by simp [fresh]⟩
  exact ⟨fun _ => none, fun _ => .inl rfl, by intro n; rfl, by simp [fresh]⟩

theorem Stream.last {v : Nat} {M0 M : SwPorts} {ms : List Bytes} (h : Stream v M0 ms M) :
    (ms = [] ∧ M = M0) ∨ ∃ ms' m M', ms = ms' ++ [m] ∧ Stream v M0 ms' M' ∧ Sends v M' m M := by
  cases h with
  | nil => exact .inl ⟨rfl, rfl⟩
  | snoc h hs => exact .inr ⟨_, _, _, rfl, h, hs⟩

/-- The invariant holds in all runs in which nobody closes the channel. -/
theorem sysOk_run {v : Nat} (hv : v = 1 ∨ v = 2 ∨ v = 3 ∨ v = 4) {M0 : SwPorts} (evs : List Ev) (hc : Ev.close ∉ evs) (M : SwPorts)
    (h : Stream v M0 (received evs) M) : SysOk v M0 (received evs) M (run (fresh v) evs) := by
  induction evs using List.reverseRec generalizing M with
  | nil =>
    rcases h.last with ⟨-, rfl⟩ | ⟨ms, m, M', h1, -, -⟩
    · exact sysOk_fresh v M
    · simp [received] at h1
  | append_singleton evs e ih =>
    simp only [List.mem_append, List.mem_singleton, not_or] at hc
    rw [run_snoc]
    rw [received_append] at h ⊢
    cases e with
    | call =>
      simp only [received, List.append_nil] at h ⊢
      have ih := ih hc.1 M h
      refine ⟨ih.dead, h, ih.chan, ?_⟩
      intro t ht
      simp only [evStep, List.mem_append, List.mem_singleton] at ht
      rcases ht with ht | rfl
      · exact ih.calls t ht
      · exact ⟨fun h => by simp at h, fun l hl => by simp at hl⟩
    | step i c =>
      simp only [received, List.append_nil] at h ⊢
      have ih := ih hc.1 M h
      simp only [evStep]
      split
      · exact ih
      · rename_i t ht; exact sysOk_step hv ih i t ht c
    | recv m =>
      simp only [received] at h ⊢
      rcases h.last with ⟨h1, -⟩ | ⟨ms, m', M', h1, h2, h3⟩
      · simp at h1
      · obtain ⟨rfl, hm⟩ := List.append_inj' h1 rfl
        obtain rfl := (List.cons.inj hm).1
        have ih := ih hc.1 M' h2
        obtain ⟨c', hr, hc', hin⟩ := recv_sends hv ih.chan h3
        have : evStep (run (fresh v) evs) (.recv m) = { run (fresh v) evs with chan := c' } := by
          simp only [evStep, ih.dead, hr]
        rw [this]
        exact ⟨ih.dead, h, hc', fun t ht => (ih.calls t ht).mono hin [m]⟩
    | close => exact absurd rfl hc.2

theorem request_ok {v : Nat} (hv : 1 ≤ v ∧ v ≤ 5) (c : PortSt) (hc : c.version = v) (x : Nat) (hx : x < 4294967296) :
    ∃ m, (portsRequest { c with init := false } x).2 = .ok (some m) ∧ IsRequest v m := by
  unfold portsRequest
  simp only [Bool.false_eq_true, if_false, hc]
  by_cases h45 : v = 4 ∨ v = 5
  · rw [if_pos h45]
    have hfit : fits [B, B, H, I, H, H, X 4] [.int v, .int 18, .int 16, .int x, .int 13, .int 0] = true := by
      simp [fits, hx, show v < 256 by omega]
    refine ⟨_, by unfold pack; rw [if_pos hfit]; rfl, x, hx, ?_⟩
    rw [if_pos h45]
    simp [enc, encBE_1, encBE_2, encBE_4, ofHeader, zeros]
  · rw [if_neg h45, if_neg (by omega)]
    have hfit : fits [B, B, H, I] [.int v, .int 5, .int 8, .int x] = true := by
      simp [fits, hx, show v < 256 by omega]
    refine ⟨_, by unfold pack; rw [if_pos hfit]; rfl, x, hx, ?_⟩
    rw [if_neg h45, ofHeader_enc]

/-- Ids have 32 bits and writing succeeds. -/
def Fine (e : Ev) : Prop := ∀ i c, e = .step i c → c.xid < 4294967296 ∧ c.fails = none

/-- The invariant for requests: nobody got an exception, and whatever is or will be written is a request. -/
structure ReqOk (v : Nat) (s : Sys) : Prop where
  version : s.chan.version = v
  sent : ∀ m ∈ s.sent, IsRequest v m
  calls : ∀ t ∈ s.calls, (∀ m, t.pc = .send m → IsRequest v m) ∧ ∀ e, t.pc ≠ .done (.error e)

theorem portRecv_version (c : PortSt) (m : Bytes) : (portRecv c m).1.version = c.version := by
  have hF : ∀ (c : PortSt) ps, (finishPorts c ps).1.version = c.version := by
    intro c ps; unfold finishPorts; split <;> rfl
  unfold portRecv
  split
  · rfl
  · split
    · rfl
    · simp only [portDispatch]
      split
      · unfold recvMulti
        split
        · rfl
        · split
          · split
            · simp only
              split
              · rfl
              · split
                · split
                  · rename_i h; have := congrArg (fun q => q.1.version) h; simp only [hF] at this; exact this.symm
                  · rename_i h; have := congrArg (fun q => q.1.version) h; simp only [hF] at this; exact this.symm
                · rfl
            · rfl
          · rfl
          · rfl
      · split
        · unfold recvFeatures
          split
          · rfl
          · exact hF _ _
        · split
          · unfold recvStatus
            split
            · split <;> rfl
            · rfl
            · rfl
          · rfl

theorem portsRequest_version (c : PortSt) (x : Nat) : (portsRequest c x).1.version = c.version := by
  unfold portsRequest
  split
  · rfl
  · split
    · rfl
    · split <;> rfl

theorem reqOk_step {v : Nat} (hv : 1 ≤ v ∧ v ≤ 5) {s : Sys} (h : ReqOk v s) (e : Ev) (he : Fine e) : ReqOk v (evStep s e) := by
  have plain : ∀ (pc : Pc) (b : Bool), (∀ m, pc ≠ .send m) → (∀ e, pc ≠ .done (.error e)) →
      (∀ m, (⟨pc, b⟩ : Call).pc = .send m → IsRequest v m) ∧ ∀ e, (⟨pc, b⟩ : Call).pc ≠ .done (.error e) :=
    fun pc b h1 h2 => ⟨fun m hm => absurd hm (h1 m), h2⟩
  cases e with
  | call =>
    refine ⟨h.version, h.sent, ?_⟩
    intro t ht
    simp only [evStep, List.mem_append, List.mem_singleton] at ht
    rcases ht with ht | rfl
    · exact h.calls t ht
    · exact plain _ _ (by simp) (by simp)
  | close => exact ⟨h.version, h.sent, h.calls⟩
  | recv m =>
    simp only [evStep]
    split
    · exact h
    · split
      · exact ⟨(portRecv_version _ _).trans h.version, h.sent, h.calls⟩
      · exact ⟨(portRecv_version _ _).trans h.version, h.sent, h.calls⟩
  | step i c =>
    obtain ⟨hx, hf⟩ := he i c rfl
    simp only [evStep]
    split
    · exact h
    · rename_i t hi
      have ht := h.calls t (List.mem_of_getElem? hi)
      unfold callStep
      split
      · refine ⟨h.version, h.sent, set_ok h.calls (plain _ _ ?_ ?_)⟩ <;> · intro m; split <;> simp
      · obtain ⟨m, hm, hr⟩ := request_ok hv s.chan h.version c.xid hx
        have hver := (portsRequest_version { s.chan with init := false } c.xid).trans h.version
        simp only [hm]
        refine ⟨hver, h.sent, set_ok h.calls ⟨?_, by simp⟩⟩
        intro m' hm'
        simp only [Pc.send.injEq] at hm'
        subst hm'; exact hr
      · rename_i m hpc
        simp only [hf]
        refine ⟨h.version, ?_, set_ok h.calls (plain _ _ (by simp) (by simp))⟩
        intro m' hm'
        rcases List.mem_append.1 hm' with h' | h'
        · exact h.sent m' h'
        · simp only [List.mem_singleton] at h'; subst h'; exact ht.1 _ hpc
      · split
        · exact ⟨h.version, h.sent, set_ok h.calls (plain _ _ (by simp) (by simp))⟩
        · split
          · exact ⟨h.version, h.sent, set_ok h.calls (plain _ _ (by simp) (by simp))⟩
          · exact h
      · exact ⟨h.version, h.sent, set_ok h.calls (plain _ _ (by simp) (by simp))⟩
      · exact h

theorem reqOk_run {v : Nat} (hv : 1 ≤ v ∧ v ≤ 5) (evs : List Ev) (he : ∀ e ∈ evs, Fine e) : ReqOk v (run (fresh v) evs) := by
  induction evs using List.reverseRec with
  | nil => exact ⟨rfl, by simp [run, fresh], by simp [run, fresh]⟩
  | append_singleton evs e ih =>
    rw [run_snoc]
    exact reqOk_step hv (ih fun e h => he e (by simp [h])) e (he e (by simp))

/-! ## C100 -/

/-- **C100**: whatever threads read `ports`, whatever the schedule and whatever arrives, only well-formed requests for the list of
ports are written, and nobody who reads `ports` gets an exception unless writing fails. -/
theorem C100_requests {v : Nat} (hv : 1 ≤ v ∧ v ≤ 5) (evs : List Ev) (he : ∀ e ∈ evs, Fine e) :
    (∀ m ∈ (run (fresh v) evs).sent, IsRequest v m) ∧ ∀ t ∈ (run (fresh v) evs).calls, ∀ e, t.pc ≠ .done (.error e) :=
  ⟨(reqOk_run hv evs he).sent, fun t ht => ((reqOk_run hv evs he).calls t ht).2⟩

/-- **C100**, versions 1.0 to 1.3, while nobody closes the channel or waits for a port: against a correct switch that answers in one
part, in every interleaving of any number of threads, what `ports` returns describes the ports of the switch as they were after
some of the messages received (`ms1`): all of them if the wait did not time out, otherwise some of them. No message of such a
switch makes `recv` raise. (Partial: false if the reply has several parts, if the channel is closed, and in version 1.4.) -/
theorem C100_result_partial {v : Nat} (hv : v = 1 ∨ v = 2 ∨ v = 3 ∨ v = 4) {M0 M : SwPorts} (evs : List Ev) (hc : Ev.close ∉ evs)
    (h : Stream v M0 (received evs) M) :
    (run (fresh v) evs).dead = none ∧
    ∀ t ∈ (run (fresh v) evs).calls, ∀ l, t.pc = .done (.ok l) →
      ∃ ms1 M1, ms1 <+: received evs ∧ Stream v M0 ms1 M1 ∧ Part l M1 ∧ (t.timedOut = false → Mirrors l M1) :=
  ⟨(sysOk_run hv evs hc M h).dead, fun t ht => ((sysOk_run hv evs hc M h).calls t ht).done⟩

/-- **C100**: once the list is known, reading `ports` writes nothing, does not wait, and returns the current list. -/
theorem C100_known (s : Sys) (hi : s.chan.init = true) (c1 c2 : Choice) :
    run s [.call, .step s.calls.length c1, .step s.calls.length c2] =
      { s with calls := s.calls ++ [{ pc := .done (.ok s.chan.ports) }] } := by
  simp [run, evStep, callStep, hi]

/-- **C100**: before the version is negotiated, reading `ports` raises `struct.error`. -/
theorem C100_no_version (s : Sys) (hi : s.chan.init = false) (hv : s.chan.version = 0) (c1 c2 : Choice) :
    (run s [.call, .step s.calls.length c1, .step s.calls.length c2]).calls =
      s.calls ++ [{ pc := .done (.error .structError) }] := by
  simp [run, evStep, callStep, hi, portsRequest, hv]

/-- The steps of a thread up to the wait. -/
def asks (i xid : Nat) : List Ev := [.call, .step i {}, .step i { xid := xid }, .step i {}]

/-- **C100 is false of the code**: a thread whose wait times out gets the empty list, without any sign that the list is not known,
though the switch has a port. -/
theorem C100_timeout_refuted :
    run (fresh 4) (asks 0 1 ++ [.step 0 { expires := true }, .step 0 {}]) =
      { chan := { version := 4, multi := [(1, [])] }
        calls := [{ pc := .done (.ok []), timedOut := true }]
        sent := [ofHeader 4 18 16 1 ++ be16 13 ++ be16 0 ++ zeros 4] } ∧
    Stream 4 (ofList [exPort 1]) (received (asks 0 1 ++ [.step 0 { expires := true }, .step 0 {}])) (ofList [exPort 1]) ∧
    ¬ Mirrors [] (ofList [exPort 1]) := by
  refine ⟨rfl, .nil, fun h => ?_⟩
  have := h.1 1
  simp [ofList, exPort] at this

/-- **C100 is false of the code**: closing the channel ends the wait; the thread gets the empty list. -/
theorem C100_close_refuted :
    (run (fresh 4) (asks 0 1 ++ [.close, .step 0 {}, .step 0 {}])).calls = [{ pc := .done (.ok []) }] ∧
    ¬ Mirrors [] (ofList [exPort 1]) := by
  refine ⟨rfl, fun h => ?_⟩
  have := h.1 1
  simp [ofList, exPort] at this

/-- A switch with ports 1 and 2 answers in two parts; between them, it gets port 3. -/
def exParts : List Bytes := [portDescReply 4 1 1 [exPort 1], portStatus 4 2 0 (exPort 3), portDescReply 4 1 0 [exPort 2]]

/-- **C100 is false of the code**: if a port appears between two parts of the reply, the list that `ports` returns lacks it, for good;
and when that port disappears, `recv` raises `AssertionError`. -/
theorem C100_parts_refuted :
    (run (fresh 4) (asks 0 1 ++ exParts.map .recv ++ [.step 0 {}, .step 0 {}])).calls =
      [{ pc := .done (.ok [portView (exPort 1), portView (exPort 2)]) }] ∧
    (PortEv.add (exPort 3)).Allowed (ofList [exPort 1, exPort 2]) ∧
    ¬ Mirrors [portView (exPort 1), portView (exPort 2)] ((PortEv.add (exPort 3)).apply (ofList [exPort 1, exPort 2])) ∧
    (run (fresh 4) (asks 0 1 ++ exParts.map .recv ++ [.recv (portStatus 4 3 1 (exPort 3))])).dead = some .assertion := by
  refine ⟨by decide +kernel, rfl, fun h => ?_, by decide +kernel⟩
  have := h.1 3
  simp [PortEv.apply, exPort, portView] at this

/-- **C100 is false of the code**: if a second thread gets the same id for its request (two threads inside `hms_xid`) between two parts
of the reply, the ports in the first part are lost, for both threads and for good: the reply to the second request is ignored. -/
theorem C100_same_id_refuted :
    (run (fresh 4) (asks 0 1 ++ [.recv (portDescReply 4 1 1 [exPort 1])] ++ asks 1 1 ++
      [.recv (portDescReply 4 1 0 [exPort 2]), .recv (portDescReply 4 1 1 [exPort 1]), .recv (portDescReply 4 1 0 [exPort 2]),
       .step 0 {}, .step 0 {}, .step 1 {}, .step 1 {}])).calls =
      [{ pc := .done (.ok [portView (exPort 2)]) }, { pc := .done (.ok [portView (exPort 2)]) }] := by
  decide +kernel

/-- Non-vacuity of `C100_result_partial` and `C100_requests`: two threads; the switch changes a port and gets a third before its answer,
and loses one after it. -/
example :
    let ms := [portStatus 4 7 2 (exPort 2), portStatus 4 8 0 (exPort 3), portDescReply 4 1 0 [exPort 1, exPort 2, exPort 3]]
    let evs := asks 0 1 ++ ms.map .recv ++ [.step 0 {}] ++ [.call, .step 1 {}, .recv (portStatus 4 9 1 (exPort 1)), .step 0 {}, .step 1 {}]
    (∀ e ∈ evs, Fine e) ∧ Ev.close ∉ evs ∧ received evs = ms ++ [portStatus 4 9 1 (exPort 1)] ∧
    (run (fresh 4) evs).calls = [{ pc := .done (.ok [portView (exPort 2), portView (exPort 3)]) },
      { pc := .done (.ok [portView (exPort 2), portView (exPort 3)]) }] := by
  refine ⟨?_, by simp [asks], rfl, by decide +kernel⟩
  have h : ∀ i x, x < 4294967296 → Fine (.step i { xid := x }) := by
    rintro i x hx j c h; injection h with _ h; subst h; exact ⟨hx, rfl⟩
  have h0 : ∀ e : Ev, (∀ i c, e ≠ .step i c) → Fine e := fun e he i c hc => absurd hc (he i c)
  simp only [asks, List.map_cons, List.map_nil, List.cons_append, List.nil_append, List.forall_mem_cons]
  refine ⟨h0 _ (by simp), h 0 0 (by decide), h 0 1 (by decide), h 0 0 (by decide), h0 _ (by simp), h0 _ (by simp), h0 _ (by simp),
    h 0 0 (by decide), h0 _ (by simp), h 1 0 (by decide), h0 _ (by simp), h 0 0 (by decide), h 1 0 (by decide), by simp⟩

/-- The messages of the example are a stream of a correct switch with ports 1 and 2. -/
example : ∃ M, Stream 4 (ofList [exPort 1, exPort 2]) ([portStatus 4 7 2 (exPort 2), portStatus 4 8 0 (exPort 3),
    portDescReply 4 1 0 [exPort 1, exPort 2, exPort 3]] ++ [portStatus 4 9 1 (exPort 1)]) M := by
  have h1 : Stream 4 (ofList [exPort 1, exPort 2]) [portStatus 4 7 2 (exPort 2), portStatus 4 8 0 (exPort 3)] _ :=
    .snoc (.snoc .nil (.event (.modify (exPort 2)) 7 (by decide) (exPort_wf (by decide)) (by simp [PortEv.Allowed, ofList, exPort])))
      (.event (.add (exPort 3)) 8 (by decide) (exPort_wf (by decide)) (by simp [PortEv.Allowed, PortEv.apply, ofList, exPort]))
  have hM : (PortEv.add (exPort 3)).apply ((PortEv.modify (exPort 2)).apply (ofList [exPort 1, exPort 2])) =
      ofList [exPort 1, exPort 2, exPort 3] := by
    funext n
    match n with
    | 0 => rfl
    | 1 => rfl
    | 2 => rfl
    | 3 => rfl
    | n + 4 => simp [PortEv.apply, ofList, exPort]
  rw [hM] at h1
  have h2 := Stream.snoc h1 (.desc [exPort 1, exPort 2, exPort 3] 1 0 rfl (by decide) (by decide) (by decide) (by
    intro p hp
    simp only [List.mem_cons, List.not_mem_nil, or_false] at hp
    rcases hp with rfl | rfl | rfl <;> exact exPort_wf (by decide)) (by decide) (by decide))
  exact ⟨_, .snoc h2 (.event (.delete (exPort 1)) 9 (by decide) (exPort_wf (by decide)) (by simp [PortEv.Allowed, ofList, exPort]))⟩

/-! ## Additions to C29 and C31 -/

/-- C29: if the list has two entries with the same number (possible before it is complete), deleting or changing that port raises. -/
theorem C29_ambiguous {v : Nat} (hv : v = 1 ∨ v = 2 ∨ v = 3 ∨ v = 4) (s : PortSt) (hs : s.version = v) (xid reason : Nat)
    (hx : xid < 4294967296) (hr : reason = 1 ∨ reason = 2) (p : Port) (hw : p.Wf v)
    (h2 : 2 ≤ (s.ports.filter fun t => portNo t = .int p.no).length) :
    portRecv s (portStatus v xid reason p) = (s, .error .assertion) := by
  have hf : s.ports.filter (fun x => portNo x == portNo (portView p)) = s.ports.filter fun t => portNo t = .int p.no := by
    congr 1
  have hu : updatePort s reason (portView p) = .error .assertion := by
    simp only [updatePort, hf]
    have h1 : (s.ports.filter fun t => decide (portNo t = .int p.no)).isEmpty = false := by
      cases h : s.ports.filter fun t => decide (portNo t = .int p.no) with
      | nil => rw [h] at h2; simp at h2
      | cons a l => rfl
    have hl : (s.ports.filter fun t => decide (portNo t = .int p.no)).length > 1 := h2
    rcases hr with rfl | rfl
    · rw [if_neg (by decide), if_pos rfl, if_neg (by simp [h1]), if_pos hl]
    · rw [if_neg (by decide), if_neg (by decide), if_pos rfl, if_neg (by simp [h1]), if_pos hl]
  rw [recv_status hv s hs xid reason hx (by omega) p hw, hu]

/-- Non-vacuity of `C29_ambiguous`: two PORT_STATUS messages add port 1 before the list is known. -/
example : ((portRun { version := 4 } [portStatus 4 1 0 (exPort 1), portStatus 4 2 0 (exPort 1)]).map PortSt.ports) =
    some [portView (exPort 1), portView (exPort 1)] ∧ (exPort 1).Wf 4 := ⟨by decide +kernel, exPort_wf (by decide)⟩

/-- C31: in OpenFlow 1.4 a port is looked up by number and by the first six bytes of its name, with the NULs that follow a shorter name
(which nobody asks for). -/
theorem C31_version5_refuted :
    let s := (portRecv { version := 5, init := true }
      (ofHeader 5 12 56 1 ++ b8 0 ++ zeros 7 ++
        port14Bytes 3 [2, 0, 0, 0, 0, 1] ([101, 116, 104, 48] ++ zeros 12) 1 4)).1
    (waitAttach s (.str [101, 116, 104, 48])).2 = none ∧ (waitAttach s (.int 3)).2 ≠ none ∧
    (waitAttach s (.str [101, 116, 104, 48, 0, 0])).2 ≠ none := by
  decide +kernel

end Twink.PortsCall
