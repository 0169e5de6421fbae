import Verif.Proof.Ports
import Mathlib.Data.List.Nodup

/-!
# C28-C31: the port list of a `PortMonitorChannel`
-/

namespace Twink
open Spec

/-! ## Example data -/

/-- A port description of OpenFlow 1.3 named "p<k>". -/
def exPort (k : Nat) : Port := ⟨k, [2, 0, 0, 0, 0, UInt8.ofNat k], [112, 48 + UInt8.ofNat k] ++ zeros 14, [0, 0, 0, 0, 0, 0, 0, 0]⟩

theorem exPort_wf {k : Nat} (h : k < 10) : (exPort k).Wf 4 := by
  refine ⟨rfl, by simp [exPort], by simp [exPort], ?_⟩
  simp only [show ¬ ((4 : Nat) = 1) by decide, if_false]
  exact ⟨by simp only [exPort]; omega, rfl⟩

/-- A synchronised OpenFlow 1.3 channel whose switch has ports 1 and 2. -/
def exSync : PortSt := { version := 4, ports := [portView (exPort 1), portView (exPort 2)], init := true }

/-! ## C28 -/

/-- C28 (OpenFlow 1.0 to 1.3, nobody waiting for a port): starting from a port list that mirrors the switch, every history of a
correct switch, interleaved with unrelated messages, is received without an exception and ends with a list that mirrors the
switch. (Partial: false for OpenFlow 1.4, `C28_refuted_version5`; false while somebody waits for a port, `C31_refuted_attach`.) -/
theorem C28_mirror_partial {v : Nat} (hv : v = 1 ∨ v = 2 ∨ v = 3 ∨ v = 4) (s : PortSt) (hs : s.version = v)
    (hi : s.init = true) (hq : NoWaiters s) {M M' : SwPorts} (hM : Mirrors s.ports M) {is : List Incoming}
    (h : History v (fun x => multiGet s.multi x ≠ none) M is M') :
    ∃ s', portRun s (is.map (Incoming.bytes v)) = some s' ∧ Mirrors s'.ports M' := by
  obtain ⟨ps, h1, h2⟩ := history_run hv h s hs hi hq (fun _ h => h) hM
  exact ⟨_, h1, h2⟩

theorem portRun_append (s : PortSt) (ms ms' : List Bytes) :
    portRun s (ms ++ ms') = (portRun s ms).bind fun s' => portRun s' ms' := by
  induction ms generalizing s with
  | nil => rfl
  | cons m ms ih =>
    simp only [List.cons_append, portRun]
    split <;> simp [ih]

/-- C28, from the start, OpenFlow 1.0 to 1.2: FEATURES_REPLY and then any history of a correct switch. -/
theorem C28_features_partial {v : Nat} (hv : v = 1 ∨ v = 2 ∨ v = 3) (s : PortSt) (hs : s.version = v)
    (hm : s.multi = []) (hq : NoWaiters s) (ps : List Port) (hw : ∀ p ∈ ps, p.Wf v) (hn : (ps.map Port.no).Nodup)
    (hl : 32 + portSize v * ps.length < 65536) (xid : Nat) (hx : xid < 4294967296) (fb : Bytes) (hfb : fb.length = 24)
    {M' : SwPorts} {is : List Incoming} (h : History v (fun _ => False) (ofList ps) is M') :
    ∃ s', portRun s (featuresReply v xid fb ps :: is.map (Incoming.bytes v)) = some s' ∧ Mirrors s'.ports M' := by
  obtain ⟨ps', h1, h2⟩ := history_run (by unfold V14; omega) h { s with ports := ps.map portView, init := true } hs rfl hq
    (by intro x hx; rw [hm] at hx; exact absurd rfl hx) (mirrors_ofList ps hn)
  refine ⟨{ s with ports := ps', init := true }, ?_, h2⟩
  simp only [portRun]
  rw [recv_features hv s hs hq xid hx fb hfb ps hw hl]
  exact h1

/-- C28, from the start, OpenFlow 1.3: the user reads `ports`, which sends a PORT_DESC request; after the fragments of the reply
the list mirrors the switch, and keeps mirroring it during any history of a correct switch. -/
theorem C28_port_desc_partial (s : PortSt) (hs : s.version = 4) (hi : s.init = false) (hm : s.multi = []) (hq : NoWaiters s)
    (xid : Nat) (hx : xid < 4294967296) {ms : List Bytes} {ps : List Port} (hf : Fragments 4 xid ms ps)
    (hn : (ps.map Port.no).Nodup) {M' : SwPorts} {is : List Incoming}
    (h : History 4 (fun _ => False) (ofList ps) is M') :
    ∃ s1 req s', portsRequest s xid = (s1, .ok (some req)) ∧ req.length = 16 ∧ u8 req 0 = 4 ∧ u8 req 1 = 18 ∧ u32 req 4 = xid ∧
      u16 req 8 = 13 ∧ portRun s1 (ms ++ is.map (Incoming.bytes 4)) = some s' ∧ Mirrors s'.ports M' := by
  obtain ⟨d, h1, h2⟩ := fragments_run hx hf { s with multi := multiSet s.multi xid [] } hs hq [] (multiGet_set _ _ _) (by
    intro x h'
    rw [hm] at h'
    by_contra hne
    apply h'
    simp [multiGet, multiSet, hne])
  obtain ⟨ps', h3, h4⟩ := history_run (by unfold V14; omega) h
    { s with ports := [] ++ ps.map portView, init := true, multi := d } hs rfl hq
    (by intro x hx; exact absurd (h2 x) hx) (mirrors_ofList ps hn)
  have hreq : portsRequest s xid = ({ s with multi := multiSet s.multi xid [] },
      .ok (some (ofHeader 4 18 16 xid ++ (be16 13 ++ (be16 0 ++ zeros 4))))) := by
    unfold portsRequest
    rw [hi, hs]
    simp only [Bool.false_eq_true, if_false, true_or, if_true]
    have hfit : fits [Fmt.B, Fmt.B, Fmt.H, Fmt.I, Fmt.H, Fmt.H, Fmt.X 4]
        [.int 4, .int 18, .int 16, .int xid, .int 13, .int 0] = true := by simp [fits, hx]
    have he : enc [Fmt.B, Fmt.B, Fmt.H, Fmt.I, Fmt.H, Fmt.H, Fmt.X 4]
        [.int 4, .int 18, .int 16, .int xid, .int 13, .int 0] = ofHeader 4 18 16 xid ++ (be16 13 ++ (be16 0 ++ zeros 4)) := by
      simp [enc, encBE_1, encBE_2, encBE_4, ofHeader, zeros]
    unfold pack; rw [if_pos hfit, he]; rfl
  have hu : u32 (ofHeader 4 18 16 xid ++ (be16 13 ++ (be16 0 ++ zeros 4))) 4 = xid := by
    simp only [ofHeader, u32, u16, u8, b8, be16, be32, List.cons_append, List.nil_append, List.getD_cons_succ,
      List.getD_cons_zero, UInt8.toNat_ofNat']
    omega
  refine ⟨_, _, { s with ports := ps', init := true, multi := d }, hreq, rfl, rfl, rfl, hu, rfl, ?_, h4⟩
  rw [portRun_append, h1]
  exact h3

/-- C28 is false for OpenFlow 1.4: any FEATURES_REPLY (which lists no ports in that version) empties the port list. -/
theorem C28_refuted_version5 (s : PortSt) (hs : s.version = 5) (hq : NoWaiters s) (xid : Nat) (hx : xid < 4294967296)
    (fb : Bytes) :
    portRecv s (ofHeader 5 6 32 xid ++ fb) = ({ s with ports := [], init := true }, .ok (ofHeader 5 6 32 xid ++ fb)) := by
  rw [portRecv_header s 5 6 32 xid fb (by decide) (by decide) (by decide) hx]
  have : recvFeatures s (ofHeader 5 6 32 xid ++ fb) 32 = ({ s with ports := [], init := true }, .ok ()) := by
    unfold recvFeatures
    rw [decodePorts, if_neg (by decide)]
    exact finishPorts_quiet s hq []
  have hd : portDispatch s (ofHeader 5 6 32 xid ++ fb) 6 32 xid = ({ s with ports := [], init := true }, .ok ()) := by
    unfold portDispatch; rw [this]
    cases multiGet s.multi xid <;> simp [hs]
  rw [hd]; rfl

/-- Hypotheses of `C28_mirror_partial` are met by a switch with ports 1 and 2 that deletes 1, adds 3, sends an echo request and
modifies 2. -/
example : ∃ M', Mirrors exSync.ports (ofList [exPort 1, exPort 2]) ∧ NoWaiters exSync ∧
    History 4 (fun x => multiGet exSync.multi x ≠ none) (ofList [exPort 1, exPort 2])
      [.event (.delete (exPort 1)) 7, .event (.add (exPort 3)) 8, .other [4, 2, 0, 8, 0, 0, 0, 9],
       .event (.modify (exPort 2)) 10] M' :=
  ⟨_, mirrors_ofList [exPort 1, exPort 2] (by decide), ⟨fun _ => rfl, fun _ => rfl⟩,
    .event _ _ (by decide) (exPort_wf (by decide)) (by simp [PortEv.Allowed, ofList, exPort])
      (.event _ _ (by decide) (exPort_wf (by decide)) (by simp [PortEv.Allowed, PortEv.apply, ofList, exPort])
        (.other _ (.inr ⟨by decide, by decide, by decide, by decide⟩)
          (.event _ _ (by decide) (exPort_wf (by decide)) (by simp [PortEv.Allowed, PortEv.apply, ofList, exPort]) (.nil _))))⟩

/-- Hypotheses of `C28_port_desc_partial`: a reply in two fragments with an echo request in between. -/
example : Fragments 4 5 [portDescReply 4 5 1 [exPort 1], [4, 2, 0, 8, 0, 0, 0, 9], portDescReply 4 5 0 [exPort 2]]
    ([exPort 1] ++ [exPort 2]) :=
  .more 1 _ (by decide) (by decide) (by decide) (by simpa using exPort_wf (by decide))
    (.other _ (.inr ⟨by decide, by decide, by decide, by decide⟩)
      (.last 0 _ (by decide) (by decide) (by decide) (by simpa using exPort_wf (by decide))))

/-- Hypotheses of `C28_refuted_version5` are met. -/
example : portRecv { version := 5, ports := [portView (exPort 1)], init := true } (ofHeader 5 6 32 3 ++ zeros 24) =
    ({ version := 5, ports := [], init := true }, .ok (ofHeader 5 6 32 3 ++ zeros 24)) :=
  C28_refuted_version5 _ rfl ⟨fun _ => rfl, fun _ => rfl⟩ 3 (by decide) (zeros 24)

/-! ## C29 -/

/-- The list has an entry with this port number. -/
def HasPort (ports : List PTuple) (n : Nat) : Prop := ∃ t ∈ ports, portNo t = .int n

/-- An event that contradicts the port list. -/
def Contradicts (ports : List PTuple) (reason n : Nat) : Prop :=
  (reason = 0 ∧ HasPort ports n) ∨ (reason = 1 ∧ ¬ HasPort ports n) ∨ (reason = 2 ∧ ¬ HasPort ports n) ∨ 2 < reason

/-- C29: a contradicting PORT_STATUS raises an error and changes nothing (whoever waits for ports). -/
theorem C29_rejected {v : Nat} (hv : v = 1 ∨ v = 2 ∨ v = 3 ∨ v = 4) (s : PortSt) (hs : s.version = v) (hi : s.init = true)
    (xid reason : Nat) (hx : xid < 4294967296) (hr : reason < 256) (p : Port) (hw : p.Wf v)
    (hc : Contradicts s.ports reason p.no) :
    portRecv s (portStatus v xid reason p) = (s, .error .assertion) := by
  have hu : updatePort s reason (portView p) = .error .assertion := by
    have hhit : HasPort s.ports p.no ↔ s.ports.filter (fun x => portNo x == portNo (portView p)) ≠ [] := by
      rw [Ne, List.filter_eq_nil_iff]
      simp [HasPort, portNo_view]
    have hhit0 : ¬ HasPort s.ports p.no → s.ports.filter (fun x => portNo x == portNo (portView p)) = [] := by
      intro h; by_contra hne; exact h (hhit.2 hne)
    rcases hc with ⟨rfl, h⟩ | ⟨rfl, h⟩ | ⟨rfl, h⟩ | h
    · have := hhit.1 h
      simp only [updatePort, if_true, hi]
      rw [if_pos (by simpa using this)]
    · simp [updatePort, hi, hhit0 h]
    · simp [updatePort, hi, hhit0 h]
    · simp only [updatePort]
      rw [if_neg (by omega), if_neg (by omega), if_neg (by omega)]
  rw [recv_status hv s hs xid reason hx hr p hw, hu]

theorem finishPorts_error {s s' : PortSt} {new : List PTuple} {e : Err} (h : finishPorts s new = (s', .error e)) :
    s'.ports = s.ports := by
  unfold finishPorts at h
  split at h
  · injection h with h1 h2; rw [← h1]
  · injection h with h1 h2; injection h2

/-- C29, for all messages: whenever `recv` raises, the port list is as it was. -/
theorem C29_exception_keeps_list (s : PortSt) (m : Bytes) (e : Err) (h : (portRecv s m).2 = .error e) :
    (portRecv s m).1.ports = s.ports := by
  have key : ∀ t l x e', (portDispatch s m t l x).2 = .error e' → (portDispatch s m t l x).1.ports = s.ports := by
    intro t l x e' h
    have hS : (recvStatus s m).2 = .error e' → (recvStatus s m).1.ports = s.ports := by
      unfold recvStatus
      split
      · split
        · intro h; injection h
        · intro; rfl
      · intro; rfl
      · intro; rfl
    have hF : (recvFeatures s m l).2 = .error e' → (recvFeatures s m l).1.ports = s.ports := by
      unfold recvFeatures
      split
      · intro; rfl
      · intro h
        exact finishPorts_error (e := e') (Prod.ext rfl h)
    have hM : ∀ acc, (recvMulti s m l x acc).2 = .error e' → (recvMulti s m l x acc).1.ports = s.ports := by
      intro acc
      unfold recvMulti
      split
      · intro; rfl
      · split
        · split
          · simp only
            split
            · intro; rfl
            · split
              · split
                · rename_i s2 e2 hfe
                  intro; have hfp := finishPorts_error hfe; exact hfp
                · intro h; injection h
              · intro h; injection h
          · intro h; injection h
        · intro; rfl
        · intro; rfl
    unfold portDispatch at h ⊢
    split at h
    · exact hM _ h
    · split at h
      · rename_i hc; rw [if_pos hc]; exact hF h
      · rename_i hc
        split at h
        · rename_i hc2; rw [if_neg hc, if_pos hc2]; exact hS h
        · injection h
  unfold portRecv at h ⊢
  by_cases hm : m = []
  · rw [if_pos hm]
  · rw [if_neg hm] at h ⊢
    cases hp : parseHeader m with
    | error e' => rfl
    | ok f =>
      obtain ⟨a, t, l, x⟩ := f
      rw [hp] at h
      simp only at h ⊢
      cases hd : (portDispatch s m t l x).2 with
      | error e' => exact key t l x e' hd
      | ok u => rw [hd] at h; injection h

/-- Port numbers are unique. -/
def UniqueNos (ports : List PTuple) : Prop := (ports.map portNo).Nodup

instance (ports : List PTuple) : Decidable (UniqueNos ports) := by unfold UniqueNos; infer_instance

theorem updatePort_unique (s : PortSt) (hi : s.init = true) (reason : Nat) (p : PTuple) (hu : UniqueNos s.ports)
    {ps : List PTuple} (h : updatePort s reason p = .ok ps) : UniqueNos ps := by
  unfold UniqueNos at *
  have hhit : s.ports.filter (fun x => portNo x == portNo p) = [] → portNo p ∉ s.ports.map portNo := by
    intro h hm
    obtain ⟨t, ht, e⟩ := List.mem_map.1 hm
    rw [List.filter_eq_nil_iff] at h
    exact h t ht (by simp [e])
  have app : portNo p ∉ s.ports.map portNo → ((s.ports ++ [p]).map portNo).Nodup := by
    intro hn
    rw [List.map_append, List.map_singleton, List.nodup_append]
    refine ⟨hu, by simp, ?_⟩
    intro a ha b hb hab
    simp only [List.mem_singleton] at hb
    subst hab hb; exact hn ha
  unfold updatePort at h
  simp only at h
  split at h
  · split at h
    · cases h
    · rename_i hc
      split at h
      · cases h
      · injection h with h; subst h
        apply app; apply hhit
        simpa [hi] using hc
  · split at h
    · split at h
      · cases h
      · split at h
        · cases h
        · split at h
          · cases h
          · split at h
            · injection h with h; subst h
              exact hu.sublist (List.Sublist.map _ List.erase_sublist)
            · injection h with h; subst h; exact hu
    · split at h
      · split at h
        · cases h
        · rename_i hc
          split at h
          · cases h
          · rename_i hlen
            split at h
            · rename_i old rest hhit'
              have hrest : rest = [] := by
                rw [hhit'] at hlen; simp at hlen; exact hlen
              subst hrest
              obtain ⟨l1, l2, e, hn, h1, h2, h3⟩ := split_hit hhit'
              have hr := replace_split (l2 := l2) (new := p) hn
              rw [← e] at hr
              rw [hr] at h
              injection h with h; subst h
              have ho : portNo old = portNo p := by simpa using h1
              rw [e] at hu
              simpa [ho] using hu
            · rename_i hemp
              rw [hemp] at hc
              simp [hi] at hc
      · cases h

/-- C29: after initialisation, whatever PORT_STATUS message arrives (well formed or not, in any version, whoever waits), port
numbers stay unique. -/
theorem C29_unique (s : PortSt) (hi : s.init = true) (hu : UniqueNos s.ports) (m : Bytes) (hm : u8 m 1 = 12) :
    UniqueNos (portRecv s m).1.ports := by
  unfold portRecv
  by_cases hne : m = []
  · rw [if_pos hne]; exact hu
  · rw [if_neg hne]
    by_cases h8 : 8 ≤ m.length
    · rw [parseHeader_fields m h8]
      simp only
      have : portDispatch s m (u8 m 1) (u16 m 2) (u32 m 4) = recvStatus s m := by
        unfold portDispatch
        rw [hm]
        cases multiGet s.multi (u32 m 4) <;> simp
      rw [this]
      unfold recvStatus
      split
      · rename_i hok
        split
        · rename_i hup; exact updatePort_unique s hi _ _ hu hup
        · exact hu
      · exact hu
      · exact hu
    · rw [parseHeader_short m (by omega)]; exact hu

/-- Hypotheses of `C29_rejected`: adding port 1 again, deleting port 7. -/
example : Contradicts exSync.ports 0 (exPort 1).no ∧ Contradicts exSync.ports 1 (exPort 7).no ∧
    UniqueNos exSync.ports ∧ (portRecv exSync (portStatus 4 9 0 (exPort 1))).2 = .error .assertion := by
  have h : Contradicts exSync.ports 0 (exPort 1).no :=
    .inl ⟨rfl, portView (exPort 1), by simp [exSync], rfl⟩
  refine ⟨h, .inr (.inl ⟨rfl, ?_⟩), by decide, ?_⟩
  · rintro ⟨t, ht, e⟩
    simp only [exSync, List.mem_cons, List.not_mem_nil, or_false] at ht
    rcases ht with rfl | rfl <;> simp [portNo_view, exPort] at e
  · rw [C29_rejected (v := 4) (by decide) exSync rfl rfl 9 0 (by decide) (by decide) _ (exPort_wf (by decide)) h]

/-! ## C30 -/

/-- C30 (OpenFlow 1.0 to 1.2, nobody waiting): after a FEATURES_REPLY the list holds exactly the encoded ports, in order, names
cut at the first NUL. (Partial: OpenFlow 1.4 is decoded wrongly, `C30_refuted_version5`.) -/
theorem C30_features_partial {v : Nat} (hv : v = 1 ∨ v = 2 ∨ v = 3) (s : PortSt) (hs : s.version = v) (hq : NoWaiters s)
    (xid : Nat) (hx : xid < 4294967296) (fb : Bytes) (hfb : fb.length = 24) (ps : List Port) (hw : ∀ p ∈ ps, p.Wf v)
    (hl : 32 + portSize v * ps.length < 65536) :
    (portRecv s (featuresReply v xid fb ps)).1.ports = ps.map portView ∧
      (portRecv s (featuresReply v xid fb ps)).2 = .ok (featuresReply v xid fb ps) := by
  rw [recv_features hv s hs hq xid hx fb hfb ps hw hl]; exact ⟨rfl, rfl⟩

/-- C30 (OpenFlow 1.3): the fragments of a PORT_DESC reply, interleaved with unrelated messages. -/
theorem C30_port_desc_partial (s : PortSt) (hs : s.version = 4) (hi : s.init = false) (hm : s.multi = []) (hq : NoWaiters s)
    (xid : Nat) (hx : xid < 4294967296) {ms : List Bytes} {ps : List Port} (hf : Fragments 4 xid ms ps) :
    ∃ s', portRun (portsRequest s xid).1 ms = some s' ∧ s'.ports = ps.map portView ∧ s'.init = true := by
  have hr : (portsRequest s xid).1 = { s with multi := multiSet s.multi xid [] } := by
    unfold portsRequest; rw [hi, hs]; simp [hs]
  obtain ⟨d, h1, h2⟩ := fragments_run hx hf { s with multi := multiSet s.multi xid [] } hs hq [] (multiGet_set _ _ _) (by
    intro x h'
    rw [hm] at h'
    by_contra hne
    apply h'
    simp [multiGet, multiSet, hne])
  rw [hr]
  exact ⟨_, h1, rfl, rfl⟩

/-- C30 (OpenFlow 1.0 to 1.3): a PORT_STATUS for a new port appends exactly the encoded description. -/
theorem C30_port_status_partial {v : Nat} (hv : v = 1 ∨ v = 2 ∨ v = 3 ∨ v = 4) (s : PortSt) (hs : s.version = v)
    (hq : NoWaiters s) (xid : Nat) (hx : xid < 4294967296) (p : Port) (hw : p.Wf v) (hnew : ¬ HasPort s.ports p.no) :
    (portRecv s (portStatus v xid 0 p)).1.ports = s.ports ++ [portView p] := by
  have hhit : s.ports.filter (fun x => portNo x == portNo (portView p)) = [] := by
    rw [List.filter_eq_nil_iff]
    intro t ht e
    exact hnew ⟨t, ht, by simpa [portNo_view] using e⟩
  rw [recv_status hv s hs xid 0 hx (by decide) p hw]
  simp [updatePort, hhit, waiter_quiet hq.1]

/-- `struct ofp_port` of OpenFlow 1.4 without properties. -/
def port14Bytes (no : Nat) (hw nameField : Bytes) (config state : Nat) : Bytes :=
  be32 no ++ be16 40 ++ zeros 2 ++ hw ++ zeros 2 ++ nameField ++ be32 config ++ be32 state

/-- C30 is false for OpenFlow 1.4: PORT_STATUS for a port with address 02:00:00:00:00:01 and name "eth0" gives the address `02`
(cut at its first zero byte), the name `eth0` followed by two NULs, and config and state read from the name field. -/
theorem C30_refuted_version5 :
    (portRecv { version := 5, init := true }
      (ofHeader 5 12 56 1 ++ b8 0 ++ zeros 7 ++
        port14Bytes 3 [2, 0, 0, 0, 0, 1] ([101, 116, 104, 48] ++ zeros 12) 1 4)).1.ports =
      [[.int 3, .int 40, .str [2], .str [101, 116, 104, 48, 0, 0], .int 0, .int 0]] := by decide +kernel

/-- C30 is false for OpenFlow 1.4: a PORT_DESC reply with one port raises `struct.error`, because records are taken to be 30 bytes
long instead of 40. -/
theorem C30_refuted_version5_desc :
    (portRecv (portsRequest { version := 5 } 1).1
      (ofHeader 5 19 56 1 ++ be16 13 ++ be16 0 ++ zeros 4 ++
        port14Bytes 3 [2, 0, 0, 0, 0, 1] ([101, 116, 104, 48] ++ zeros 12) 1 4)).2 = .error .structError := by decide +kernel

/-- Hypotheses of `C30_features_partial` and `C30_port_status_partial`. -/
example : (∀ p ∈ [exPort 1, exPort 2], p.Wf 2) ∧ 32 + portSize 2 * [exPort 1, exPort 2].length < 65536 ∧
    NoWaiters { version := 2 } ∧ ¬ HasPort exSync.ports (exPort 3).no := by
  refine ⟨?_, by decide, ⟨fun _ => rfl, fun _ => rfl⟩, ?_⟩
  · intro p hp
    simp only [List.mem_cons, List.not_mem_nil, or_false] at hp
    rcases hp with rfl | rfl <;> exact exPort_wf (by decide)
  · rintro ⟨t, ht, e⟩
    simp only [exSync, List.mem_cons, List.not_mem_nil, or_false] at ht
    rcases ht with rfl | rfl <;> simp [portNo_view, exPort] at e

/-! ## C31 -/

/-- C31 is false: if anybody waits for the attachment of a port (by number or name), the PORT_STATUS that adds it makes `recv`
raise `TypeError`; nobody is woken and the list is not updated. -/
theorem C31_refuted_attach {v : Nat} (hv : v = 1 ∨ v = 2 ∨ v = 3 ∨ v = 4) (s : PortSt) (hs : s.version = v)
    (xid : Nat) (hx : xid < 4294967296) (p : Port) (hw : p.Wf v) (hnew : ¬ HasPort s.ports p.no)
    (key : Val) (hk : key = .int p.no ∨ key = .str (beforeNul p.nameField)) (hnone : (waitAttach s key).2 = none) :
    portRecv (waitAttach s key).1 (portStatus v xid 0 p) = ((waitAttach s key).1, .error .typeError) := by
  have hst : (waitAttach s key).1 = { s with attach := fun k => k == key || s.attach k } := by
    unfold waitAttach at hnone ⊢
    split at hnone
    · cases hnone
    · rename_i h; simp [h]
  rw [hst]
  have hhit : s.ports.filter (fun x => portNo x == portNo (portView p)) = [] := by
    rw [List.filter_eq_nil_iff]
    intro t ht e
    exact hnew ⟨t, ht, by simpa [portNo_view] using e⟩
  have hwt : waiter v (fun k => k == key || s.attach k) (portView p) = true := by
    have hn : portName v (portView p) = .str (beforeNul p.nameField) := by
      have : nameIdx v = 2 := by unfold nameIdx; rw [if_neg (by omega)]
      simp [portName, this, portView]
    unfold waiter
    rw [portNo_view, hn]
    rcases hk with rfl | rfl <;> simp
  rw [recv_status hv { s with attach := fun k => k == key || s.attach k } hs xid 0 hx (by decide) p hw]
  simp only [updatePort, if_true, hhit, hs, hwt]
  simp

/-- C31 is false: the same for detachment. -/
theorem C31_refuted_detach {v : Nat} (hv : v = 1 ∨ v = 2 ∨ v = 3 ∨ v = 4) (s : PortSt) (hs : s.version = v)
    (xid : Nat) (hx : xid < 4294967296) (p : Port) (hw : p.Wf v) (hu : UniqueNos s.ports) (hold : HasPort s.ports p.no)
    (key : Val) (hk : key = .int p.no ∨ key = .str (beforeNul p.nameField)) (hnone : (waitDetach s key).2 = none) :
    portRecv (waitDetach s key).1 (portStatus v xid 1 p) = ((waitDetach s key).1, .error .typeError) := by
  have hst : (waitDetach s key).1 = { s with detach := fun k => k == key || s.detach k } := by
    unfold waitDetach at hnone ⊢
    split at hnone
    · cases hnone
    · rename_i h; simp [h]
  rw [hst]
  have hhit : s.ports.filter (fun x => portNo x == portNo (portView p)) ≠ [] := by
    obtain ⟨t, ht, e⟩ := hold
    intro h
    rw [List.filter_eq_nil_iff] at h
    exact h t ht (by simp [e, portNo_view])
  have hlen : (s.ports.filter (fun x => portNo x == portNo (portView p))).length ≤ 1 := by
    have := List.nodup_iff_count_le_one.1 hu (portNo (portView p))
    rw [List.count_eq_countP, List.countP_map, List.countP_eq_length_filter] at this
    exact this
  have hwt : waiter v (fun k => k == key || s.detach k) (portView p) = true := by
    have hn : portName v (portView p) = .str (beforeNul p.nameField) := by
      have : nameIdx v = 2 := by unfold nameIdx; rw [if_neg (by omega)]
      simp [portName, this, portView]
    unfold waiter
    rw [portNo_view, hn]
    rcases hk with rfl | rfl <;> simp
  rw [recv_status hv { s with detach := fun k => k == key || s.detach k } hs xid 1 hx (by decide) p hw]
  have hup : updatePort { s with detach := fun k => k == key || s.detach k } 1 (portView p) = .error .typeError := by
    unfold updatePort
    simp only [Nat.one_ne_zero, if_false, if_true]
    rw [if_neg (by simp only [Bool.and_eq_true, not_and]; intro _; simpa using hhit), if_neg (by omega), if_pos (by rw [hs]; exact hwt)]
  rw [hup]

/-- C31, what holds: a port that is present is returned at once by `wait_attach`, without blocking. -/
theorem C31_attached_partial (s : PortSt) (key : Val) :
    (∀ p, (waitAttach s key).2 = some p → p ∈ s.ports ∧ (portNo p = key ∨ portName s.version p = key)) ∧
    ((waitAttach s key).2 = none → ∀ p ∈ s.ports, portNo p ≠ key ∧ portName s.version p ≠ key) ∧
    ((waitAttach s key).1.ports = s.ports) := by
  unfold waitAttach findPort
  cases h : s.ports.find? (fun p => portNo p == key || portName s.version p == key) with
  | some q =>
    refine ⟨?_, ?_, rfl⟩
    · intro p hp; injection hp with hp; subst hp
      exact ⟨List.mem_of_find?_eq_some h, by simpa using List.find?_some h⟩
    · intro hn; cases hn
  | none =>
    refine ⟨?_, ?_, rfl⟩
    · intro p hp; cases hp
    · intro _ p hp
      have := List.find?_eq_none.1 h p hp
      simpa using this

/-- C31, what holds: `wait_detach` returns at once exactly if no port matches. -/
theorem C31_detached_partial (s : PortSt) (key : Val) :
    (waitDetach s key).2 = some key ↔ ∀ p ∈ s.ports, portNo p ≠ key ∧ portName s.version p ≠ key := by
  unfold waitDetach findPort
  cases h : s.ports.find? (fun p => portNo p == key || portName s.version p == key) with
  | some q =>
    simp only [reduceCtorEq, false_iff, not_forall]
    refine ⟨q, List.mem_of_find?_eq_some h, ?_⟩
    have := List.find?_some h
    simp at this
    tauto
  | none =>
    simp only [true_iff]
    intro p hp
    have := List.find?_eq_none.1 h p hp
    simpa using this

/-- Hypotheses of the refutations of C31: waiting for the name "p3" and for the disappearance of port 1. -/
example : ¬ HasPort exSync.ports (exPort 3).no ∧ (waitAttach exSync (.str [112, 51])).2 = none ∧
    beforeNul (exPort 3).nameField = [112, 51] ∧
    HasPort exSync.ports (exPort 1).no ∧ (waitDetach exSync (.int 1)).2 = none ∧ UniqueNos exSync.ports := by
  refine ⟨?_, by decide, by decide, ⟨portView (exPort 1), by simp [exSync], rfl⟩, by decide, by decide⟩
  rintro ⟨t, ht, e⟩
  simp only [exSync, List.mem_cons, List.not_mem_nil, or_false] at ht
  rcases ht with rfl | rfl <;> simp [portNo_view, exPort] at e

end Twink
