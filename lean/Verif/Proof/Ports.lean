import Verif.Spec.Ports
import Verif.Proof.HelloSpec

/-! Helper lemmas about the port list. -/

namespace Twink
open Spec Fmt

theorem cutNul_eq (b : Bytes) : cutNul b = beforeNul b := by
  induction b with
  | nil => rfl
  | cons x r ih =>
    unfold cutNul at *
    by_cases h : x = 0 <;> simp [beforeNul, h, ih]

/-- The field values of a port as packed. -/
def rawVals (p : Port) : List Val := .int p.no :: .str p.hw :: .str p.nameField :: p.words.map .int

theorem portFmt_v1 : portFmt 1 = [H, S 6, S 16, I, I, I, I, I, I] := rfl
theorem portFmt_v234 {v : Nat} (h : v = 2 ∨ v = 3 ∨ v = 4) :
    portFmt v = [I, X 4, S 6, X 2, S 16, I, I, I, I, I, I, I, I] := by simp [portFmt, h]

/-- Versions 1 to 4. -/
def V14 (v : Nat) : Prop := v = 1 ∨ v = 2 ∨ v = 3 ∨ v = 4

theorem list6 {α} {l : List α} (h : l.length = 6) : ∃ a b c d e f, l = [a, b, c, d, e, f] := by
  match l, h with
  | [a, b, c, d, e, f], _ => exact ⟨a, b, c, d, e, f, rfl⟩
theorem list8 {α} {l : List α} (h : l.length = 8) : ∃ a b c d e f g i, l = [a, b, c, d, e, f, g, i] := by
  match l, h with
  | [a, b, c, d, e, f, g, i], _ => exact ⟨a, b, c, d, e, f, g, i, rfl⟩

theorem port_fits {v : Nat} (hv : V14 v) {p : Port} (h : p.Wf v) :
    fits (portFmt v) (rawVals p) = true ∧ exact (portFmt v) (rawVals p) ∧ portBytes v p = enc (portFmt v) (rawVals p) := by
  obtain ⟨h1, h2, h3, h4⟩ := h
  by_cases e : v = 1
  · subst e
    simp only [if_true] at h4
    obtain ⟨a, b, c, d, e, f, hw⟩ := list6 h4.2
    rw [hw] at h3
    simp only [List.forall_mem_cons] at h3
    obtain ⟨i1, i2, i3, i4, i5, i6, -⟩ := h3
    rw [portFmt_v1, rawVals, hw]
    refine ⟨?_, ?_, ?_⟩
    · simp [fits, h4.1, i1, i2, i3, i4, i5, i6]
    · simp [exact, h1, h2]
    · simp [portBytes, enc, hw, encBE_2, encBE_4, padTo_eq, h1, h2]
  · have hv' : v = 2 ∨ v = 3 ∨ v = 4 := by unfold V14 at hv; omega
    simp only [if_neg e] at h4
    obtain ⟨a, b, c, d, e', f, g, i, hw⟩ := list8 h4.2
    rw [hw] at h3
    simp only [List.forall_mem_cons] at h3
    obtain ⟨i1, i2, i3, i4, i5, i6, i7, i8, -⟩ := h3
    rw [portFmt_v234 hv', rawVals, hw]
    refine ⟨?_, ?_, ?_⟩
    · simp [fits, h4.1, i1, i2, i3, i4, i5, i6, i7, i8]
    · simp [exact, h1, h2]
    · simp [portBytes, e, enc, hw, encBE_4, padTo_eq, h1, h2, zeros]

theorem portSize_eq {v : Nat} (hv : V14 v) : calcsize (portFmt v) = portSize v := by
  rcases hv with rfl | rfl | rfl | rfl <;> rfl

theorem portBytes_length {v : Nat} (hv : V14 v) {p : Port} (h : p.Wf v) : (portBytes v p).length = portSize v := by
  obtain ⟨h1, _, h3⟩ := port_fits hv h
  rw [h3, enc_length _ _ h1, portSize_eq hv]

theorem cut_rawVals (p : Port) : cutField2 (rawVals p) = portView p := by
  simp [cutField2, rawVals, portView, cutNul_eq]

theorem portsBytes_length {v : Nat} (hv : V14 v) {ps : List Port} (h : ∀ p ∈ ps, p.Wf v) :
    ((ps.map (portBytes v)).flatten).length = portSize v * ps.length := by
  induction ps with
  | nil => simp
  | cons p ps ih =>
    simp only [List.map_cons, List.flatten_cons, List.length_append, List.length_cons]
    rw [portBytes_length hv (h p (by simp)), ih (fun q hq => h q (by simp [hq]))]
    rw [Nat.mul_add]; omega

/-- The decoding loop reads exactly the encoded ports. -/
theorem decodePorts_enc {v : Nat} (hv : V14 v) (pre : Bytes) (ps : List Port) (h : ∀ p ∈ ps, p.Wf v) (len off : Nat)
    (ho : off = pre.length) (hl : len = off + portSize v * ps.length) :
    decodePorts v (pre ++ (ps.map (portBytes v)).flatten) len off = (ps.map portView, none) := by
  induction ps generalizing pre off with
  | nil => rw [decodePorts, if_neg (by simp at hl; omega)]; rfl
  | cons p ps ih =>
    have hpos : 0 < portSize v := by rw [← portSize_eq hv]; exact portFmt_pos v
    obtain ⟨f1, f2, f3⟩ := port_fits hv (h p (by simp))
    have hlen : portSize v * (ps.length + 1) = portSize v * ps.length + portSize v := by rw [Nat.mul_add]; omega
    rw [List.length_cons, hlen] at hl
    rw [decodePorts, if_pos (by omega)]
    simp only [List.map_cons, List.flatten_cons]
    rw [f3, unpackFrom_enc' _ _ _ _ _ ho f1 f2]
    simp only
    rw [← List.append_assoc, portSize_eq hv]
    have hlp : (enc (portFmt v) (rawVals p)).length = portSize v := by rw [enc_length _ _ f1, portSize_eq hv]
    rw [ih (pre ++ enc (portFmt v) (rawVals p)) (fun q hq => h q (by simp [hq])) (off + portSize v)
      (by simp [hlp]; omega) (by omega), cut_rawVals]

theorem parseHeader_ofHeader (v t l x : Nat) (r : Bytes) (h1 : v < 256) (h2 : t < 256) (h3 : l < 65536) (h4 : x < 4294967296) :
    parseHeader (ofHeader v t l x ++ r) = .ok (v, t, l, x) := by
  have := unpackFrom_enc' hdrFmt [.int v, .int t, .int l, .int x] [] r 0 rfl
    (by simp [hdrFmt, fits, h1, h2, h3, h4]) (by simp [hdrFmt, exact])
  rw [List.nil_append] at this
  unfold parseHeader
  rw [ofHeader_enc]
  change (do match ← unpackFrom hdrFmt (enc hdrFmt [.int v, .int t, .int l, .int x] ++ r) 0 with
    | [.int v, .int t, .int l, .int x] => Except.ok (v, t, l, x)
    | _ => Except.error Err.structError) = _
  rw [this]; rfl

theorem portsReplace_quiet (s : PortSt) (hq : NoWaiters s) (new : List PTuple) : portsReplace s new = .ok new := by
  unfold portsReplace
  simp [hq.1, hq.2]

theorem finishPorts_quiet (s : PortSt) (hq : NoWaiters s) (new : List PTuple) :
    finishPorts s new = ({ s with ports := new, init := true }, .ok ()) := by
  unfold finishPorts; rw [portsReplace_quiet s hq]

theorem V14.lt {v : Nat} (h : V14 v) : v < 256 := by unfold V14 at h; omega

theorem portRecv_header (s : PortSt) (v t l x : Nat) (r : Bytes) (h1 : v < 256) (h2 : t < 256) (h3 : l < 65536)
    (h4 : x < 4294967296) :
    portRecv s (ofHeader v t l x ++ r) =
      ((portDispatch s (ofHeader v t l x ++ r) t l x).1,
        (portDispatch s (ofHeader v t l x ++ r) t l x).2.map fun _ => ofHeader v t l x ++ r) := by
  unfold portRecv
  rw [if_neg (by intro e; have := congrArg List.length e; simp at this), parseHeader_ofHeader v t l x r h1 h2 h3 h4]

theorem recv_features {v : Nat} (hv : v = 1 ∨ v = 2 ∨ v = 3) (s : PortSt) (hs : s.version = v) (hq : NoWaiters s)
    (xid : Nat) (hx : xid < 4294967296) (fb : Bytes) (hfb : fb.length = 24) (ps : List Port) (hw : ∀ p ∈ ps, p.Wf v)
    (hl : 32 + portSize v * ps.length < 65536) :
    portRecv s (featuresReply v xid fb ps) =
      ({ s with ports := ps.map portView, init := true }, .ok (featuresReply v xid fb ps)) := by
  have hv' : V14 v := by unfold V14; omega
  unfold featuresReply
  rw [List.append_assoc, portRecv_header s v 6 _ xid _ hv'.lt (by decide) hl hx]
  have : recvFeatures s (ofHeader v 6 (32 + portSize v * ps.length) xid ++ (fb ++ (ps.map (portBytes v)).flatten))
      (32 + portSize v * ps.length) = ({ s with ports := ps.map portView, init := true }, .ok ()) := by
    unfold recvFeatures
    have hd := decodePorts_enc hv' (ofHeader v 6 (32 + portSize v * ps.length) xid ++ fb) ps hw
      (32 + portSize v * ps.length) (calcsize [B, B, H, I, Q, I, B, X 3, I, I]) (by simp [hfb, calcsize, Item.width])
      (by simp [calcsize, Item.width])
    rw [← hs] at hd ⊢
    rw [← List.append_assoc, hd]
    exact finishPorts_quiet s hq _
  have hd : portDispatch s (ofHeader v 6 (32 + portSize v * ps.length) xid ++ (fb ++ (ps.map (portBytes v)).flatten)) 6
      (32 + portSize v * ps.length) xid = ({ s with ports := ps.map portView, init := true }, .ok ()) := by
    unfold portDispatch; rw [this]
    cases multiGet s.multi xid <;> simp [hs, show v ≠ 4 by omega]
  rw [hd]; rfl

theorem recv_status {v : Nat} (hv : V14 v) (s : PortSt) (hs : s.version = v) (xid reason : Nat) (hx : xid < 4294967296)
    (hr : reason < 256) (p : Port) (hw : p.Wf v) :
    portRecv s (portStatus v xid reason p) =
      match updatePort s reason (portView p) with
      | .ok ps => ({ s with ports := ps }, .ok (portStatus v xid reason p))
      | .error e => (s, .error e) := by
  have hl : 16 + portSize v < 65536 := by unfold portSize; split <;> decide
  unfold portStatus
  rw [List.append_assoc, List.append_assoc, portRecv_header s v 12 _ xid _ hv.lt (by decide) hl hx]
  obtain ⟨f1, f2, f3⟩ := port_fits hv hw
  have hu : unpackFrom (B :: X 7 :: portFmt s.version) (ofHeader v 12 (16 + portSize v) xid ++
      (b8 reason ++ (zeros 7 ++ portBytes v p))) 8 = .ok (.int reason :: rawVals p) := by
    have := unpackFrom_enc' (B :: X 7 :: portFmt s.version) (.int reason :: rawVals p) (ofHeader v 12 (16 + portSize v) xid) []
      8 rfl (by simp [fits, hs, f1, hr]) (by simp [exact, hs, f2])
    rw [← this]; congr 1; congr 1
    simp [enc, encBE_1, f3, zeros, hs]
  have : recvStatus s (ofHeader v 12 (16 + portSize v) xid ++ (b8 reason ++ (zeros 7 ++ portBytes v p))) =
      match updatePort s reason (portView p) with
      | .ok ps => ({ s with ports := ps }, .ok ())
      | .error e => (s, .error e) := by
    unfold recvStatus
    rw [hu]
    simp only [cut_rawVals]
    cases updatePort s reason (portView p) <;> rfl
  have hd : portDispatch s (ofHeader v 12 (16 + portSize v) xid ++ (b8 reason ++ (zeros 7 ++ portBytes v p))) 12
      (16 + portSize v) xid = match updatePort s reason (portView p) with
      | .ok ps => ({ s with ports := ps }, .ok ())
      | .error e => (s, .error e) := by
    unfold portDispatch; rw [this]
    cases multiGet s.multi xid <;> cases updatePort s reason (portView p) <;> simp
  rw [hd]
  cases updatePort s reason (portView p) <;> rfl

theorem multiGet_set (d : List (Nat × List PTuple)) (x : Nat) (l : List PTuple) : multiGet (multiSet d x l) x = some l := by
  simp [multiGet, multiSet]

theorem recv_portDesc {v : Nat} (hv : v = 4) (s : PortSt) (hs : s.version = v) (hq : NoWaiters s) (xid flags : Nat)
    (hx : xid < 4294967296) (hf : flags < 65536) (acc : List PTuple) (hm : multiGet s.multi xid = some acc)
    (ps : List Port) (hw : ∀ p ∈ ps, p.Wf v) (hl : 16 + portSize v * ps.length < 65536) :
    portRecv s (portDescReply v xid flags ps) =
      (if flags % 2 = 0 then
        { s with ports := acc ++ ps.map portView, init := true,
                 multi := multiDel (multiSet s.multi xid (acc ++ ps.map portView)) xid }
       else { s with multi := multiSet s.multi xid (acc ++ ps.map portView) }, .ok (portDescReply v xid flags ps)) := by
  have hv' : V14 v := by unfold V14; omega
  unfold portDescReply
  rw [List.append_assoc, List.append_assoc, List.append_assoc,
    portRecv_header s v 19 _ xid _ hv'.lt (by decide) hl hx]
  have hu : unpackFrom [H, H, X 4] (ofHeader v 19 (16 + portSize v * ps.length) xid ++
      (be16 13 ++ (be16 flags ++ (zeros 4 ++ (ps.map (portBytes v)).flatten)))) 8 = .ok [.int 13, .int flags] := by
    have := unpackFrom_enc' [H, H, X 4] [.int 13, .int flags] (ofHeader v 19 (16 + portSize v * ps.length) xid)
      ((ps.map (portBytes v)).flatten) 8 rfl (by simp [fits, hf]) (by simp [exact])
    rw [← this]; congr 1; congr 1
    simp [enc, encBE_2, zeros]
  have hd : decodePorts s.version (ofHeader v 19 (16 + portSize v * ps.length) xid ++
      (be16 13 ++ (be16 flags ++ (zeros 4 ++ (ps.map (portBytes v)).flatten)))) (16 + portSize v * ps.length) 16 =
      (ps.map portView, none) := by
    rw [hs, ← List.append_assoc, ← List.append_assoc, ← List.append_assoc]
    exact decodePorts_enc hv' _ ps hw _ _ (by simp) rfl
  have : recvMulti s (ofHeader v 19 (16 + portSize v * ps.length) xid ++
      (be16 13 ++ (be16 flags ++ (zeros 4 ++ (ps.map (portBytes v)).flatten)))) (16 + portSize v * ps.length) xid acc =
      (if flags % 2 = 0 then
        { s with ports := acc ++ ps.map portView, init := true,
                 multi := multiDel (multiSet s.multi xid (acc ++ ps.map portView)) xid }
       else { s with multi := multiSet s.multi xid (acc ++ ps.map portView) }, .ok ()) := by
    unfold recvMulti
    rw [if_neg (by omega), hu]
    simp only [if_true, hd]
    by_cases h0 : flags % 2 = 0
    · simp only [h0, if_true]
      rw [finishPorts_quiet { s with multi := multiSet s.multi xid (acc ++ ps.map portView) } hq]
    · simp only [if_neg h0]
  simp only [portDispatch, hm, decide_true, this]; rfl

theorem recv_unrelated (s : PortSt) (asked : Nat → Prop) (ha : ∀ x, multiGet s.multi x ≠ none → asked x) (m : Bytes)
    (hm : Unrelated s.version asked m) : portRecv s m = (s, .ok m) := by
  unfold portRecv
  rcases hm with rfl | ⟨h8, h12, h6, h19⟩
  · simp
  · by_cases hne : m = []
    · simp [hne]
    · rw [if_neg hne, parseHeader_fields m h8]
      have h6' : ¬ (u8 m 1 = 6 ∧ s.version ≠ 4) := fun h => h.2 (h6 h.1)
      by_cases e : u8 m 1 = 19
      · have : multiGet s.multi (u32 m 4) = none := by
          by_contra hc; exact h19 e (ha _ hc)
        simp [portDispatch, this, e]; rfl
      · cases hmm : multiGet s.multi (u32 m 4) <;> simp [portDispatch, hmm, e, h12, h6'] <;> rfl

/-! ## Mirroring -/

theorem view_head (p : Port) (n : Nat) : ((portView p).head? == some (.int n)) = decide (p.no = n) := by
  rw [Bool.eq_iff_iff]; simp [portView]

theorem portNo_view (p : Port) : portNo (portView p) = .int p.no := rfl

theorem head_portNo {t : PTuple} {n : Nat} (h : t.head? = some (.int n)) : portNo t = .int n := by
  cases t with
  | nil => simp at h
  | cons a r => simp at h; simp [portNo, h]

theorem filter_hit {ports : List PTuple} (h : ∀ t ∈ ports, ∃ n, t.head? = some (.int n)) (n : Nat) :
    ports.filter (fun x => portNo x == .int n) = ports.filter (fun t => t.head? == some (.int n)) := by
  apply List.filter_congr
  intro t ht
  obtain ⟨k, hk⟩ := h t ht
  rw [head_portNo hk, hk]
  simp

theorem waiter_quiet {v : Nat} {d : Val → Bool} (h : ∀ k, d k = false) (p : PTuple) : waiter v d p = false := by
  simp [waiter, h]

/-- Replacing or removing the only entry of a number. -/
theorem split_hit {ports : List PTuple} {f : PTuple → Bool} {old : PTuple} (h : ports.filter f = [old]) :
    ∃ l1 l2, ports = l1 ++ old :: l2 ∧ old ∉ l1 ∧ f old = true ∧ l1.filter f = [] ∧ l2.filter f = [] := by
  have hm : old ∈ ports ∧ f old = true := by
    have : old ∈ ports.filter f := by rw [h]; simp
    simpa using this
  obtain ⟨l1, l2, e, hn⟩ := List.eq_append_cons_of_mem hm.1
  refine ⟨l1, l2, e, hn, hm.2, ?_⟩
  rw [e, List.filter_append, List.filter_cons_of_pos hm.2] at h
  have hl := congrArg List.length h
  simp only [List.length_append, List.length_cons, List.length_nil] at hl
  exact ⟨List.eq_nil_of_length_eq_zero (by omega), List.eq_nil_of_length_eq_zero (by omega)⟩

theorem erase_split {l1 l2 : List PTuple} {old : PTuple} (h : old ∉ l1) : (l1 ++ old :: l2).erase old = l1 ++ l2 := by
  rw [List.erase_append_right _ h]; simp

theorem replace_split {l1 l2 : List PTuple} {old new : PTuple} (h : old ∉ l1) :
    ((l1 ++ old :: l2).erase old).insertIdx ((l1 ++ old :: l2).idxOf old) new = l1 ++ new :: l2 := by
  rw [erase_split h]
  have : (l1 ++ old :: l2).idxOf old = l1.length := by
    rw [List.idxOf_append, if_neg h]; simp
  rw [this]
  clear this h
  induction l1 with
  | nil => simp
  | cons a l ih => simpa using ih

theorem filter_other {l1 l2 : List PTuple} {a b : PTuple} {f : PTuple → Bool} (ha : f a = false) (hb : f b = false) :
    (l1 ++ a :: l2).filter f = (l1 ++ b :: l2).filter f := by
  simp [List.filter_append, ha, hb]

/-- One event of a correct switch. -/
theorem updatePort_mirrors (s : PortSt) (hq : NoWaiters s) (M : SwPorts) (hM : Mirrors s.ports M)
    (e : PortEv) (ha : e.Allowed M) :
    ∃ ps, updatePort s e.reason (portView e.port) = .ok ps ∧ Mirrors ps (e.apply M) := by
  obtain ⟨hf, hh⟩ := hM
  have hhit : ∀ p : Port, s.ports.filter (fun x => portNo x == portNo (portView p)) = (M p.no).toList.map portView := by
    intro p; rw [portNo_view, filter_hit hh, hf]
  have hview : ∀ (p : Port) (n : Nat), ((portView p).head? == some (.int n)) = decide (p.no = n) := by
    intro p n; exact view_head p n
  cases e with
  | add p =>
    refine ⟨s.ports ++ [portView p], ?_, ?_, ?_⟩
    · simp only [PortEv.Allowed] at ha
      simp only [updatePort, PortEv.reason, PortEv.port, hhit, ha, if_true]
      simp [waiter_quiet hq.1]
    · intro n
      simp only [PortEv.Allowed] at ha
      rw [List.filter_append, hf]
      simp only [List.filter_cons, hview, List.filter_nil, PortEv.apply, decide_eq_true_eq]
      by_cases e : n = p.no
      · subst e; simp [ha]
      · simp [e, Ne.symm e]
    · intro t ht
      rcases List.mem_append.1 ht with h | h
      · exact hh t h
      · simp at h; subst h; exact ⟨p.no, rfl⟩
  | delete p =>
    simp only [PortEv.Allowed] at ha
    obtain ⟨old, ho⟩ := Option.ne_none_iff_exists'.1 ha
    have hold : s.ports.filter (fun t => t.head? == some (.int p.no)) = [portView old] := by rw [hf, ho]; rfl
    obtain ⟨l1, l2, e, hn, h1, h2, h3⟩ := split_hit hold
    refine ⟨l1 ++ l2, ?_, ?_, ?_⟩
    · simp only [updatePort, PortEv.reason, PortEv.port, hhit, ho]
      simp [waiter_quiet hq.2, e, List.erase_append_right _ hn]
    · intro n
      simp only [PortEv.apply]
      by_cases en : n = p.no
      · subst en; simp [List.filter_append, h2, h3]
      · rw [if_neg en, ← hf n, e, List.filter_append, List.filter_append, List.filter_cons_of_neg]
        simp only [beq_iff_eq] at h1
        simp [h1, Ne.symm en]
    · intro t ht
      exact hh t (by rw [e]; simp at ht ⊢; tauto)
  | modify p =>
    simp only [PortEv.Allowed] at ha
    obtain ⟨old, ho⟩ := Option.ne_none_iff_exists'.1 ha
    have hold : s.ports.filter (fun t => t.head? == some (.int p.no)) = [portView old] := by rw [hf, ho]; rfl
    obtain ⟨l1, l2, e, hn, h1, h2, h3⟩ := split_hit hold
    refine ⟨l1 ++ portView p :: l2, ?_, ?_, ?_⟩
    · simp only [updatePort, PortEv.reason, PortEv.port, hhit, ho]
      have hr := replace_split (l2 := l2) (new := portView p) hn
      rw [← e] at hr
      simp [hr]
    · intro n
      simp only [PortEv.apply]
      by_cases en : n = p.no
      · subst en
        rw [List.filter_append, List.filter_cons_of_pos (by simp [hview]), h2, h3]
        simp
      · rw [if_neg en, ← hf n, e]
        apply filter_other
        · simp [hview, Ne.symm en]
        · simp only [beq_iff_eq] at h1
          simp [h1, Ne.symm en]
    · intro t ht
      simp only [List.mem_append, List.mem_cons] at ht
      rcases ht with h | h | h
      · exact hh t (by rw [e]; simp [h])
      · subst h; exact ⟨p.no, rfl⟩
      · exact hh t (by rw [e]; simp [h])

theorem history_run {v : Nat} (hv : V14 v) {asked : Nat → Prop} {M M' : SwPorts} {is : List Incoming}
    (h : History v asked M is M') (s : PortSt) (hs : s.version = v) (hi : s.init = true) (hq : NoWaiters s)
    (ha : ∀ x, multiGet s.multi x ≠ none → asked x) (hM : Mirrors s.ports M) :
    ∃ ps, portRun s (is.map (Incoming.bytes v)) = some { s with ports := ps } ∧ Mirrors ps M' := by
  induction h generalizing s with
  | nil M => exact ⟨s.ports, rfl, hM⟩
  | event e xid hx hw hal h ih =>
    obtain ⟨ps, hu, hps⟩ := updatePort_mirrors s hq _ hM e hal
    have hr := recv_status hv s hs xid e.reason hx (by cases e <;> simp [PortEv.reason]) e.port hw
    rw [hu] at hr
    obtain ⟨ps', h1, h2⟩ := ih { s with ports := ps } hs hi hq ha hps
    refine ⟨ps', ?_, h2⟩
    simp only [List.map_cons, portRun, Incoming.bytes]
    rw [hr]; exact h1
  | other m hm h ih =>
    obtain ⟨ps', h1, h2⟩ := ih s hs hi hq ha hM
    refine ⟨ps', ?_, h2⟩
    simp only [List.map_cons, portRun, Incoming.bytes]
    rw [recv_unrelated s asked ha m (hs ▸ hm)]; exact h1

theorem mirrors_ofList (ps : List Port) (hn : (ps.map Port.no).Nodup) : Mirrors (ps.map portView) (ofList ps) := by
  constructor
  · intro n
    induction ps with
    | nil => rfl
    | cons p ps ih =>
      simp only [List.map_cons, List.nodup_cons] at hn
      have ih := ih hn.2
      simp only [List.map_cons, List.filter_cons]
      have hv : ((portView p).head? == some (.int n)) = decide (p.no = n) := view_head p n
      simp only [hv, decide_eq_true_eq, ofList, List.find?_cons]
      by_cases e : p.no = n
      · have hz : (ps.map portView).filter (fun t => t.head? == some (.int n)) = [] := by
          rw [List.filter_eq_nil_iff]
          intro t ht
          obtain ⟨q, hq, rfl⟩ := List.mem_map.1 ht
          simp only [portView, List.head?_cons, beq_iff_eq, Option.some.injEq, Val.int.injEq]
          intro hqn
          exact hn.1 (by rw [e, ← hqn]; exact List.mem_map_of_mem hq)
        simp [e, hz]
      · have : (p.no == n) = false := by simp [e]
        simp only [this, if_neg e]
        exact ih
  · intro t ht
    obtain ⟨q, _, rfl⟩ := List.mem_map.1 ht
    exact ⟨q.no, rfl⟩

theorem multiGet_del (d : List (Nat × List PTuple)) (x y : Nat) (h : multiGet (multiDel d x) y ≠ none) : y ≠ x := by
  rintro rfl
  apply h
  unfold multiGet multiDel
  rw [List.lookup_eq_none_iff]
  intro p hp
  simp at hp
  simpa using Ne.symm hp.2

theorem fragments_run {xid : Nat} (hx : xid < 4294967296) {ms : List Bytes} {ps : List Port} (h : Fragments 4 xid ms ps)
    (s : PortSt) (hs : s.version = 4) (hq : NoWaiters s) (acc : List PTuple) (hm : multiGet s.multi xid = some acc)
    (ho : ∀ x, multiGet s.multi x ≠ none → x = xid) :
    ∃ d, portRun s ms = some { s with ports := acc ++ ps.map portView, init := true, multi := d } ∧
      ∀ x, multiGet d x = none := by
  induction h generalizing s acc with
  | last flags ps hf h0 hl hw =>
    have hr := recv_portDesc rfl s hs hq xid flags hx hf acc hm ps hw hl
    rw [if_pos h0] at hr
    refine ⟨_, by simp only [portRun]; rw [hr], ?_⟩
    intro x
    by_contra hc
    have hne := multiGet_del _ _ _ hc
    have : multiGet s.multi x ≠ none := by
      intro hz; apply hc
      unfold multiGet multiDel multiSet at *
      rw [List.lookup_eq_none_iff] at hz ⊢
      intro p hp
      simp only [List.mem_filter, List.mem_cons] at hp
      rcases hp.1 with h | h
      · subst h; simp at hp
      · exact hz p h.1
    exact hne (ho x this)
  | more flags ps hf h1 hl hw h ih =>
    have hr := recv_portDesc rfl s hs hq xid flags hx hf acc hm ps hw hl
    rw [if_neg (by omega)] at hr
    obtain ⟨d, e, hd⟩ := ih { s with multi := multiSet s.multi xid (acc ++ ps.map portView) } hs hq
      (acc ++ ps.map portView) (multiGet_set _ _ _) (by
        intro x hx'
        by_contra hne
        apply hx'
        by_cases hz : multiGet s.multi x = none
        · unfold multiGet multiSet at *
          rw [List.lookup_eq_none_iff] at hz ⊢
          intro p hp
          simp only [List.mem_cons, List.mem_filter] at hp
          rcases hp with h | h
          · subst h; simpa using hne
          · exact hz p h.1
        · exact absurd (ho x hz) hne)
    refine ⟨d, ?_, hd⟩
    simp only [portRun]
    rw [hr]
    simpa using e
  | other m hm' h ih =>
    obtain ⟨d, e, hd⟩ := ih s hs hq acc hm ho
    refine ⟨d, ?_, hd⟩
    simp only [portRun]
    rw [recv_unrelated s (· = xid) ho m (hs ▸ hm')]
    exact e

end Twink
