import Verif.Proof.Suffix
import Verif.Proof.Shift14

/-!
# Parsing in a buffer that goes on behind the message: OpenFlow 1.4

Helper lemmas for C102.
-/

namespace Twink.Suffix14
open Fmt Of13 Suffix Spec

variable {m : Bytes} (s : Bytes) {o : Nat}

theorem hdr_suffix {r} (h : Of14.parseHdr m o = .ok r) : Of14.parseHdr (m ++ s) o = .ok r := by
  unfold Of14.parseHdr at h ⊢
  exact step (fun _ h => rd_suffix s h) h fun _ _ h => h

theorem exp_suffix {k : Option Nat → Option Nat → Nat → Nat → Option Bytes → Of14.Pr} {fill : Nat → Nat} {a o'}
    (hf : ∀ l, l ≤ fill l) (h : Of14.parseExp k fill m o = .ok (a, o')) (hn : o' ≤ m.length) :
    Of14.parseExp k fill (m ++ s) o = .ok (a, o') := by
  unfold Of14.parseExp at h ⊢
  refine step (fun _ h => rd_suffix s h) h ?_
  rintro ⟨⟨t, l, e, ty⟩, o1⟩ h1 h
  simp only at h ⊢
  injection h with h
  have h2 := congrArg Prod.snd h
  simp only at h2
  have := hf l
  rw [slice_suffix _ _ _ _ (by omega), h]

theorem align_le (l : Nat) : l ≤ align l := by unfold align; omega

theorem portPropOf_suffix {t a o'} (h : Of14.parsePortPropOf t m o = .ok (a, o')) (hn : o' ≤ m.length) :
    Of14.parsePortPropOf t (m ++ s) o = .ok (a, o') := by
  unfold Of14.parsePortPropOf at h ⊢
  branches h
  all_goals first
    | exact rd_suffix s h
    | exact exp_suffix s (fun _ => le_rfl) h hn
    | cases h

theorem port_suffix {a o'} (h : Of14.parsePort m o = .ok (a, o')) (hn : o' ≤ m.length) :
    Of14.parsePort (m ++ s) o = .ok (a, o') := by
  unfold Of14.parsePort at h ⊢
  refine step (fun _ h => rd_suffix s h) h fun _ _ h => ?_
  refine ite_step h (fun h => ?_) fun h => h
  exact step (fun _ h => rd_suffix s h) h fun _ _ h => portPropOf_suffix s h hn

theorem actionOf_suffix {t a o'} (h : Of14.parseActionOf t m o = .ok (a, o')) (hn : o' ≤ m.length) :
    Of14.parseActionOf t (m ++ s) o = .ok (a, o') := by
  unfold Of14.parseActionOf at h ⊢
  branches h
  all_goals first
    | exact rd_suffix s h
    | cases h
    | upto h s

theorem action_suffix {a o'} (h : Of14.parseAction m o = .ok (a, o')) (hn : o' ≤ m.length) :
    Of14.parseAction (m ++ s) o = .ok (a, o') := by
  unfold Of14.parseAction at h ⊢
  exact step (fun _ h => rd_suffix s h) h fun _ _ h => actionOf_suffix s h hn

theorem instrOf_suffix {t a o'} (h : Of14.parseInstrOf t m o = .ok (a, o')) (hn : o' ≤ m.length) :
    Of14.parseInstrOf t (m ++ s) o = .ok (a, o') := by
  unfold Of14.parseInstrOf at h ⊢
  branches h
  all_goals first
    | exact rd_suffix s h
    | cases h
    | upto h s
    | skip
  refine step (fun _ h => rd_suffix s h) h ?_
  rintro ⟨⟨ty, l⟩, o1⟩ h1 h
  simp only at h ⊢
  rw [bind_ok] at h
  obtain ⟨⟨as, o2⟩, h2, h⟩ := h
  simp only at h
  rw [bind_ok] at h
  obtain ⟨_, h3, h⟩ := h
  cases h
  rw [while_ext (fun _ _ _ _ h hn => action_suffix s h hn) h2 hn, ok_bind, h3]
  rfl

theorem instr_suffix {a o'} (h : Of14.parseInstr m o = .ok (a, o')) (hn : o' ≤ m.length) :
    Of14.parseInstr (m ++ s) o = .ok (a, o') := by
  unfold Of14.parseInstr at h ⊢
  exact step (fun _ h => rd_suffix s h) h fun _ _ h => instrOf_suffix s h hn

theorem tmProp_suffix {a o'} (h : Of14.parseTmProp m o = .ok (a, o')) (hn : o' ≤ m.length) :
    Of14.parseTmProp (m ++ s) o = .ok (a, o') := by
  unfold Of14.parseTmProp at h ⊢
  refine step (fun _ h => rd_suffix s h) h fun _ _ h => ?_
  unfold Of14.parseTmPropOf at h ⊢
  branches h
  all_goals first
    | exact rd_suffix s h
    | exact exp_suffix s align_le h hn
    | cases h

/-- a loop at the end, and nothing after it -/
theorem while_last {F G : Nat → Py (α × Nat)} {n l o : Nat} {k : List α → β} {r : β × Nat}
    (hF : ∀ o a o', o < o' → F o = .ok (a, o') → o' ≤ n → G o = .ok (a, o'))
    (h : (whileFetch F l o >>= fun x => .ok (k x.1, x.2)) = .ok r) (hn : r.2 ≤ n) :
    (whileFetch G l o >>= fun x => .ok (k x.1, x.2)) = .ok r := by
  rw [bind_ok] at h
  obtain ⟨⟨as, o2⟩, h2, h⟩ := h
  cases h
  rw [while_ext hF h2 hn]
  rfl

/-- the same with an assertion behind the loop -/
theorem list_last {F G : Nat → Py (α × Nat)} {n l o : Nat} {k : List α → β} {r : β × Nat}
    (hF : ∀ o a o', o < o' → F o = .ok (a, o') → o' ≤ n → G o = .ok (a, o'))
    (h : (listFetch F l o >>= fun x => .ok (k x.1, x.2)) = .ok r) (hn : r.2 ≤ n) :
    (listFetch G l o >>= fun x => .ok (k x.1, x.2)) = .ok r := by
  rw [bind_ok] at h
  obtain ⟨⟨as, o2⟩, h2, h⟩ := h
  cases h
  have h5 := listFetch_limit h2
  rw [list_ext hF h2 (by simp only at h5 hn; omega)]
  rfl

theorem bucket_suffix {a o'} (h : Of14.parseBucket m o = .ok (a, o')) (hn : o' ≤ m.length) :
    Of14.parseBucket (m ++ s) o = .ok (a, o') := by
  unfold Of14.parseBucket at h ⊢
  exact step (fun _ h => rd_suffix s h) h fun a _ h =>
    while_last (n := m.length) (k := fun as => Of14.Bucket.mk (some a.1.1) a.1.2.1 a.1.2.2.1 a.1.2.2.2 (tups as))
      (G := Of14.parseAction (m ++ s)) (fun _ _ _ _ h hn => action_suffix s h hn) h hn

theorem pmProp_suffix {a o'} (h : Of14.parsePmProp m o = .ok (a, o')) (hn : o' ≤ m.length) :
    Of14.parsePmProp (m ++ s) o = .ok (a, o') := by
  unfold Of14.parsePmProp at h ⊢
  refine step (fun _ h => rd_suffix s h) h fun _ _ h => ?_
  unfold Of14.parsePmPropOf at h ⊢
  branches h
  all_goals first
    | exact rd_suffix s h
    | exact h
    | skip
  refine step (fun _ h => rd_suffix s h) h ?_
  rintro ⟨⟨t, l, e, ty⟩, o1⟩ h1 h
  simp only at h ⊢
  injection h with h
  have h2 := congrArg Prod.snd h
  simp only at h2
  have := align_le l
  rw [slice_suffix _ _ _ _ (by omega), h]

/-- a match and a list behind it -/
theorem match_list {F G : Nat → Py (α × Nat)} {l o : Nat} {k : MatchT → List α → β} {r : β × Nat}
    (hF : ∀ o a o', o < o' → F o = .ok (a, o') → o' ≤ m.length → G o = .ok (a, o'))
    (h : (Of13.parseMatch m o >>= fun x => listFetch F l x.2 >>= fun y => .ok (k x.1 y.1, y.2)) = .ok r)
    (hn : r.2 ≤ m.length) :
    (Of13.parseMatch (m ++ s) o >>= fun x => listFetch G l x.2 >>= fun y => .ok (k x.1 y.1, y.2)) = .ok r := by
  rw [bind_ok] at h
  obtain ⟨⟨mt, o2⟩, h2, h⟩ := h
  simp only at h
  rw [bind_ok] at h
  obtain ⟨⟨is, o3⟩, h3, h⟩ := h
  cases h
  have h4 := listFetch_ge h3
  have h5 := listFetch_limit h3
  simp only at h4 h5 hn
  rw [match_suffix s h2 (by omega), ok_bind]
  simp only
  rw [list_ext hF h3 (by omega)]
  rfl

theorem match_last {k : MatchT → β} {r : β × Nat}
    (h : (Of13.parseMatch m o >>= fun x => .ok (k x.1, x.2)) = .ok r) (hn : r.2 ≤ m.length) :
    (Of13.parseMatch (m ++ s) o >>= fun x => .ok (k x.1, x.2)) = .ok r := by
  rw [bind_ok] at h
  obtain ⟨⟨mt, o2⟩, h2, h⟩ := h
  cases h
  rw [match_suffix s h2 hn]
  rfl

theorem flowStats_suffix {a o'} (h : Of14.parseFlowStats m o = .ok (a, o')) (hn : o' ≤ m.length) :
    Of14.parseFlowStats (m ++ s) o = .ok (a, o') := by
  unfold Of14.parseFlowStats at h ⊢
  exact step (fun _ h => rd_suffix s h) h fun a _ h =>
    match_list (k := fun mt is => a.1.2 (.tup mt) (tups is)) s (fun _ _ _ _ h hn => instr_suffix s h hn) h hn

theorem qdProp_suffix {a o'} (h : Of14.parseQdProp m o = .ok (a, o')) (hn : o' ≤ m.length) :
    Of14.parseQdProp (m ++ s) o = .ok (a, o') := by
  unfold Of14.parseQdProp at h ⊢
  refine step (fun _ h => rd_suffix s h) h fun _ _ h => ?_
  unfold Of14.parseQdPropOf at h ⊢
  branches h
  all_goals first
    | exact rd_suffix s h
    | exact exp_suffix s align_le h hn
    | cases h

theorem queueDesc_suffix {a o'} (h : Of14.parseQueueDesc m o = .ok (a, o')) (hn : o' ≤ m.length) :
    Of14.parseQueueDesc (m ++ s) o = .ok (a, o') := by
  unfold Of14.parseQueueDesc at h ⊢
  exact step (fun _ h => rd_suffix s h) h fun a _ h =>
    while_last (n := m.length) (k := fun ps => Of14.Rec.queueDesc a.1.1 a.1.2.1 (some a.1.2.2) (tups ps))
      (G := Of14.parseQdProp (m ++ s)) (fun _ _ _ _ h hn => qdProp_suffix s h hn) h hn

theorem groupStats_suffix {a o'} (h : Of14.parseGroupStats m o = .ok (a, o')) (hn : o' ≤ m.length) :
    Of14.parseGroupStats (m ++ s) o = .ok (a, o') := by
  unfold Of14.parseGroupStats at h ⊢
  exact step (fun _ h => rd_suffix s h) h fun a _ h =>
    list_last (k := fun cs => a.1.2 (tups cs)) (fun _ _ _ _ h _ => rd_suffix s h) h hn

theorem meterStats_suffix {a o'} (h : Of14.parseMeterStats m o = .ok (a, o')) (hn : o' ≤ m.length) :
    Of14.parseMeterStats (m ++ s) o = .ok (a, o') := by
  unfold Of14.parseMeterStats at h ⊢
  exact step (fun _ h => rd_suffix s h) h fun a _ h =>
    list_last (k := fun cs => a.1.2 (tups cs)) (fun _ _ _ _ h _ => rd_suffix s h) h hn

theorem groupDesc_suffix {a o'} (h : Of14.parseGroupDesc m o = .ok (a, o')) (hn : o' ≤ m.length) :
    Of14.parseGroupDesc (m ++ s) o = .ok (a, o') := by
  unfold Of14.parseGroupDesc at h ⊢
  exact step (fun _ h => rd_suffix s h) h fun a _ h =>
    list_last (k := fun cs => a.1.2 (tups cs)) (fun _ _ _ _ h hn => bucket_suffix s h hn) h hn

theorem meterConfig_suffix {a o'} (h : Of14.parseMeterConfig m o = .ok (a, o')) (hn : o' ≤ m.length) :
    Of14.parseMeterConfig (m ++ s) o = .ok (a, o') := by
  unfold Of14.parseMeterConfig at h ⊢
  exact step (fun _ h => rd_suffix s h) h fun a _ h =>
    list_last (n := m.length) (k := fun cs => a.1.2 (tups cs)) (fun _ _ _ hp h _ => band_suffix s hp h) h hn

theorem groupFeatures_suffix {r} (h : Of14.parseGroupFeatures m o = .ok r) :
    Of14.parseGroupFeatures (m ++ s) o = .ok r := by
  unfold Of14.parseGroupFeatures at h ⊢
  refine step (fun _ h => rd_suffix s h) h fun _ _ h => ?_
  refine step (fun _ h => rd_suffix s h) h fun _ _ h => ?_
  exact step (fun _ h => rd_suffix s h) h fun _ _ h => h

theorem portRec_suffix {a o'} (h : Of14.parsePortRec m o = .ok (a, o')) (hn : o' ≤ m.length) :
    Of14.parsePortRec (m ++ s) o = .ok (a, o') := by
  unfold Of14.parsePortRec at h ⊢
  rw [bind_ok] at h
  obtain ⟨⟨p, o2⟩, h2, h⟩ := h
  cases h
  rw [port_suffix s h2 hn]
  rfl

theorem flowStatsReq_suffix {a o'} (h : Of14.parseFlowStatsReq m o = .ok (a, o')) (hn : o' ≤ m.length) :
    Of14.parseFlowStatsReq (m ++ s) o = .ok (a, o') := by
  unfold Of14.parseFlowStatsReq at h ⊢
  exact step (fun _ h => rd_suffix s h) h fun a _ h => match_last s (k := fun mt => a.1 (some (.tup mt))) h hn

theorem aggregateReq_suffix {a o'} (h : Of14.parseAggregateReq m o = .ok (a, o')) (hn : o' ≤ m.length) :
    Of14.parseAggregateReq (m ++ s) o = .ok (a, o') := by
  unfold Of14.parseAggregateReq at h ⊢
  exact step (fun _ h => rd_suffix s h) h fun a _ h => match_last s (k := fun mt => a.1 (.tup mt)) h hn

theorem flowMonitorReq_suffix {a o'} (h : Of14.parseFlowMonitorReq m o = .ok (a, o')) (hn : o' ≤ m.length) :
    Of14.parseFlowMonitorReq (m ++ s) o = .ok (a, o') := by
  unfold Of14.parseFlowMonitorReq at h ⊢
  exact step (fun _ h => rd_suffix s h) h fun a _ h => match_last s (k := fun mt => a.1 (.tup mt)) h hn

theorem expMp_suffix {l a o'} (h : Of14.parseExperimenterMp l m o = .ok (a, o')) (hn : o' ≤ m.length) :
    Of14.parseExperimenterMp l (m ++ s) o = .ok (a, o') := by
  unfold Of14.parseExperimenterMp at h ⊢
  upto h s

theorem single_step {x y : Py (Of14.Rec × Nat)} {b o'} (hx : ∀ r, x = .ok (r, o') → y = .ok (r, o'))
    (h : Of14.single x = .ok (b, o')) : Of14.single y = .ok (b, o') := by
  unfold Of14.single at h ⊢
  rw [bind_ok] at h
  obtain ⟨⟨p, o2⟩, h2, h⟩ := h
  cases h
  rw [hx _ h2]
  rfl

theorem several_step {x y : Py (List Of14.Rec × Nat)} {b o'} (hx : ∀ r, x = .ok (r, o') → y = .ok (r, o'))
    (h : Of14.several x = .ok (b, o')) : Of14.several y = .ok (b, o') := by
  unfold Of14.several at h ⊢
  rw [bind_ok] at h
  obtain ⟨⟨p, o2⟩, h2, h⟩ := h
  cases h
  rw [hx _ h2]
  rfl

theorem list_ext' {F G : Nat → Py (α × Nat)} {n l o : Nat} {as : List α} {o' : Nat}
    (hF : ∀ o a o', o < o' → F o = .ok (a, o') → o' ≤ n → G o = .ok (a, o'))
    (h : listFetch F l o = .ok (as, o')) (hn : o' ≤ n) : listFetch G l o = .ok (as, o') := by
  have h5 := listFetch_limit h
  exact list_ext hF h (by simp only at h5; omega)

theorem reqBody_suffix {t l b o'} (h : Of14.parseReqBody t m l o = .ok (b, o')) (hn : o' ≤ m.length) (ht : t ≠ 12) :
    Of14.parseReqBody t (m ++ s) l o = .ok (b, o') := by
  unfold Of14.parseReqBody at h ⊢
  refine ite_step h (fun h => h) fun h => ?_
  refine ite_step h (single_step fun _ h => flowStatsReq_suffix s h hn) fun h => ?_
  refine ite_step h (single_step fun _ h => aggregateReq_suffix s h hn) fun h => ?_
  refine ite_step h (single_step fun _ h => rd_suffix s h) fun h => ?_
  refine ite_step h (single_step fun _ h => rd_suffix s h) fun h => ?_
  refine ite_step h (single_step fun _ h => rd_suffix s h) fun h => ?_
  refine ite_step h (fun h => h) fun h => ?_
  refine ite_step h (single_step fun _ h => rd_suffix s h) fun h => ?_
  refine ite_step h (single_step fun _ h => flowMonitorReq_suffix s h hn) fun h => ?_
  rw [if_neg ht] at h ⊢
  refine ite_step h (fun h => ?_) fun h => h
  injection h with h
  have h2 := congrArg Prod.snd h
  simp only at h2
  rw [slice_suffix _ _ _ _ (by omega), h]

theorem repBody_suffix {t l b o'} (h : Of14.parseRepBody t m l o = .ok (b, o')) (hn : o' ≤ m.length) (ht : t ≠ 12) :
    Of14.parseRepBody t (m ++ s) l o = .ok (b, o') := by
  unfold Of14.parseRepBody at h ⊢
  refine ite_step h (single_step fun _ h => rd_suffix s h) fun h => ?_
  refine ite_step h (several_step fun _ h => list_ext' (fun _ _ _ _ h hn => flowStats_suffix s h hn) h hn) fun h => ?_
  refine ite_step h (several_step fun _ h => list_ext' (fun _ _ _ _ h _ => rd_suffix s h) h hn) fun h => ?_
  refine ite_step h (several_step fun _ h => list_ext'
    (fun _ _ _ _ h _ => step (fun _ h => rd_suffix s h) h fun _ _ h => h) h hn) fun h => ?_
  refine ite_step h (several_step fun _ h => list_ext' (fun _ _ _ _ h _ => ?_) h hn) fun h => ?_
  · unfold Of14.parsePortStats at h
    rw [bind_ok] at h
    obtain ⟨_, _, h⟩ := h
    simp only at h
    rw [bind_ok] at h
    obtain ⟨_, _, h⟩ := h
    cases h
  refine ite_step h (several_step fun _ h => list_ext' (fun _ _ _ _ h _ => ?_) h hn) fun h => ?_
  · unfold Of14.parseQueueStats at h
    rw [bind_ok] at h
    obtain ⟨_, _, h⟩ := h
    simp only at h
    rw [bind_ok] at h
    obtain ⟨_, _, h⟩ := h
    cases h
  refine ite_step h (several_step fun _ h => list_ext' (fun _ _ _ _ h hn => groupStats_suffix s h hn) h hn) fun h => ?_
  refine ite_step h (several_step fun _ h => list_ext' (fun _ _ _ _ h hn => groupDesc_suffix s h hn) h hn) fun h => ?_
  refine ite_step h (single_step fun _ h => groupFeatures_suffix s h) fun h => ?_
  refine ite_step h (several_step fun _ h => list_ext' (fun _ _ _ _ h hn => meterStats_suffix s h hn) h hn) fun h => ?_
  refine ite_step h (several_step fun _ h => list_ext' (fun _ _ _ _ h hn => meterConfig_suffix s h hn) h hn) fun h => ?_
  refine ite_step h (single_step fun _ h => rd_suffix s h) fun h => ?_
  rw [if_neg ht] at h ⊢
  refine ite_step h (several_step fun _ h => list_ext' (fun _ _ _ _ h hn => portRec_suffix s h hn) h hn) fun h => ?_
  refine ite_step h (several_step fun _ h => list_ext'
    (fun _ _ _ _ h _ => step (fun _ h => rd_suffix s h) h fun _ _ h => h) h hn) fun h => ?_
  refine ite_step h (several_step fun _ h => list_ext' (fun _ _ _ _ h hn => queueDesc_suffix s h hn) h hn) fun h => ?_
  refine ite_step h (several_step fun _ h => list_ext' (fun _ _ _ _ h _ => rd_suffix s h) h hn) fun h => ?_
  exact ite_step h (single_step fun _ h => expMp_suffix s h hn) fun h => h

theorem asyncProp_suffix {r} (h : Of14.parseAsyncProp m o = .ok r) : Of14.parseAsyncProp (m ++ s) o = .ok r := by
  unfold Of14.parseAsyncProp at h ⊢
  refine step (fun _ h => rd_suffix s h) h fun _ _ h => ?_
  exact ite_step h (fun h => rd_suffix s h) fun h => h

/-- what comes behind the body of a multipart message -/
theorem body_last {x y : Py (Of14.Body × Nat)} {k : Of14.Body → Of14.Msg} {r o'}
    (hx : ∀ b, x = .ok (b, o') → y = .ok (b, o')) (h : (x >>= fun z => .ok (k z.1, z.2)) = .ok (r, o')) :
    (y >>= fun z => .ok (k z.1, z.2)) = .ok (r, o') := by
  rw [bind_ok] at h
  obtain ⟨⟨p, o2⟩, h2, h⟩ := h
  cases h
  rw [hx _ h2]
  rfl

theorem parseOf_suffix {hd o1 r o'} (hh : Of14.parseHdr m o = .ok (hd, o1)) (h13 : hd.type ≠ 13)
    (h18 : hd.type = 18 ∨ hd.type = 19 → u16 m (o + 8) ≠ 12)
    (h : Of14.parseOf hd.type m o = .ok (r, o')) (hn : o' ≤ m.length) :
    Of14.parseOf hd.type (m ++ s) o = .ok (r, o') := by
  have key : ∀ {F G : Hdr × Nat → Py (Of14.Msg × Nat)}, (Of14.parseHdr m o >>= F) = .ok (r, o') →
      (F (hd, o1) = .ok (r, o') → G (hd, o1) = .ok (r, o')) → (Of14.parseHdr (m ++ s) o >>= G) = .ok (r, o') := by
    intro F G h hF
    refine step (fun _ h => hdr_suffix s h) h ?_
    intro a ha
    rw [hh] at ha
    cases ha
    exact hF
  have ho1 : o1 = o + 8 := by
    unfold Of14.parseHdr at hh
    rw [bind_ok] at hh
    obtain ⟨a, ha, hh⟩ := hh
    rw [bind_ok] at hh
    obtain ⟨_, _, hh⟩ := hh
    cases hh
    exact (rd_ok ha).1
  subst ho1
  unfold Of14.parseOf at h ⊢
  refine ite_step h (fun h => ?_) fun h => ?_
  · refine key h fun h => ?_
    simp only at h ⊢
    rw [bind_ok] at h
    obtain ⟨⟨es, o2⟩, h2, h⟩ := h
    simp only at h
    rw [bind_ok] at h
    obtain ⟨_, h3, h⟩ := h
    rw [while_ext (fun _ _ _ _ h _ => helloElem_suffix s h) h2 le_rfl, ok_bind, h3]
    exact h
  refine ite_step h (fun h => ?_) fun h => ?_
  · exact key h fun h => by upto h s
  refine ite_step h (fun h => key h fun h => rd_suffix s h) fun h => ?_
  refine ite_step h (fun h => key h fun h => rd_suffix s h) fun h => ?_
  refine ite_step h (fun h => ?_) fun h => ?_
  · refine key h fun h => step (fun _ h => rd_suffix s h) h fun _ _ h => ?_
    simp only at h ⊢
    rw [bind_ok] at h
    obtain ⟨⟨mt, o2⟩, h2, h⟩ := h
    simp only at h
    rw [bind_ok] at h
    obtain ⟨⟨u, o3⟩, h3, h⟩ := h
    have h4 := (rd_ok h3).2.1
    injection h with h
    have h5 := congrArg Prod.snd h
    simp only at h5
    rw [match_suffix s h2 (by omega), ok_bind]
    simp only
    rw [rd_suffix s h3, ok_bind, slice_suffix _ _ _ _ (by omega), h]
  refine ite_step h (fun h => key h fun h => step (fun _ h => rd_suffix s h) h fun _ _ h => match_last s h hn) fun h => ?_
  refine ite_step h (fun h => ?_) fun h => ?_
  · refine key h fun h => step (fun _ h => rd_suffix s h) h fun _ _ h => ?_
    simp only at h ⊢
    rw [bind_ok] at h
    obtain ⟨⟨p, o2⟩, h2, h⟩ := h
    cases h
    rw [port_suffix s h2 hn]
    rfl
  rw [if_neg h13] at h ⊢
  refine ite_step h (fun h => key h fun h => step (fun _ h => rd_suffix s h) h fun _ _ h =>
    match_list s (fun _ _ _ _ h hn => instr_suffix s h hn) h hn) fun h => ?_
  refine ite_step h (fun h => key h fun h => step (fun _ h => rd_suffix s h) h fun _ _ h =>
    while_last (fun _ _ _ _ h hn => bucket_suffix s h hn) h hn) fun h => ?_
  refine ite_step h (fun h => key h fun h => step (fun _ h => rd_suffix s h) h fun _ _ h =>
    while_last (fun _ _ _ _ h hn => pmProp_suffix s h hn) h hn) fun h => ?_
  refine ite_step h (fun h => key h fun h => step (fun _ h => rd_suffix s h) h fun _ _ h =>
    while_last (fun _ _ _ _ h hn => tmProp_suffix s h hn) h hn) fun h => ?_
  by_cases ht : hd.type = 18
  · rw [if_pos ht] at h ⊢
    refine key h fun h => step (fun _ h => rd_suffix s h) h ?_
    intro a ha h
    obtain ⟨_, rfl⟩ := rd_HH ha
    exact body_last (fun _ h => reqBody_suffix s h hn (h18 (.inl ht))) h
  rw [if_neg ht] at h ⊢
  by_cases ht : hd.type = 19
  · rw [if_pos ht] at h ⊢
    refine key h fun h => step (fun _ h => rd_suffix s h) h ?_
    intro a ha h
    obtain ⟨_, rfl⟩ := rd_HH ha
    exact body_last (fun _ h => repBody_suffix s h hn (h18 (.inr ht))) h
  rw [if_neg ht] at h ⊢
  refine ite_step h (fun h => key h fun h => by upto h s) fun h => ?_
  refine ite_step h (fun h => key h fun h => while_last (n := m.length) (fun _ _ _ _ h _ => asyncProp_suffix s h) h hn) fun h => ?_
  refine ite_step h (fun h => key h fun h => step (fun _ h => rd_suffix s h) h fun _ _ h =>
    while_last (n := m.length) (fun _ _ _ hp h _ => band_suffix s hp h) h hn) fun h => ?_
  refine ite_step h (fun h => key h fun h => step (fun _ h => rd_suffix s h) h fun _ _ h =>
    while_last (n := m.length) (fun _ _ _ hp h _ => ?_) h hn) fun h => ?_
  · exfalso
    unfold Of14.parseRoleProp at h
    rw [bind_ok] at h
    obtain ⟨_, _, h⟩ := h
    simp only at h
    split at h
    · rw [bind_ok] at h
      obtain ⟨_, _, h⟩ := h
      cases h
      omega
    · cases h
  refine ite_step h (fun h => key h fun h => ?_) fun h => ?_
  · exfalso
    simp only at h
    rw [bind_ok] at h
    obtain ⟨_, _, h⟩ := h
    rw [bind_ok] at h
    obtain ⟨_, _, h⟩ := h
    cases h
  refine ite_step h (fun h => key h fun h => step (fun _ h => rd_suffix s h) h fun _ _ h =>
    while_last (n := m.length) (fun _ _ _ _ h _ => step (fun _ h => rd_suffix s h) h fun _ _ h => h) h hn) fun h => ?_
  refine key h fun h => ?_
  simp only at h ⊢
  injection h with h
  have h5 := congrArg Prod.snd h
  simp only at h5
  rw [slice_suffix _ _ _ _ (by omega), h]

end Twink.Suffix14
