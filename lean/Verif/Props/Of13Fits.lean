import Verif.Proof.Of13CallFits

/-!
# C111: OpenFlow 1.3 messages are built from exactly the arguments that fit

`Spec/Of13Fits` says which arguments fit the fields of the wire format.
-/

namespace Twink.Of13
open Spec

/-- C111: a message is built if, and only if, the header names the version and the type of the message, every part fits its field and
the whole is shorter than 65536 bytes.  In all other cases there is an exception. -/
theorem C111_exact (rnd : Nat) (h : HdrArg) (c : Call) :
    (∃ bs, c.run rnd h = .ok bs) ↔ h.Fits c.types rnd ∧ c.FitsBody ∧ 8 + c.size < 65536 :=
  call_fits rnd h c

/-- C111 for the parts: a structure is built if, and only if, it fits, and its bytes are those of the wire format. -/
theorem C111_structures :
    (∀ (m : MatchT) (b : Bytes), buildMatch m = .ok b ↔ m.Fits ∧ b = m.bytes) ∧
    (∀ (a : Action) (b : Bytes), buildAction a = .ok b ↔ a.Fits ∧ b = a.bytes) ∧
    (∀ (i : Instr) (b : Bytes), buildInstr i = .ok b ↔ i.Fits ∧ b = i.bytes) ∧
    (∀ (k : Bucket) (b : Bytes), buildBucket k = .ok b ↔ k.Fits ∧ b = k.bytes) ∧
    (∀ (k : Band) (b : Bytes), buildBand k = .ok b ↔ k.Fits ∧ b = k.bytes) ∧
    (∀ (p : PortT) (b : Bytes), buildPort p = .ok b ↔ p.Fits ∧ b = p.bytes) ∧
    (∀ (q : QProp) (b : Bytes), buildQProp q = .ok b ↔ q.Fits ∧ b = q.bytes) ∧
    (∀ (q : Queue) (b : Bytes), buildQueue q = .ok b ↔ q.Fits ∧ b = q.bytes) ∧
    (∀ (e : HelloElem) (b : Bytes), buildHelloElem e = .ok b ↔ e.Fits ∧ b = e.bytes) ∧
    (∀ (p : TfProp) (b : Bytes), buildTfProp p = .ok b ↔ p.Fits ∧ b = p.bytes) ∧
    (∀ r : Rec, (∃ b, buildRec r = .ok b) ↔ r.Fits) :=
  ⟨built_iff match_bytes match_fits, built_iff action_bytes action_fits, built_iff instr_bytes instr_fits,
    built_iff bucket_bytes bucket_fits, built_iff band_bytes band_fits, built_iff port_bytes port_fits, built_iff qprop_bytes qprop_fits,
    built_iff queue_bytes queue_fits, built_iff helloElem_bytes helloElem_fits, built_iff tfprop_bytes tfprop_fits, rec_fits⟩

/-- A flow modification, a switch configuration and a reply with a queue of a minimum rate that fit. -/
example : (∃ bs, (Call.flowMod 1 0 2 0 10 20 30 none none none 0 (.tup ⟨none, none, .raw [0x80, 0, 0, 4, 0, 0, 0, 7]⟩)
      (tups [.actions (some 4) none (tups [.output none none 3 0xffff])])).run 77 .none = .ok bs) ∧
    (∃ bs, (Call.config 0 none).run 77 (.tup none (some 9) none none) = .ok bs) ∧
    (∃ bs, (Call.queueRep 1 (tups [⟨5, 1, none, tups [.minRate .none 100, .maxRate (.tup (some 2) none) 900]⟩])).run 77 .none = .ok bs) := by
  refine ⟨(C111_exact _ _ _).2 ?_, (C111_exact _ _ _).2 ?_, (C111_exact _ _ _).2 ?_⟩
  · refine ⟨by simp [HdrArg.Fits, Call.types], ?_, by decide +kernel⟩
    simp [Call.FitsBody, Elem.Fits, MatchT.Fits, MatchT.fields, Seq.Fits, tups, Instr.Fits, isAmong, Action.Fits, isType, Seq.bytes, Elem.bytes, Action.bytes]
  · exact ⟨⟨.inl rfl, .inr ⟨9, by decide, rfl⟩, by decide⟩, by simp [Call.FitsBody], by decide⟩
  · refine ⟨by simp [HdrArg.Fits, Call.types], ?_, by decide +kernel⟩
    simp [Call.FitsBody, Queue.Fits, Seq.Fits, Elem.Fits, tups, QProp.Fits, PropHdr.Fits, isType, Seq.bytes, Elem.bytes, QProp.bytes]

/-- A message one byte too long, a time to live of 256 and a configuration without type do not fit. -/
example : (∀ d : Bytes, d.length = 65524 → ∀ bs, (Call.error 1 2 (some d)).run 77 .none ≠ .ok bs) ∧
    (∀ bs, (Call.packetOut none 1 (tups [.nwTtl none none 256]) none).run 77 .none ≠ .ok bs) ∧
    (∀ bs, (Call.config 0 none).run 77 .none ≠ .ok bs) := by
  refine ⟨fun d hd bs e => ?_, fun bs e => ?_, fun bs e => ?_⟩
  · have := ((C111_exact _ _ _).1 ⟨bs, e⟩).2.2
    simp [Call.size, Call.body, hd] at this
  · have := ((C111_exact _ _ _).1 ⟨bs, e⟩).2.1
    simp [Call.FitsBody, Seq.Fits, Elem.Fits, tups, Action.Fits] at this
  · have := ((C111_exact _ _ _).1 ⟨bs, e⟩).1
    simp [HdrArg.Fits, Call.types] at this

/-- C111 is false of the code where it asks that whatever fits the standard can be built: requests for aggregate statistics fail an assertion
(build.py L734), `None` for all queues is an unknown name (L861), there are no builders of experimenter bodies, and a table feature property of an
experimenter is refused because of a misspelt name (L836); whatever the arguments. -/
theorem C111_unbuildable_refuted (rnd : Nat) (h : HdrArg) (f : Nat) (bs : Bytes) :
    (∀ t p g c cm mt, (Call.mpRequest 2 f (.one (.aggregateReq t p g c cm mt))).run rnd h ≠ .ok bs) ∧
    (∀ p, (Call.mpRequest 5 f (.one (.queueStatsReq p none))).run rnd h ≠ .ok bs) ∧
    (∀ e t d, (Call.mpRequest 0xffff f (.one (.experimenter e t d))).run rnd h ≠ .ok bs) ∧
    (∀ t l e et d r, (Call.mpRequest 12 f (.many [.tup (.tableFeatures none t [] 0 0 0 0 (.items [.tup (.experimenter l r e et d)]))])).run rnd h ≠ .ok bs) := by
  refine ⟨fun _ _ _ _ _ _ e => ?_, fun _ e => ?_, fun _ _ _ e => ?_, fun _ _ _ _ _ _ e => ?_⟩ <;>
    have := ((C111_exact _ _ _).1 ⟨bs, e⟩).2.1 <;>
    simp [Call.FitsBody, Body.FitsReq, Rec.Fits, Elem.Fits, Seq.Fits, TfProp.Fits] at this

/-- C111 is false of the code where it asks that nothing else can be built: a hardware address of any length is accepted for a port modification, and cut or
filled up (build.py L529-534); so are the texts of a description (L663-681). -/
theorem C111_cut_refuted (rnd p c m a : Nat) (hw : Bytes) (hr : rnd < 4294967296) (hp : p < 4294967296) (hc : c < 4294967296) (hm : m < 4294967296)
    (ha : a < 4294967296) (mfr : Bytes) :
    (∃ bs, (Call.portMod p hw c m a).run rnd .none = .ok bs ∧ bs.length = 40) ∧
    (∃ bs, buildRec (.desc (some mfr) none none none none) = .ok bs ∧ bs.length = 1056) := by
  constructor
  · have hs : (Call.portMod p hw c m a).size = 32 := by simp [Call.size, Call.body, inField]; omega
    obtain ⟨bs, e⟩ := (C111_exact rnd .none (.portMod p hw c m a)).2 ⟨⟨rfl, hr⟩, ⟨hp, hc, hm, ha⟩, by rw [hs]; decide⟩
    refine ⟨bs, e, ?_⟩
    simp only [Call.run, buildPortMod, bind_ok, pyAssert_ok, ok_inj, exists_const] at e
    obtain ⟨_, _, _, _, h, rfl⟩ := e
    exact h
  · obtain ⟨bs, e⟩ := (rec_fits (.desc (some mfr) none none none none)).2 trivial
    refine ⟨bs, e, ?_⟩
    have hi : ∀ n (b : Bytes), (inField n b).length = n := by intro n b; simp [inField]; omega
    rw [rec_length _ _ e, Rec.bytes]
    simp only [List.length_append, hi]

end Twink.Of13
