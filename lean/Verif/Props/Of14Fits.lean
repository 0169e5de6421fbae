import Verif.Proof.Of14CallFits

/-!
# C112: OpenFlow 1.4 messages are built from exactly the arguments that fit

`Spec/Of14Fits` says which arguments fit, and which bytes they become.
-/

namespace Twink.Of14
open Spec Of13

/-- C112: a call returns `b` if, and only if, the header names the version and a type the call takes, every part fits its field, the whole
is shorter than 65536 bytes, messages inside messages fit likewise, and `b` is the wire format with the deviations listed there.
In all other cases there is an exception. -/
theorem C112_exact (rnd : Nat) (h : HdrArg) (c : Call) (b : Bytes) : c.run rnd h = .ok b ↔ c.Fits rnd h ∧ b = c.out rnd h :=
  call_iff rnd h c b

/-- C112 for the parts. -/
theorem C112_structures :
    (∀ (a : Action) (b : Bytes), buildAction a = .ok b ↔ a.Fits ∧ b = a.bytes) ∧
    (∀ (i : Instr) (b : Bytes), buildInstr i = .ok b ↔ i.Fits ∧ b = i.out) ∧
    (∀ (k : Bucket) (b : Bytes), buildBucket k = .ok b ↔ k.Fits ∧ b = k.bytes) ∧
    (∀ (p : Pr) (b : Bytes), buildPr p = .ok b ↔ p.Fits ∧ b = p.out) ∧
    (∀ (p : PortT) (b : Bytes), buildPort p = .ok b ↔ p.Fits ∧ b = p.out) ∧
    (∀ (p : TfProp) (b : Bytes), buildTfProp p = .ok b ↔ p.Fits ∧ b = p.out) ∧
    (∀ (r : Rec) (b : Bytes), buildRec r = .ok b ↔ r.Fits ∧ b = r.out) :=
  ⟨built_iff action_bytes action_fits, built_iff instr_out instr_fits, built_iff bucket_bytes bucket_fits, built_iff pr_out pr_fits,
    port_iff, tfprop_iff, rec_iff⟩

/-- C112: where the layout of the standard is kept (`Call.Right`), what fits is put out as the standard wants it. -/
theorem C112_standard (rnd : Nat) (h : HdrArg) (c : Call) (hr : c.Right h) (hf : c.Fits rnd h) :
    c.run rnd h = .ok (ofHeader 5 (c.theType h) (8 + c.body.length) (h.xid rnd) ++ c.body) := by
  have e := (C112_exact rnd h c _).2 ⟨hf, rfl⟩
  rw [e, C76_layout_partial rnd h c _ hr e]

/-- A group modification forwarded as a request, with a bucket that decrements the time to live: it fits, and is built. -/
example : (Call.requestForward 7 .none (.groupMod 0 1 2 (tups [⟨none, 1, 2, 3, tups [.generic (some 24) none]⟩]))).Fits 77 .none ∧
    (Call.requestForward 7 .none (.groupMod 0 1 2 (tups [⟨none, 1, 2, 3, tups [.generic (some 24) none]⟩]))).run 77 .none = .ok
    ([5, 32, 0, 48, 0, 0, 0, 77] ++ [5, 15, 0, 40, 0, 0, 0, 7] ++ [0, 0, 1, 0, 0, 0, 0, 2] ++
     [0, 24, 0, 1, 0, 0, 0, 2, 0, 0, 0, 3, 0, 0, 0, 0] ++ [0, 24, 0, 8, 0, 0, 0, 0]) := by
  have e : (Call.requestForward 7 .none (.groupMod 0 1 2 (tups [⟨none, 1, 2, 3, tups [.generic (some 24) none]⟩]))).run 77 .none = .ok
    ([5, 32, 0, 48, 0, 0, 0, 77] ++ [5, 15, 0, 40, 0, 0, 0, 7] ++ [0, 0, 1, 0, 0, 0, 0, 2] ++
     [0, 24, 0, 1, 0, 0, 0, 2, 0, 0, 0, 3, 0, 0, 0, 0] ++ [0, 24, 0, 8, 0, 0, 0, 0]) := by decide +kernel
  exact ⟨((C112_exact _ _ _ _).1 e).1, e⟩

/-- A port modification with a signed frequency offset of -1, and the asynchronous configuration with reasons of type 11, fit; an offset of
2147483648 and reasons of type 12 do not. -/
example : (Call.portMod 1 [1, 2, 3, 4, 5, 6] 0 0 (tups [.pmOptical none none 1 2 (-1) 3 4])).Fits 77 .none ∧
    ¬ (Call.portMod 1 [1, 2, 3, 4, 5, 6] 0 0 (tups [.pmOptical none none 1 2 2147483648 3 4])).Fits 77 .none ∧
    (Call.async (tups [.reasons (some 11) none 5])).Fits 77 (.tup none (some 28) none none) ∧
    ¬ (Call.async (tups [.reasons (some 12) none 5])).Fits 77 (.tup none (some 28) none none) := by
  have hl : (Call.portMod 1 [1, 2, 3, 4, 5, 6] 0 0 (tups [.pmOptical none none 1 2 (-1) 3 4])).outBody.length = 48 := by decide +kernel
  refine ⟨⟨?_, ?_⟩, fun ⟨_, h⟩ => ?_, ⟨?_, ?_⟩, fun ⟨_, h⟩ => ?_⟩
  · rw [hl]; exact ⟨⟨⟨16, rfl⟩, by decide⟩, by decide⟩
  · simp [Call.FitsBody, tups, Seq.Fits, Elem.Fits, Pr.Fits]
  · simp [Call.FitsBody, tups, Seq.Fits, Elem.Fits, Pr.Fits] at h
  · exact ⟨⟨.inl rfl, .inr ⟨28, by decide, rfl, by simp [Call.takes, Call.types]⟩, by decide⟩, by decide⟩
  · simp [Call.FitsBody, tups, Seq.Fits, Elem.Fits, Pr.Fits]
  · simp [Call.FitsBody, tups, Seq.Fits, Elem.Fits, Pr.Fits] at h

/-- C112 is false of the code where it asks that whatever fits the standard can be built: PORT_STATUS, experimenter properties of ports, queues, asynchronous
configurations and table features, aggregate requests, requests for all queues by `None`, and properties given as tuples to TABLE_MOD;
whatever the other arguments. -/
theorem C112_unbuildable_refuted (rnd : Nat) (h : HdrArg) (f : Nat) (bs : Bytes) :
    (∀ r p, (Call.portStatus r p).run rnd h ≠ .ok bs) ∧
    (∀ t l e et d, (Call.async (.items [.tup (.asyncExp t l e et d)])).run rnd h ≠ .ok bs) ∧
    (∀ t l e et d, buildPr (.portExp t l e et d) ≠ .ok bs ∧ buildPr (.qdExp t l e et d) ≠ .ok bs) ∧
    (∀ t l e et d, buildTfProp (.experimenter t l e et d) ≠ .ok bs) ∧
    (∀ t p g c cm mt, (Call.mpRequest 2 f (.one (.aggregateReq t p g c cm mt))).run rnd h ≠ .ok bs) ∧
    (∀ p, (Call.mpRequest 5 f (.one (.queueStatsReq p none))).run rnd h ≠ .ok bs) ∧
    (∀ t c l, (Call.tableMod t c (.items l)).run rnd h ≠ .ok bs) := by
  refine ⟨fun _ _ e => ?_, fun _ _ _ _ _ e => ?_, fun _ _ _ _ _ => ⟨fun e => ?_, fun e => ?_⟩, fun _ _ _ _ _ e => ?_, fun _ _ _ _ _ _ e => ?_,
    fun _ e => ?_, fun _ _ _ e => ?_⟩
  · exact ((C112_exact _ _ _ _).1 e).1.1
  · have := ((C112_exact _ _ _ _).1 e).1.2
    simp [Call.FitsBody, Seq.Fits, Elem.Fits, Pr.Fits] at this
  · exact ((C112_structures.2.2.2.1 _ _).1 e).1
  · exact ((C112_structures.2.2.2.1 _ _).1 e).1
  · exact ((tfprop_iff _ _).1 e).1
  · have := ((C112_exact _ _ _ _).1 e).1.2
    simp [Call.FitsBody, Body.FitsReq, Rec.Fits] at this
  · have := ((C112_exact _ _ _ _).1 e).1.2
    simp [Call.FitsBody, Body.FitsReq, Rec.Fits] at this
  · have := ((C112_exact _ _ _ _).1 e).1.2
    simp [Call.FitsBody] at this

/-- C112 is false of the code where it asks that nothing else can be built: METER_MOD takes any bytes for its header, cut or filled up to eight
(build.py L561-564), whatever version, type and length they name. -/
theorem C112_meter_header_refuted (rnd : Nat) (b : Bytes) (c f m : Nat) (hc : c < 65536) (hf : f < 65536) (hm : m < 4294967296) :
    (Call.meterMod c f m .none).run rnd (.raw b) = .ok (inField 8 b ++ be16 c ++ be16 f ++ be32 m) := by
  refine (C112_exact _ _ _ _).2 ⟨⟨trivial, hc, hf, hm, trivial⟩, ?_⟩
  simp [Call.out, Call.head, Call.outBody, Call.body, Seq.bytes]

/-- C112 is false of the code where it asks for the type of the message: a role status goes out as role request or reply, and its own type is refused. -/
theorem C112_role_status_refuted (rnd x : Nat) (hx : x < 4294967296) (r rs g : Nat) (bs : Bytes) :
    (Call.roleStatus r rs g .none).run rnd (.tup none (some 30) none (some x)) ≠ .ok bs ∧
    (r < 4294967296 → rs < 256 → g < 2 ^ 64 → ∃ bs, (Call.roleStatus r rs g .none).run rnd (.tup none (some 24) none (some x)) = .ok bs) := by
  constructor
  · intro e
    have := ((C112_exact _ _ _ _).1 e).1.1.1
    simp [hdrFits, Call.takes] at this
  · intro h1 h2 h3
    refine ⟨_, (C112_exact _ _ _ _).2 ⟨⟨⟨⟨.inl rfl, .inr ⟨24, by decide, rfl, by simp [Call.takes]⟩, hx⟩, ?_⟩, h1, h2, h3, trivial⟩, rfl⟩⟩
    simp [Call.outBody, Seq.bytes]

end Twink.Of14
