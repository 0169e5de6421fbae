import Verif.Proof.Of14Fits
import Verif.Proof.Of13CallFits
import Verif.Props.Of14Layout

/-! The message builders succeed exactly on the arguments of `Spec/Of14Fits`, with its bytes. -/

namespace Twink.Of14
open Fmt Spec Of13

theorem hdr5_fits (rnd : Nat) (v l x : Option Nat) (ty : Nat) :
    (∃ b, ofpHeader rnd v (some ty) l x = .ok b) ↔ isType v 5 ∧ ty < 256 ∧ l.getD 8 < 65536 ∧ x.getD rnd < 4294967296 := by
  simp only [ofpHeader, bind_ok, pyAssert_ok, packOpt, pack_eq_ok, exists_const, ← isType_iff]
  constructor
  · rintro ⟨_, h1, h2, _⟩
    simp [fits, hdrFmt] at h2
    exact ⟨h1, h2.2⟩
  · rintro ⟨h1, h2⟩
    refine ⟨_, h1, ?_, rfl⟩
    simp [fits, hdrFmt, h1, h2]

theorem ofp_hdr (rnd : Nat) (v x : Option Nat) (ty : Nat) (d : Bytes) :
    (∃ b, (do let h ← ofpHeader rnd v (some ty) (some (8 + d.length)) x; .ok (h ++ d)) = (.ok b : Py Bytes)) ↔
      isType v 5 ∧ ty < 256 ∧ 8 + d.length < 65536 ∧ x.getD rnd < 4294967296 := by
  have := hdr5_fits rnd v (some (8 + d.length)) x ty
  rw [Option.getD_some] at this
  rw [← this]
  simp only [bind_ok, ok_inj]
  exact ⟨fun ⟨_, h, hh, _⟩ => ⟨h, hh⟩, fun ⟨h, hh⟩ => ⟨_, h, hh, rfl⟩⟩

/-- What the `type` argument of `ofp_` allows. -/
def allowed : TypeArg → Option (List Nat)
  | .one t => some [t]
  | .among ts => some ts
  | .any => none

theorem ofp_fits (rnd : Nat) (h : HdrArg) (d : Bytes) (ta : TypeArg) (ht : ∀ ts, allowed ta = some ts → ∀ t ∈ ts, t < 256)
    (hn : ∀ ts, ta = .among ts → ts.length ≠ 1) :
    (∃ b, ofp_ rnd h d ta = .ok b) ↔ hdrFits (allowed ta) rnd h ∧ 8 + d.length < 65536 := by
  cases h with
  | bad => simp [ofp_, hdrFields, hdrFits, bind, Except.bind]
  | none =>
    cases ta with
    | one ty =>
      have := ofp_hdr rnd (some 5) (some rnd) ty d
      have h1 : ty < 256 := ht [ty] rfl ty (by simp)
      simp only [isType, or_true, true_and, h1, Option.getD_some] at this
      simp only [ofp_, hdrFields, ok_bind, this, hdrFits, allowed]
      simp [and_comm]
    | among ts =>
      simp [ofp_, hdrFields, hdrFits, allowed, bind, Except.bind]
      intro t e; exact absurd (by rw [e]; rfl) (hn ts rfl)
    | any => simp [ofp_, hdrFields, hdrFits, allowed, bind, Except.bind]
  | tup v t l x =>
    cases ta with
    | one ty =>
      have h1 : ty < 256 := ht [ty] rfl ty (by simp)
      cases t with
      | none =>
        have := ofp_hdr rnd v x ty d
        simp only [ofp_, hdrFields, ok_bind, this, hdrFits, allowed]
        simp [h1]; grind
      | some t =>
        by_cases hp : t = ty
        · subst hp
          have := ofp_hdr rnd v x t d
          simp only [ofp_, hdrFields, pyAssert, if_true, ok_bind, this, hdrFits, allowed]
          simp [h1]; grind
        · simp [ofp_, hdrFields, hdrFits, pyAssert, hp, allowed, bind, Except.bind]
    | among ts =>
      cases t with
      | none =>
        simp [ofp_, hdrFields, hdrFits, allowed, bind, Except.bind]
        intro _ t e; exact absurd (by rw [e]; rfl) (hn ts rfl)
      | some t =>
        by_cases hp : t ∈ ts
        · have h1 : t < 256 := ht ts rfl t hp
          have := ofp_hdr rnd v x t d
          simp only [ofp_, hdrFields, pyAssert, hp, if_true, ok_bind, this, hdrFits, allowed]
          simp [h1, hp]; grind
        · simp [ofp_, hdrFields, hdrFits, pyAssert, hp, allowed, bind, Except.bind]
    | any =>
      cases t with
      | none => simp [ofp_, hdrFields, hdrFits, allowed, bind, Except.bind]
      | some t =>
        have := ofp_hdr rnd v x t d
        simp only [ofp_, hdrFields, ok_bind, this, hdrFits, allowed]
        simp; grind
  | raw b =>
    have h3 : u32 b 4 < 4294967296 := u32_lt b 4
    have h2 : u8 b 1 < 256 := u8_lt b 1
    have := ofp_hdr rnd (some (u8 b 0)) (some (u32 b 4)) (u8 b 1) d
    simp only [isType, reduceCtorEq, false_or, Option.some.injEq, Option.getD_some, h2, h3, true_and, and_true] at this
    simp only [ofp_, hdrFields, unpack_hdr, hdrFits]
    by_cases hb : 8 ≤ b.length
    · rw [if_pos hb]
      cases ta with
      | one ty =>
        by_cases hp : u8 b 1 = ty
        · simp only [ok_bind, pyAssert, hp, if_true] at this ⊢
          rw [this]; simp [hb, allowed]
        · simp [hp, pyAssert, bind, Except.bind, allowed]
      | among ts =>
        by_cases hp : u8 b 1 ∈ ts
        · simp only [ok_bind, pyAssert, hp, if_true] at this ⊢
          rw [this]; simp [hb, hp, allowed]
        · simp [hp, pyAssert, bind, Except.bind, allowed]
      | any =>
        simp only [ok_bind]
        rw [this]; simp [hb, allowed]
    · rw [if_neg hb]
      simp [hb, bind, Except.bind]

theorem ofp_one_iff (rnd : Nat) (h : HdrArg) (d : Bytes) (ty : Nat) (b : Bytes) (ht : ty < 256 := by decide) :
    ofp_ rnd h d (.one ty) = .ok b ↔
      (hdrFits (some [ty]) rnd h ∧ 8 + d.length < 65536) ∧ b = ofHeader 5 ty (8 + d.length) (h.xid rnd) ++ d :=
  built_iff (build := fun d => ofp_ rnd h d (.one ty)) (f := fun d => ofHeader 5 ty (8 + d.length) (h.xid rnd) ++ d)
    (fun _ _ hb => made_layout (made_one hb)) (fun d => ofp_fits rnd h d (.one ty) (by simp [allowed]; exact ht) (by simp)) d b

theorem ofp_among_iff (rnd : Nat) (h : HdrArg) (d : Bytes) (ts : List Nat) (b : Bytes) (ht : ∀ t ∈ ts, t < 256 := by decide)
    (hn : ts.length ≠ 1 := by decide) : ofp_ rnd h d (.among ts) = .ok b ↔
      (hdrFits (some ts) rnd h ∧ 8 + d.length < 65536) ∧ b = ofHeader 5 (h.type 0) (8 + d.length) (h.xid rnd) ++ d :=
  built_iff (build := fun d => ofp_ rnd h d (.among ts)) (f := fun d => ofHeader 5 (h.type 0) (8 + d.length) (h.xid rnd) ++ d)
    (fun _ _ hb => made_layout (made_among hb 0).2)
    (fun d => ofp_fits rnd h d (.among ts) (by simp only [allowed, Option.some.injEq]; rintro _ rfl; exact ht)
      (by simp only [TypeArg.among.injEq]; rintro _ rfl; exact hn)) d b

theorem ofp_any_iff (rnd : Nat) (h : HdrArg) (d : Bytes) (b : Bytes) : ofp_ rnd h d .any = .ok b ↔
      (hdrFits none rnd h ∧ 8 + d.length < 65536) ∧ b = ofHeader 5 (h.type 0) (8 + d.length) (h.xid rnd) ++ d :=
  built_iff (build := fun d => ofp_ rnd h d .any) (f := fun d => ofHeader 5 (h.type 0) (8 + d.length) (h.xid rnd) ++ d)
    (fun _ _ hb => made_layout (made_named (fun _ e => by cases e) hb 0).2)
    (fun d => ofp_fits rnd h d .any (by simp [allowed]) (by simp)) d b

theorem ex_and {A : Prop} {e : α} {Q : α → Prop} : (∃ d, (A ∧ d = e) ∧ Q d) ↔ A ∧ Q e :=
  ⟨fun ⟨_, ⟨ha, rfl⟩, hq⟩ => ⟨ha, hq⟩, fun ⟨ha, hq⟩ => ⟨_, ⟨ha, rfl⟩, hq⟩⟩

theorem config_hdr (rnd : Nat) (h : HdrArg) : hdrFits (some [9, 8]) rnd h ↔ hdrFits (some [8, 9]) rnd h := by
  cases h <;> simp [hdrFits, or_comm]

theorem objHdr_iff (rnd : Nat) (h : HdrArg) (b : Bytes) : objHdr rnd h = .ok b ↔
    (match h with
      | .raw c => b = c
      | .tup v t l x => (isType v 5 ∧ (∃ n < 256, t = some n) ∧ l.getD 8 < 65536 ∧ x.getD rnd < 4294967296) ∧
          b = ofHeader 5 (t.getD 0) (l.getD 8) (x.getD rnd)
      | _ => False) := by
  cases h with
  | raw c => simp [objHdr, eq_comm]
  | tup v t l x =>
    simp only [objHdr]
    cases t with
    | none => simp [ofpHeader, packOpt, bind_ok]
    | some t =>
      refine (built_iff (build := fun (_ : Unit) => ofpHeader rnd v (some t) l x) (f := fun _ => ofHeader 5 t (l.getD 8) (x.getD rnd))
        (P := fun _ => isType v 5 ∧ t < 256 ∧ l.getD 8 < 65536 ∧ x.getD rnd < 4294967296) ?_ ?_ () b).trans ?_
      · intro _ b hb
        obtain ⟨t', ht, h1, h2⟩ := ofpHeader_ok hb
        injection ht with ht; subst ht
        rw [h2, ofHeader_enc]; rfl
      · exact fun _ => hdr5_fits rnd v l x t
      · simp
  | none => simp [objHdr]
  | bad => simp [objHdr]

theorem meterMod_iff (rnd : Nat) (h : HdrArg) (c f m : Nat) (bs : Seq Band) (b : Bytes) :
    buildMeterMod rnd h c f m bs = .ok b ↔ (Call.meterMod c f m bs).Fits rnd h ∧ b = (Call.meterMod c f m bs).out rnd h := by
  have e : ∀ hd, enc [S 8, H, H, I] [.str hd, .int c, .int f, .int m] = inField 8 hd ++ (be16 c ++ be16 f ++ be32 m) := by
    intro hd; layout
  simp only [buildMeterMod, bind_ok, pack_eq_ok, ok_inj', bands_iff, ex_and, objHdr_iff, e, Call.Fits, Call.FitsHead, Call.out, Call.head,
    Call.FitsBody, Call.outBody, Call.body, fits, Bool.and_eq_true, decide_eq_true_eq, H, I, S, Nat.reducePow, Nat.reduceMul, and_true, true_and]
  cases h with
  | raw d => simp [List.append_assoc]; grind
  | tup v t l x =>
    have h8 : ∀ n k y, inField 8 (ofHeader 5 n k y) = ofHeader 5 n k y := by intro n k y; simp [inField, ofHeader, b8, be16, be32, zeros]
    simp only [ex_and, h8, List.append_assoc]
    grind
  | none => simp
  | bad => simp

/-- Both sides of `call_iff` written out. -/
macro "called" "[" ts:Lean.Parser.Tactic.simpLemma,* "]" : tactic => `(tactic|
  (simp only [Call.run, bind_ok, pyAssert_ok, pack_eq_ok, ok_inj', exists_const, match_iff, actions_iff, instrs_iff, buckets_iff, prs_iff, ex_and,
    Call.Fits, Call.FitsHead, Call.out, Call.head, Call.outType, Call.takes, Call.types, Call.FitsBody, Call.outBody, Call.body, $ts,*]
   try layout
   try simp only [fits, Bool.and_eq_true, decide_eq_true_eq, Nat.reducePow, Nat.reduceMul, and_true, true_and]))

theorem call_iff (rnd : Nat) (h : HdrArg) (c : Call) (b : Bytes) : c.run rnd h = .ok b ↔ c.Fits rnd h ∧ b = c.out rnd h := by
  induction c generalizing rnd h b
  case meterMod c f m bs => exact meterMod_iff rnd h c f m bs b
  case portStatus r d =>
    simp only [Call.run, buildPortStatus, bind_ok, Call.Fits, Call.FitsHead, false_and, iff_false]
    rintro ⟨_, _, _, _, e⟩; cases e
  case hello es =>
    simp only [Call.run, buildHello, bind_ok, seq_iff helloElem_bytes helloElem_fits, ex_and, ofp_one_iff (ty := 0) (ht := by decide),
      Call.Fits, Call.FitsHead, Call.out, Call.head, Call.outType, Call.takes, Call.types, Call.FitsBody, Call.outBody, Call.body]
    grind
  case error => called [buildError, ofp_one_iff (ty := 1) (ht := by decide)]; grind
  case errorExp => called [buildErrorExp, ofp_one_iff (ty := 1) (ht := by decide)]; grind
  case features d nb nt aux caps =>
    called [buildFeatures, ofp_one_iff (ty := 6) (ht := by decide)]
    have h0 : ∀ x, (ofHeader 5 6 x (HdrArg.xid rnd h) ++
        (be64 d ++ (be32 nb ++ (b8 nt ++ (b8 aux ++ (zeros 2 ++ (be32 caps ++ be32 0))))))).length = 32 := fun _ => rfl
    simp only [h0]; grind
  case config f miss =>
    called [buildConfig, ofp_among_iff (ts := [9, 8]) (ht := by decide) (hn := by decide), config_hdr]
    have h0 : ∀ x, (ofHeader 5 (HdrArg.type 0 h) x (HdrArg.xid rnd h) ++ (be16 f ++ be16 (miss.getD 65535))).length = 12 := fun _ => rfl
    simp only [h0]; grind
  case packetIn => called [buildPacketIn, ofp_one_iff (ty := 10) (ht := by decide)]; grind
  case flowRemoved => called [buildFlowRemoved, flowRemovedFmt, ofp_one_iff (ty := 11) (ht := by decide)]; grind
  case packetOut buf ip as d =>
    called [buildPacketOut, ofp_one_iff (ty := 13) (ht := by decide)]
    have h0 : (be32 (buf.getD 4294967295) ++ (be32 ip ++ (be16 (as.bytes Action.bytes).length ++ (zeros 6 ++
        (as.bytes Action.bytes ++ d.getD []))))).length = 16 + (as.bytes Action.bytes).length + (d.getD []).length := by simp; omega
    simp only [h0]; grind
  case flowMod => called [buildFlowMod, flowModFmt, ofp_one_iff (ty := 14) (ht := by decide)]; grind
  case groupMod => called [buildGroupMod, ofp_one_iff (ty := 15) (ht := by decide)]; grind
  case portMod => called [buildPortMod, portModFmt, ofp_one_iff (ty := 16) (ht := by decide)]; grind
  case tableMod t cf ps =>
    cases ps <;> called [buildTableMod, ofp_one_iff (ty := 17) (ht := by decide), Seq.bytes] <;> simp
    grind
  case tableModOf => called [buildTableMod, ofp_one_iff (ty := 17) (ht := by decide)]; grind
  case mpRequest => called [buildMpRequest, reqBody_iff, ofp_one_iff (ty := 18) (ht := by decide)]; grind
  case mpRequestOf => called [buildMpRequest, reqBody_iff, rec_iff, ofp_one_iff (ty := 18) (ht := by decide), Body.FitsReq, Body.outReq, ite_self]; grind
  case mpReply t f body =>
    have : body.FitsRep t → t < 65536 := by
      intro hb
      cases body <;> simp [Body.FitsRep] at hb <;> omega
    called [buildMpReply, repBody_iff, ofp_one_iff (ty := 19) (ht := by decide)]; grind
  case role => called [buildRole, ofp_among_iff (ts := [24, 25]) (ht := by decide) (hn := by decide)]; grind
  case async => called [buildAsync, ofp_among_iff (ts := [27, 28]) (ht := by decide) (hn := by decide)]; grind
  case roleStatus => called [buildRoleStatus, ofp_among_iff (ts := [24, 25]) (ht := by decide) (hn := by decide)]; grind
  case tableStatus => called [buildTableStatus, elem_iff rec_out rec_fits, ofp_one_iff (ty := 31) (ht := by decide)]; grind
  case bundleCtrl => called [buildBundleCtrl, ofp_one_iff (ty := 33) (ht := by decide)]; grind
  case bundleAdd bd f rnd' h' c ps ih =>
    simp only [Call.run, buildBundleAdd, bind_ok, ih, ok_inj, ex_and]
    called [ofp_one_iff (ty := 34) (ht := by decide)]; grind
  case requestForward rnd' h' c ih =>
    simp only [Call.run, buildRequestForward, bind_ok, ih, ok_inj, ex_and]
    called [ofp_one_iff (ty := 32) (ht := by decide)]; grind
  case experimenter => called [buildExperimenter, ofp_one_iff (ty := 4) (ht := by decide)]; grind
  case other => called [ofp_any_iff]

end Twink.Of14
