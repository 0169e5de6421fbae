import Verif.Spec.Session
import Verif.Props.Hello
import Verif.Props.Framing
import Verif.Props.Server
import Verif.Proof.AgentReply

/-!
# Lemmas about whole connections
-/

namespace Twink.Session
open Spec Fmt

/-- The messages one after another; how it has ended, if an exception ended it. -/
def feed (accept : PyVers) (xid : Nat) (h : Handle σ) (s : Sess σ) : List Bytes → Sess σ × Option LoopExit
  | [] => (s, none)
  | m :: ms =>
    match message accept xid h s m with
    | (s, .ok ()) => feed accept xid h s ms
    | (s, .error .channelClose) => (s, some .closed)
    | (s, .error e) => (s, some (.raised e))

/-- How the loop stands if no handler has raised. -/
def exitOf : Status → LoopExit
  | .running => .waiting
  | .stopped => .finished
  | .blocked => .waiting
  | .raised .channelClose => .closed
  | .raised e => .raised e

theorem loop_feed (accept : PyVers) (xid : Nat) (h : Handle σ) (n : Nat) (s : Sess σ) (buf : Bytes) (evs : List Ev) :
    loop accept xid h n s buf evs =
      ((feed accept xid h s (iterate n buf evs).out).1,
       (feed accept xid h s (iterate n buf evs).out).2.getD (exitOf (iterate n buf evs).status)) := by
  induction n generalizing s buf evs with
  | zero => rfl
  | succ n ih =>
    unfold loop iterate
    cases hr : recv buf evs with
    | blocked b => rfl
    | raised e b r => cases e <;> rfl
    | ret m b r =>
      cases m with
      | nil => rfl
      | cons x m =>
        simp only [feed]
        cases hm : message accept xid h s (x :: m) with
        | mk s' res =>
          cases res with
          | ok u => exact ih s' b r
          | error e => cases e <;> rfl

theorem only4 (v : Nat) : Accepts (.seq [.int 4]) v ↔ v = 4 := by simp [Accepts, verOf, eq_comm]

theorem hello13_eq (xid : Nat) (hx : xid < 2 ^ 32) : hello (.seq [.int 4]) xid = .ok (hello13 xid) := by
  have h1 : helloSet (.seq [.int 4]) = .ok [4] := by decide
  have h2 : bitmapUnits [4] = [16] := by decide
  have := hello_bitmap_bytes (.seq [.int 4]) [4] xid h1 (by decide) hx (by decide)
  rw [this, h2]
  have h3 : maxL [4] = 4 := by decide
  have h4 : calcsize (helloFmt 1) = 16 := by decide
  simp [h3, h4, hello13, ofHeader, hdrFmt, enc, encBE_1, encBE_2, encBE_4, be16, be32]

theorem length16 {m : Bytes} (h : m.length = 16) : ∃ b0 b1 b2 b3 b4 b5 b6 b7 b8 b9 b10 b11 b12 b13 b14 b15,
    m = [b0, b1, b2, b3, b4, b5, b6, b7, b8, b9, b10, b11, b12, b13, b14, b15] := by
  match m, h with
  | [b0, b1, b2, b3, b4, b5, b6, b7, b8, b9, b10, b11, b12, b13, b14, b15], _ => exact ⟨_, _, _, _, _, _, _, _, _, _, _, _, _, _, _, _, rfl⟩

/-- What `parse_hello` finds in a greeting. -/
theorem parseHello_greets {v : Nat} {m : Bytes} (h : Greets v m) : ∃ P, Twink.parseHello m = .ok P ∧ 4 ∈ P := by
  obtain ⟨⟨h8, ha⟩, h0, h1, h⟩ := h
  rw [announced_eq_u16 m (by omega)] at ha
  rcases h with ⟨rfl, hl⟩ | ⟨hl, ht, hs, hb⟩
  · refine ⟨[4], ?_, by simp⟩
    simp [Twink.parseHello, parseHeader_fields m h8, bind, Except.bind, h1, ha, hl, h0]
  · refine ⟨bitmapVersions 0 [u32 m 12], ?_, ?_⟩
    · have e1 : unpackFrom [H, H] m 8 = .ok [.int 1, .int 8] := by
        unfold unpackFrom
        rw [if_pos (by simp [calcsize, Item.width, hl]), Of13.dec_HH [] m 8 (by omega), ht, hs]
        rfl
      have e2 : unpackFrom [I] m 12 = .ok [.int (u32 m 12)] := by
        obtain ⟨b0, b1, b2, b3, b4, b5, b6, b7, b8, b9, b10, b11, b12, b13, b14, b15, rfl⟩ := length16 hl
        simp [unpackFrom, calcsize, Item.width, dec, decBE, u8, u16, u32]
        omega
      simp [Twink.parseHello, parseHeader_fields m h8, bind, Except.bind, h1, ha, hl, e1, e2, ints]
    · rw [mem_bitmapVersions]
      exact ⟨0, by simp, by simp, by simpa using hb⟩

/-- The negotiation of a channel that accepts version 1.3 only. -/
theorem greets_recv {v : Nat} {m : Bytes} (h : Greets v m) (xid : Nat) (hx : xid < 2 ^ 32) (st : HsState) :
    ofRecv (.seq [.int 4]) xid st m = (⟨some 4, st.sent⟩, .ok m) := by
  obtain ⟨P, hP, h4⟩ := parseHello_greets h
  rcases C08_negotiation (.seq [.int 4]) xid st m P (by simp [Valid, verOf]) (fun v hv => by rw [only4] at hv; omega) hx h.1.1 h.2.2.1 hP with
    ⟨v, hv, ha, _, he⟩ | ⟨hn, _⟩
  · rw [only4] at ha
    subst ha
    exact he
  · exact absurd ((only4 4).2 rfl) (hn 4 h4)

theorem dec_I12 {m : Bytes} (hl : m.length = 16) : dec [I] (m.drop 12) = [.int (u32 m 12)] := by
  obtain ⟨b0, b1, b2, b3, b4, b5, b6, b7, b8, b9, b10, b11, b12, b13, b14, b15, rfl⟩ := length16 hl
  simp [dec, decBE, u8, u16, u32]
  omega

/-- The parser of version 1.3 takes a greeting of version 1.3. -/
theorem greets_parse {m : Bytes} (h : Greets 4 m) : ∃ es, Of13.parse m 0 = .ok (.hello ⟨4, u8 m 1, u16 m 2, u32 m 4⟩ es) := by
  obtain ⟨⟨h8, ha⟩, h0, h1, h⟩ := h
  rw [announced_eq_u16 m (by omega)] at ha
  have hp := Agent.parseHdr_make h8 h0
  have hpar : Of13.parse m 0 = Of13.parseHello m 0 := by
    unfold Of13.parse
    rw [hp, Of13.ok_bind]
    show Of13.parseOf (u8 m 1) m 0 = _
    rw [h1]
    rfl
  rw [hpar]
  unfold Of13.parseHello
  rcases h with ⟨_, hl⟩ | ⟨hl, ht, hs, hb⟩
  · refine ⟨[], ?_⟩
    rw [hp, Of13.ok_bind]
    have : Of13.whileFetch (Of13.parseHelloElem m) (0 + u16 m 2) 8 = .ok ([], 8) := by
      rw [Of13.whileFetch, if_neg (by omega)]
    show (Of13.whileFetch (Of13.parseHelloElem m) (0 + u16 m 2) 8 >>= _) = _
    rw [this, Of13.ok_bind]
    simp only [ha, hl, Of13.pyAssert, Nat.zero_add, if_true, Of13.ok_bind]
  · refine ⟨[.versionBitmap (some 1) (some 8) (.list [u32 m 12])], ?_⟩
    rw [hp, Of13.ok_bind]
    have e1 : Of13.rd [H, H] m 8 (Of13.two fun a b => (a, b)) = .ok ((1, 8), 12) := by
      have := Agent.rd_make (f := [H, H]) (m := m) (off := 8) (k := Of13.two fun a b => (a, b)) (a := (1, 8))
        (by simp [calcsize, Item.width, hl]) (by rw [Of13.dec_HH [] m 8 (by omega), ht, hs]; rfl)
      rw [this]
      rfl
    have e2 : Of13.rd [I] m 12 Of13.allInts = .ok ([u32 m 12], 16) := by
      have := Agent.rd_make (f := [I]) (m := m) (off := 12) (k := Of13.allInts) (a := [u32 m 12])
        (by simp [calcsize, Item.width, hl]) (by rw [dec_I12 hl]; rfl)
      rw [this]
      rfl
    have e3 : Of13.parseVersionBitmap m 8 = .ok (.versionBitmap (some 1) (some 8) (.list [u32 m 12]), 16) := by
      unfold Of13.parseVersionBitmap
      rw [e1, Of13.ok_bind]
      simp only [Of13.pyAssert, if_true, Of13.ok_bind]
      rw [if_neg (by omega)]
      show (Of13.rd [I] m 12 Of13.allInts >>= _) = _
      rw [e2]
      rfl
    have e4 : Of13.parseHelloElem m 8 = .ok (.versionBitmap (some 1) (some 8) (.list [u32 m 12]), 16) := by
      unfold Of13.parseHelloElem
      rw [e1, Of13.ok_bind]
      exact e3
    have e5 : Of13.whileFetch (Of13.parseHelloElem m) 16 16 = .ok ([], 16) := by
      rw [Of13.whileFetch, if_neg (by omega)]
    have : Of13.whileFetch (Of13.parseHelloElem m) (0 + u16 m 2) 8 = .ok ([.versionBitmap (some 1) (some 8) (.list [u32 m 12])], 16) := by
      rw [Of13.whileFetch, if_pos (by omega), e4, ha, hl]
      simp only [Nat.zero_add, e5]
      rfl
    show (Of13.whileFetch (Of13.parseHelloElem m) (0 + u16 m 2) 8 >>= _) = _
    rw [this, Of13.ok_bind]
    simp only [ha, hl, Of13.pyAssert, Nat.zero_add, if_true, Of13.ok_bind]

/-! ## The handler of the example -/

theorem exFlows_eq : exFlows = .ok (.many [.raw flowBody]) := by decide +kernel

theorem ex_features (rnd x : Nat) (hx : x < 2 ^ 32) : Of13.buildFeatures rnd (.raw (ofHeader 4 6 0 x)) 1 2 3 0 0xf =
    .ok (ofHeader 4 6 32 x ++ [0, 0, 0, 0, 0, 0, 0, 1, 0, 0, 0, 2, 3, 0, 0, 0, 0, 0, 0, 15, 0, 0, 0, 0]) := by
  have h : pack [Q, I, B, B, X 2, I, I] [.int 1, .int 2, .int 3, .int 0, .int 15, .int 0] =
      .ok [0, 0, 0, 0, 0, 0, 0, 1, 0, 0, 0, 2, 3, 0, 0, 0, 0, 0, 0, 15, 0, 0, 0, 0] := by decide
  unfold Of13.buildFeatures
  rw [h, Of13.ok_bind, Agent.ofp_make _ _ (by decide) hx (by decide) (Or.inl rfl), Of13.ok_bind]
  simp [Of13.pyAssert, Of13.ok_bind]

theorem ex_config (rnd x : Nat) (hx : x < 2 ^ 32) : Of13.buildConfig rnd (.raw (ofHeader 4 8 0 x)) 0 (some 0xffe5) =
    .ok (ofHeader 4 8 12 x ++ [0, 0, 0xff, 0xe5]) := by
  have h : pack [H, H] [.int 0, .int ((some 0xffe5).getD 0xffff)] = .ok [0, 0, 0xff, 0xe5] := by decide
  unfold Of13.buildConfig
  rw [h, Of13.ok_bind, Agent.ofp_make _ _ (by decide) hx (by decide) (Or.inr ⟨_, rfl, by decide⟩), Of13.ok_bind]
  simp [Of13.pyAssert, Of13.ok_bind]

theorem ex_flows (rnd x : Nat) (hx : x < 2 ^ 32) : Of13.buildMpReply rnd (.raw (ofHeader 4 19 0 x)) 1 0 (.many [.raw flowBody]) =
    .ok (ofHeader 4 19 112 x ++ ([0, 1, 0, 0, 0, 0, 0, 0] ++ flowBody)) := by
  have h : Of13.repBody 1 (.many [.raw flowBody]) = .ok flowBody := by decide
  have h' : pack [H, H, X 4] [.int 1, .int 0] = .ok [0, 1, 0, 0, 0, 0, 0, 0] := by decide
  unfold Of13.buildMpReply
  rw [h, Of13.ok_bind, h', Of13.ok_bind, Agent.ofp_make _ _ (by decide) hx (by decide) (Or.inl rfl)]
  rfl

/-- The example answers as specified. -/
theorem ex_answers (rnd : Nat) {m : Bytes} (h : Readable m) (h2 : u8 m 1 ≠ 2) : exProc rnd m = .ok (answer m) := by
  obtain ⟨msg, hp⟩ := h
  obtain ⟨h8, h0, hh, hof⟩ := Agent.parse_hdr hp
  have hx := u32_lt m 4
  unfold exProc
  rw [hp, Of13.ok_bind]
  simp only [hh]
  unfold answer
  rw [if_neg h2]
  by_cases h5 : u8 m 1 = 5
  · rw [if_pos h5, if_pos h5, Agent.replyHdr_make (by decide) hx, Of13.ok_bind, ex_features rnd _ hx]
    rfl
  rw [if_neg h5, if_neg h5]
  by_cases h7 : u8 m 1 = 7
  · rw [if_pos h7, if_pos h7, Agent.replyHdr_make (by decide) hx, Of13.ok_bind, ex_config rnd _ hx]
    rfl
  rw [if_neg h7, if_neg h7]
  by_cases h18 : u8 m 1 = 18
  · rw [if_pos h18]
    rw [h18] at hof
    have hof : Of13.parseMpRequest m 0 = .ok msg := hof
    have : ∃ hd t f b, msg = .mpRequest hd t f b := by
      unfold Of13.parseMpRequest at hof
      simp only [Of13.bind_ok, Prod.exists, Of13.ok_inj] at hof
      obtain ⟨_, _, _, _, _, _, _, _, _, rfl⟩ := hof
      exact ⟨_, _, _, _, rfl⟩
    obtain ⟨hd, t, f, b, rfl⟩ := this
    have ht : hd.type = 18 := by
      have : hd.type = u8 m 1 := congrArg Of13.Hdr.type hh
      rw [this, h18]
    obtain ⟨e, _, _⟩ := Agent.mpRequest_type hp ht
    simp only [e]
    by_cases h1 : u16 m 8 = 1
    · rw [if_pos h1, if_pos ⟨h18, h1⟩, exFlows_eq, Agent.replyHdr_make (by decide) hx]
      simp only [Of13.ok_bind, h1, ex_flows rnd _ hx]
    · rw [if_neg h1, if_neg (fun c => h1 c.2)]
  · rw [if_neg h18, if_neg (fun c => h18 c.1)]

/-- A message of another version than 1.3 is not taken. -/
theorem not_readable {m : Bytes} (h8 : 8 ≤ m.length) (h0 : u8 m 0 ≠ 4) : Of13.parse m 0 = .error .assertion := by
  have hp := parseHeader_fields m h8
  have hu : unpackFrom hdrFmt m 0 = .ok (dec hdrFmt m) := by
    unfold unpackFrom
    rw [if_pos (by simp [calcsize, hdrFmt, Item.width]; omega), List.drop_zero]
  rw [parseHeader, hu, Of13.ok_bind] at hp
  have hd : dec hdrFmt m = [.int (u8 m 0), .int (u8 m 1), .int (u16 m 2), .int (u32 m 4)] := by
    split at hp
    · rename_i h
      simp only [Of13.ok_inj, Prod.mk.injEq] at hp
      rw [h]
      obtain ⟨rfl, rfl, rfl, rfl⟩ := hp
      rfl
    · cases hp
  have hr := Agent.rd_make (f := hdrFmt) (m := m) (off := 0) (k := Of13.four Of13.Hdr.mk) (a := ⟨u8 m 0, u8 m 1, u16 m 2, u32 m 4⟩)
    (by simp [calcsize, hdrFmt, Item.width]; omega) (by rw [List.drop_zero, hd]; rfl)
  unfold Of13.parse Of13.parseHdr
  rw [hr, Of13.ok_bind]
  simp only [Of13.pyAssert, if_neg h0]
  rfl

/-! ## Messages -/

/-- A message that is not a hello. -/
theorem message_other (xid : Nat) (h : Handle σ) (s : Sess σ) {m : Bytes} (h8 : 8 ≤ m.length) (h0 : u8 m 1 ≠ 0) :
    message (.seq [.int 4]) xid h s m = intercept h s m := by
  unfold message
  rw [C08_other_messages _ _ _ _ h8 h0]

theorem intercept_echo (h : Handle σ) (s : Sess σ) {m : Bytes} (hw : WellFormed m) (h2 : u8 m 1 = 2) (hv : s.version = some 4) :
    intercept h s m = ({ s with sent := s.sent ++ [ofHeader 4 3 m.length (u32 m 4) ++ m.drop 8] }, .ok ()) := by
  have ha := hw.2
  rw [announced_eq_u16 m (by have := hw.1; omega)] at ha
  have hl : m.length < 65536 := by rw [← ha]; have h2 := u8_lt m 2; have h3 := u8_lt m (2 + 1); unfold u16; omega
  have hx := u32_lt m 4
  have hf : fits hdrFmt [.int 4, .int 3, .int m.length, .int (u32 m 4)] = true := by simp [fits, hdrFmt]; omega
  have he : enc hdrFmt [.int 4, .int 3, .int m.length, .int (u32 m 4)] = ofHeader 4 3 m.length (u32 m 4) := by
    simp [ofHeader, hdrFmt, enc, encBE_1, encBE_2, encBE_4]
  unfold intercept
  simp only [parseHeader_fields m hw.1, h2, if_true, hv, ha, pack, hf, he]

theorem intercept_handle (h : Handle σ) (s : Sess σ) {m : Bytes} (h8 : 8 ≤ m.length) (h2 : u8 m 1 ≠ 2) :
    intercept h s m = ({ s with user := (h s.user m).1, sent := s.sent ++ (h s.user m).2.1 }, (h s.user m).2.2) := by
  unfold intercept
  simp only [parseHeader_fields m h8, if_neg h2]

/-- The example, one message. -/
theorem ex_message (xid rnd : Nat) (s : Sess Unit) {m : Bytes} (hw : WellFormed m) (h0 : u8 m 1 ≠ 0) (hr : u8 m 1 = 2 ∨ Readable m)
    (hv : s.version = some 4) :
    message (.seq [.int 4]) xid (exHandle rnd) s m = ({ s with sent := s.sent ++ answer m }, .ok ()) := by
  rw [message_other xid _ s hw.1 h0]
  by_cases h2 : u8 m 1 = 2
  · rw [intercept_echo _ s hw h2 hv]
    simp [answer, h2]
  · rw [intercept_handle _ s hw.1 h2]
    simp only [exHandle, ex_answers rnd (hr.resolve_left h2) h2]

theorem ex_feed (xid rnd : Nat) (ms : List Bytes) (hw : ∀ m ∈ ms, WellFormed m) (h0 : ∀ m ∈ ms, u8 m 1 ≠ 0)
    (hr : ∀ m ∈ ms, u8 m 1 = 2 ∨ Readable m) (s : Sess Unit) (hv : s.version = some 4) :
    feed (.seq [.int 4]) xid (exHandle rnd) s ms = ({ s with sent := s.sent ++ ms.flatMap answer }, none) := by
  induction ms generalizing s with
  | nil => simp [feed]
  | cons m ms ih =>
    rw [feed, ex_message xid rnd s (hw m (by simp)) (h0 m (by simp)) (hr m (by simp)) hv]
    simp only
    rw [ih (fun x hx => hw x (by simp [hx])) (fun x hx => h0 x (by simp [hx])) (fun x hx => hr x (by simp [hx])) { s with sent := s.sent ++ answer m } hv]
    simp

theorem greets_message (xid : Nat) (hx : xid < 2 ^ 32) (h : Handle σ) (s : Sess σ) {v : Nat} {m : Bytes} (hg : Greets v m) :
    message (.seq [.int 4]) xid h s m = intercept h { s with version := some 4 } m := by
  unfold message
  rw [greets_recv hg xid hx]

theorem answer_hello {m : Bytes} (h : u8 m 1 = 0) : answer m = [] := by simp [answer, h]

end Twink.Session
