import Verif.Proof.Session

/-!
# Properties of whole connections of a switch: C92, C93
-/

namespace Twink.Session
open Spec

/-! ## C92: the example switch answers requests -/

/-- C92, from bytes to bytes: a controller greets with version 1.3 and sends messages that the parser takes.  However the bytes arrive, the example says hello, then
sends the answers in the order of the messages, and nothing else; it goes on until the connection ends.
Missing: messages for which the parser raises an exception (C46, C55, C69), greetings of controllers with higher versions (C93), and requests without an answer
(`C92_unanswered_refuted`). -/
theorem C92_partial (xid rnd : Nat) (hx : xid < 2 ^ 32) (g : Bytes) (hg : Greets 4 g) (ms : List Bytes) (hw : ∀ m ∈ ms, WellFormed m)
    (h0 : ∀ m ∈ ms, u8 m 1 ≠ 0) (hr : ∀ m ∈ ms, u8 m 1 = 2 ∨ Readable m) (tail : Bytes) (ht : ¬ Complete tail) (evs : List Ev)
    (hev : ∀ e ∈ evs, IsChunk e ∨ IsWait e) (hs : carried evs = (g :: ms).flatten ++ tail) (n : Nat) (hn : ms.length + 1 < n) :
    (connection (.seq [.int 4]) xid (exHandle rnd) () n evs = (⟨some 4, hello13 xid :: ms.flatMap answer, ()⟩, .waiting)) ∧
    ∀ eof rest, IsEmptyRead eof →
      connection (.seq [.int 4]) xid (exHandle rnd) () n (evs ++ eof :: rest) = (⟨some 4, hello13 xid :: ms.flatMap answer, ()⟩, .finished) := by
  have hgw := hg.1
  have hf : feed (.seq [.int 4]) xid (exHandle rnd) ⟨none, [hello13 xid], ()⟩ (g :: ms) = (⟨some 4, hello13 xid :: ms.flatMap answer, ()⟩, none) := by
    obtain ⟨es, hp⟩ := greets_parse hg
    have hz : u8 g 1 = 0 := hg.2.2.1
    rw [feed, greets_message xid hx _ _ hg, intercept_handle _ _ hgw.1 (by omega)]
    simp only [exHandle, ex_answers rnd ⟨_, hp⟩ (by omega : u8 g 1 ≠ 2), answer_hello hz, List.append_nil]
    rw [ex_feed xid rnd ms hw h0 hr _ rfl]
    rfl
  obtain ⟨h1, h2⟩ := C01_framing_split_independent (g :: ms) tail evs
    (fun m hm => by rcases List.mem_cons.1 hm with rfl | hm; exacts [hgw, hw m hm]) ht hev hs n (by simpa using hn)
  unfold connection
  rw [hello13_eq xid hx]
  simp only
  refine ⟨?_, fun eof rest he => ?_⟩
  · rw [loop_feed, h2, hf]; rfl
  · rw [loop_feed, h1 eof rest he, hf]; rfl

/-- A request for echo, features, configuration or flows has exactly one answer, a reply of the right type with the id of the request. -/
theorem C92_reply (m : Bytes) (hw : WellFormed m) (ht : u8 m 1 = 2 ∨ u8 m 1 = 5 ∨ u8 m 1 = 7 ∨ (u8 m 1 = 18 ∧ u16 m 8 = 1)) :
    ∃ t r, requires m = some t ∧ answer m = [r] ∧ Agent.Replies m t r := by
  have ha := hw.2
  have h8 := hw.1
  rw [announced_eq_u16 m (by omega)] at ha
  have hl : m.length < 65536 := by rw [← ha]; have h2 := u8_lt m 2; have h3 := u8_lt m (2 + 1); unfold u16; omega
  have hx := u32_lt m 4
  have key : ∀ (t l : Nat) (b : Bytes), t < 256 → l < 65536 → 8 + b.length = l → (t = 19 → u16 (ofHeader 4 t l (u32 m 4) ++ b) 8 = u16 m 8) →
      Agent.Replies m t (ofHeader 4 t l (u32 m 4) ++ b) := by
    intro t l b h1 h2 h3 h4
    obtain ⟨e1, e2, e3, e4⟩ := Agent.ofHeader_fields h1 h2 hx b
    refine ⟨by simp, e1, e2, ?_, e4, h4⟩
    rw [e3, List.length_append, ofHeader_length, h3]
  rcases ht with h | h | h | ⟨h, h1⟩
  · exact ⟨3, _, by simp [requires, h], by simp only [answer, h, if_true], key 3 m.length (m.drop 8) (by omega) hl (by simp; omega) (by omega)⟩
  · exact ⟨6, _, by simp [requires, h], by simp [answer, h]; rfl, key 6 32 _ (by omega) (by omega) rfl (by omega)⟩
  · exact ⟨8, _, by simp [requires, h], by simp [answer, h]; rfl, key 8 12 _ (by omega) (by omega) rfl (by omega)⟩
  · refine ⟨19, _, by simp [requires, h], by simp [answer, h, h1]; rfl, key 19 112 _ (by omega) (by omega) rfl (fun _ => ?_)⟩
    rw [h1]
    simp [u16, u8, ofHeader, b8, be16, be32]

/-- Messages that ask for nothing get nothing. -/
theorem C92_silent (m : Bytes) (h : requires m = none) : answer m = [] := by
  unfold requires at h
  unfold answer
  split at h <;> simp_all

/-- Full statement: every request is answered.  A barrier request, a request for the role, for the masks of asynchronous messages or for queues, or a multipart request
for anything but flows is never answered, though the standard requires a reply. -/
theorem C92_unanswered_refuted (m : Bytes) (h : u8 m 1 = 20 ∨ u8 m 1 = 22 ∨ u8 m 1 = 24 ∨ u8 m 1 = 26 ∨ (u8 m 1 = 18 ∧ u16 m 8 ≠ 1)) :
    requires m ≠ none ∧ answer m = [] := by
  rcases h with h | h | h | h | ⟨h, h1⟩ <;> simp_all [requires, answer]

/-- Requests that the parser takes, and that `C92_partial` is about. -/
def exAsks : List Bytes := [[4, 20, 0, 8, 0, 0, 0, 1], [4, 26, 0, 8, 0, 0, 0, 1], [4, 22, 0, 16, 0, 0, 0, 1, 255, 255, 255, 255, 0, 0, 0, 0],
  [4, 18, 0, 16, 0, 0, 0, 1, 0, 13, 0, 0, 0, 0, 0, 0], [4, 5, 0, 8, 0, 0, 0, 2], [4, 7, 0, 8, 0, 0, 0, 3]]

example : ∀ m ∈ exAsks, WellFormed m ∧ u8 m 1 ≠ 0 ∧ Readable m := by
  have h : ∀ m ∈ exAsks, (8 ≤ m.length ∧ announced m = m.length) ∧ u8 m 1 ≠ 0 ∧ (Of13.parse m 0).toOption.isSome = true := by decide +kernel
  intro m hm
  obtain ⟨h1, h2, h3⟩ := h m hm
  refine ⟨h1, h2, ?_⟩
  cases hp : Of13.parse m 0 with
  | ok msg => exact ⟨msg, hp⟩
  | error e => rw [hp] at h3; cases h3

/-- A request for flows, built by the library. -/
example : ∃ m, Of13.buildMpRequest 1 (.raw (ofHeader 4 18 0 5)) 1 0 (.one (.flowStatsReq none none none none none none)) = .ok m ∧ WellFormed m ∧
    u8 m 1 = 18 ∧ u16 m 8 = 1 ∧ Readable m := by
  let m : Bytes := [4, 18, 0, 56, 0, 0, 0, 5, 0, 1, 0, 0, 0, 0, 0, 0, 255, 0, 0, 0, 255, 255, 255, 255, 255, 255, 255, 255, 0, 0, 0, 0,
    0, 0, 0, 0, 0, 0, 0, 0, 0, 0, 0, 0, 0, 0, 0, 0, 0, 1, 0, 4, 0, 0, 0, 0]
  have hb : Of13.buildMpRequest 1 (.raw (ofHeader 4 18 0 5)) 1 0 (.one (.flowStatsReq none none none none none none)) = .ok m := by decide +kernel
  exact ⟨m, hb, ⟨by decide, by decide⟩, by decide, by decide, _, Of13.mpRequest_one (r := .flowStatsReq none none none none none none) (by simp [Of13.Rec.requestTypes]) (Or.inl rfl) hb
    (by simpa using Of13.At.intro [] m [] 0 rfl)⟩

example : Greets 4 (hello13 9) := ⟨⟨by decide, by decide⟩, by decide, by decide, Or.inr (by decide)⟩

example : Greets 4 [4, 0, 0, 8, 0, 0, 0, 1] := ⟨⟨by decide, by decide⟩, by decide, by decide, Or.inl (by decide)⟩

/-! ## C93: a switch and a controller with a common version -/

/-- C93 for the handshake itself: whatever the highest version of the controller, if it speaks 1.3 both settle on 1.3. -/
theorem C93_agreed (xid : Nat) (hx : xid < 2 ^ 32) (v : Nat) (g : Bytes) (hg : Greets v g) (st : HsState) :
    ofRecv (.seq [.int 4]) xid st g = (⟨some 4, st.sent⟩, .ok g) := greets_recv hg xid hx st

/-- C93 for controllers whose highest version is 1.3: the greeting is handled without an exception, by the example and by the agent, and the version is 1.3 from then on.
Missing: controllers with higher versions (`C93_higher_refuted`). -/
theorem C93_partial (xid : Nat) (hx : xid < 2 ^ 32) (g : Bytes) (hg : Greets 4 g) (rnd : Nat) (s : Sess Unit) (o : Agent.Order) (t : Sess Agent.St) :
    message (.seq [.int 4]) xid (exHandle rnd) s g = ({ s with version := some 4 }, .ok ()) ∧
    message (.seq [.int 4]) xid (agentHandle o rnd) t g = ({ t with version := some 4 }, .ok ()) := by
  obtain ⟨es, hp⟩ := greets_parse hg
  have hz : u8 g 1 = 0 := hg.2.2.1
  constructor
  · rw [greets_message xid hx _ _ hg, intercept_handle _ _ hg.1.1 (by omega)]
    simp only [exHandle, ex_answers rnd ⟨_, hp⟩ (by omega : u8 g 1 ≠ 2), answer_hello hz, List.append_nil]
  · rw [greets_message xid hx _ _ hg, intercept_handle _ _ hg.1.1 (by omega)]
    have : Agent.switchProc o rnd t.user g = .ok (t.user, []) := by
      unfold Agent.switchProc
      rw [hp, Of13.ok_bind]
      unfold Agent.switchMsg
      simp [Agent.hdrOf, hz]
    simp only [agentHandle, this, List.filterMap_nil, List.append_nil]

/-- Full statement: also with a controller that speaks 1.3 and a higher version.  Its greeting says the higher version in the header, as the standard demands; both
sides settle on 1.3 (`C93_agreed`), but the handler gives the greeting to the parser of 1.3, which asserts that the version is 1.3.  The loop ends with AssertionError at
once: after hello neither switch ever sends anything, whatever the controller asks. -/
theorem C93_higher_refuted (xid rnd : Nat) (hx : xid < 2 ^ 32) (v : Nat) (hv : v ≠ 4) (g : Bytes) (hg : Greets v g) (ms : List Bytes)
    (hw : ∀ m ∈ ms, WellFormed m) (evs : List Ev) (hev : ∀ e ∈ evs, IsChunk e ∨ IsWait e) (hs : carried evs = (g :: ms).flatten) (n : Nat)
    (hn : ms.length + 1 < n) (o : Agent.Order) (st : Agent.St) :
    connection (.seq [.int 4]) xid (exHandle rnd) () n evs = (⟨some 4, [hello13 xid], ()⟩, .raised .assertion) ∧
    connection (.seq [.int 4]) xid (agentHandle o rnd) st n evs = (⟨some 4, [hello13 xid], st⟩, .raised .assertion) := by
  have hgw := hg.1
  have hz : u8 g 1 = 0 := hg.2.2.1
  have hp := not_readable hgw.1 (by rw [hg.2.1]; exact hv)
  obtain ⟨_, h2⟩ := C01_framing_split_independent (g :: ms) [] evs
    (fun m hm => by rcases List.mem_cons.1 hm with rfl | hm; exacts [hgw, hw m hm]) (by simp [Complete]) hev (by simpa using hs) n (by simpa using hn)
  unfold connection
  rw [hello13_eq xid hx]
  simp only
  constructor
  · have he : exProc rnd g = .error .assertion := by unfold exProc; rw [hp]; rfl
    rw [loop_feed, h2]
    simp only [feed, greets_message xid hx _ _ hg, intercept_handle _ _ hgw.1 (by omega : u8 g 1 ≠ 2), exHandle, he, List.append_nil, Option.getD_some]
  · have he : Agent.switchProc o rnd st g = .error .assertion := by unfold Agent.switchProc; rw [hp]; rfl
    rw [loop_feed, h2]
    simp only [feed, greets_message xid hx _ _ hg, intercept_handle _ _ hgw.1 (by omega : u8 g 1 ≠ 2), agentHandle, he, List.append_nil, Option.getD_some]

/-- The hello of a controller made with this library that accepts 1.3 and 1.4. -/
example : ∃ g, hello (.seq [.int 4, .int 5]) 7 = .ok g ∧ Greets 5 g := ⟨_, rfl, ⟨by decide, by decide⟩, by decide, by decide, Or.inr (by decide)⟩

end Twink.Session
