import Verif.Proof.Wired

/-!
# The two switches of the project as handlers
-/

namespace Twink.Wired
open Session Spec Fmt Of13

theorem final_of_type {r : Bytes} {t : Nat} (h0 : u8 r 0 = 4) (h1 : u8 r 1 = t) (h : t = 19 → 12 ≤ r.length ∧ u16 r 10 % 2 = 0) : IsFinal r := by
  intro hm
  unfold IsMultipartRep at hm
  rw [h0] at hm
  exact h (h1 ▸ hm)

theorem answer_answers {m : Bytes} (hw : WellFormed m) : answer m = [] ∨ ∃ r, answer m = [r] ∧ Answers m r ∧ u8 r 1 ≠ 21 := by
  by_cases ht : u8 m 1 = 2 ∨ u8 m 1 = 5 ∨ u8 m 1 = 7 ∨ (u8 m 1 = 18 ∧ u16 m 8 = 1)
  · obtain ⟨t, r, h1, h2, h3⟩ := C92_reply m hw ht
    have hne : t ≠ 21 := by
      rcases ht with h | h | h | ⟨h, _⟩ <;> (simp [requires, h] at h1; omega)
    refine .inr ⟨r, h2, ⟨t, h1, h3, final_of_type h3.2.1 h3.2.2.1 fun h19 => ?_⟩, by rw [h3.2.2.1]; exact hne⟩
    have h18 : u8 m 1 = 18 ∧ u16 m 8 = 1 := by
      rcases ht with h | h | h | h
      · simp [requires, h] at h1; omega
      · simp [requires, h] at h1; omega
      · simp [requires, h] at h1; omega
      · exact h
    simp only [answer, h18] at h2
    simp at h2
    subst h2
    constructor
    · simp
      omega
    · simp [u16, u8, ofHeader, b8, be16, be32]
  · left
    unfold answer
    rw [if_neg (fun h => ht (.inl h)), if_neg (fun h => ht (.inr (.inl h))), if_neg (fun h => ht (.inr (.inr (.inl h)))),
      if_neg (fun h => ht (.inr (.inr (.inr h))))]

/-- The example switch. -/
theorem ex_polite (rnd : Nat) : Polite (exHandle rnd) := by
  intro u m hw h0 h2
  unfold exHandle
  cases hp : exProc rnd m with
  | error e => exact .inl rfl
  | ok bs =>
    have hr : Readable m := by
      unfold exProc at hp
      simp only [bind_ok] at hp
      obtain ⟨msg, hm, _⟩ := hp
      exact ⟨msg, hm⟩
    rw [ex_answers rnd hr h2] at hp
    injection hp with hp
    subst hp
    exact answer_answers hw

theorem mpReply_flags {rnd : Nat} {h : HdrArg} {type : Nat} {b : Body} {r : Bytes} (hr : buildMpReply rnd h type 0 b = .ok r) :
    16 ≤ r.length ∧ u16 r 10 = 0 := by
  simp only [buildMpReply, bind_ok, pack_eq_ok] at hr
  obtain ⟨bb, _, d, ⟨hf, rfl⟩, hr⟩ := hr
  obtain ⟨_, rfl⟩ := ofp_one hr
  have hl := hdr_length 4 19 (8 + (enc [H, H, X 4] [.int type, .int 0] ++ bb).length) (h.xid rnd)
  generalize enc hdrFmt [.int 4, .int 19, .int (8 + (enc [H, H, X 4] [.int type, .int 0] ++ bb).length), .int (h.xid rnd)] = hd at hl
  have := u16_eq_decBE (hd ++ encBE 2 type) (List.replicate 4 0 ++ bb) 10 (by simp [hl, encBE_length]) 0 (by omega)
  constructor
  · simp [hl, enc, encBE_length]; omega
  · simpa [enc] using this

/-- What the agent sends is a whole reply. -/
theorem agent_final {o : Agent.Order} {rnd : Nat} {st st' : Agent.St} {m r : Bytes} {t : Nat} (h : Agent.switchProc o rnd st m = .ok (st', [.send r]))
    (hr : Agent.Replies m t r) : IsFinal r := by
  refine final_of_type hr.2.1 hr.2.2.1 fun h19 => ?_
  simp only [Agent.switchProc, bind_ok] at h
  obtain ⟨msg, hp, h⟩ := h
  obtain ⟨_, _, hh, _⟩ := Agent.parse_hdr hp
  have h1 := hr.2.2.1
  have hx := u32_lt m 4
  generalize hes : ([.send r] : List Agent.Eff) = es at h
  cases Agent.does_of h with
  | features _ hd r' h5 h6 h7 =>
    simp only [List.cons.injEq, and_true, Agent.Eff.send.injEq] at hes; subst hes
    have := Agent.reply_fields (c := .features 1 2 3 0 0xf) h6 h7
    rw [this.2.2.1] at h1
    omega
  | config _ hd r' h5 h6 h7 =>
    simp only [List.cons.injEq, and_true, Agent.Eff.send.injEq] at hes; subst hes
    have := Agent.reply_fields (c := .config 0 (some 0xffe5)) h6 h7
    rw [this.2.2.1] at h1
    omega
  | role hd0 a g hd r' h5 h6 h7 =>
    simp only [List.cons.injEq, and_true, Agent.Eff.send.injEq] at hes; subst hes
    have := Agent.reply_fields (c := .role a g) h6 h7
    rw [this.2.2.1] at h1
    omega
  | answer hd0 type fl bd body hd r' h5 hb h6 h7 =>
    simp only [List.cons.injEq, and_true, Agent.Eff.send.injEq] at hes; subst hes
    obtain ⟨g1, g2⟩ := mpReply_flags h7
    omega
  | packet hd0 b i l as d es' h5 hp' =>
    subst hes
    simp only [Agent.packetOutStep, bind_ok] at hp'
    obtain ⟨n, _, hp'⟩ := hp'
    split at hp'
    · cases hp'
    · split at hp' <;> simp at hp'
  | _ => simp at hes

theorem replyType_requires {m : Bytes} {t : Nat} (h : Agent.replyType m = some t) : requires m = some t ∧ t ≠ 21 := by
  unfold Agent.replyType at h
  by_cases h5 : u8 m 1 = 5
  · simp [h5] at h; subst h; simp [requires, h5]
  rw [if_neg h5] at h
  by_cases h7 : u8 m 1 = 7
  · simp [h7] at h; subst h; simp [requires, h7]
  rw [if_neg h7] at h
  by_cases h24 : u8 m 1 = 24
  · simp [h24] at h; subst h; simp [requires, h24]
  rw [if_neg h24] at h
  split at h
  · rename_i h18
    injection h with h; subst h; simp [requires, h18.1]
  · simp at h

/-- The software switch. -/
theorem agent_polite (o : Agent.Order) (rnd : Nat) : Polite (agentHandle o rnd) := by
  intro u m hw h0 h2
  unfold agentHandle
  cases hp : Agent.switchProc o rnd u m with
  | error e => exact .inl rfl
  | ok res =>
    obtain ⟨st', es⟩ := res
    obtain ⟨h1, h3⟩ := Agent.C50_answers_partial o rnd u st' m es hp
    cases ht : Agent.replyType m with
    | none =>
      left
      simp only [List.filterMap_eq_nil_iff]
      intro e he
      cases e with
      | send r => exact absurd he (h3 ht r)
      | out a b => rfl
    | some t =>
      obtain ⟨rfl, r, rfl, hr⟩ := h1 t ht
      obtain ⟨g1, g2⟩ := replyType_requires ht
      exact .inr ⟨r, rfl, ⟨t, g1, hr, agent_final hp hr⟩, by rw [hr.2.2.1]; exact g2⟩

end Twink.Wired
