import Verif.Proof.Of14Messages
import Verif.Proof.Of13Refute

/-!
# What the OpenFlow 1.4 parser does not give back
-/

namespace Twink.Of14
open Fmt Of13 Spec

theorem action_filled {a : Action} (h : a.Aligned) : a.wire = a.filled := by
  cases a with
  | setField t l f => simp only [Action.wire, Action.filled]; rw [fill8_aligned h, up8_of_mod h]
  | experimenter t l x d =>
    have h' : (8 + d.length) % 8 = 0 := by have : d.length % 8 = 0 := h; omega
    simp only [Action.wire, Action.filled]; rw [fill8_aligned h', up8_of_mod h']
  | _ => rfl

theorem actions_filled {s : Seq Action} (h : s.All Action.Aligned) : s.values.map Action.wire = s.values.map Action.filled :=
  List.map_congr_left fun _ ha => action_filled (mem_values h ha)

theorem instr_filled {i : Instr} (h : i.Aligned) : i.wire = i.filled := by
  cases i with
  | actions t l s => simp only [Instr.wire, Instr.filled, wireActions]; rw [actions_filled h]
  | _ => rfl

theorem instrs_filled {s : Seq Instr} (h : s.All Instr.Aligned) : s.values.map Instr.wire = s.values.map Instr.filled :=
  List.map_congr_left fun _ ha => instr_filled (mem_values h ha)

theorem buckets_filled {s : Seq Bucket} (h : s.All (fun b => b.actions.All Action.Aligned)) :
    s.values.map Bucket.wire = s.values.map Bucket.filled :=
  List.map_congr_left fun b hb => by
    simp only [Bucket.wire, Bucket.filled, wireActions]
    rw [actions_filled (mem_values h hb)]

/-- If nothing can be fetched and something is left to fetch, the loop fails. -/
theorem whileFetch_never {fetch : Nat → Py (α × Nat)} {lim off : Nat} (hf : ∀ o r, fetch o ≠ .ok r) (hl : off < lim)
    (r : List α × Nat) : whileFetch fetch lim off ≠ .ok r := by
  intro h
  rw [whileFetch, if_pos hl] at h
  cases he : fetch off with
  | error e => rw [he] at h; simp at h
  | ok p => exact hf _ _ he

theorem listFetch_never {fetch : Nat → Py (α × Nat)} {lim off : Nat} (hf : ∀ o r, fetch o ≠ .ok r) (hl : off < lim)
    (r : List α × Nat) : listFetch fetch lim off ≠ .ok r := by
  intro h
  simp only [listFetch, bind_ok] at h
  obtain ⟨a, h1, _⟩ := h
  exact whileFetch_never hf hl _ h1

/-- What holds of everything that can be fetched holds of the list. -/
theorem whileFetch_all {fetch : Nat → Py (α × Nat)} {P : α → Prop} (hf : ∀ o a o', fetch o = .ok (a, o') → P a) {lim off r}
    (h : whileFetch fetch lim off = .ok r) : ∀ a ∈ r.1, P a := by
  induction hk : lim - off using Nat.strong_induction_on generalizing off r with
  | _ k ih =>
    rw [whileFetch] at h
    split at h
    · cases he : fetch off with
      | error e => rw [he] at h; simp at h
      | ok ao =>
        obtain ⟨a, o'⟩ := ao
        rw [he] at h
        simp only at h
        split at h
        · cases hw : whileFetch fetch lim o' with
          | error e => rw [hw] at h; simp at h
          | ok r' =>
            rw [hw] at h
            simp only [ok_inj] at h
            subst h
            intro b hb
            rcases List.mem_cons.1 hb with rfl | hb
            · exact hf _ _ _ he
            · exact ih (lim - o') (by omega) hw rfl b hb
        · simp at h
    · simp only [ok_inj] at h; subst h; simp

/-- Concatenating the bytes of a non-empty list of records, each of which has bytes, gives bytes. -/
theorem join_pos {build : α → Py Bytes} {l : List α} {bs : Bytes} (hne : l ≠ []) (hc : ∀ a b, build a = .ok b → 0 < b.length)
    (h : join build (l.map .tup) = .ok bs) : 0 < bs.length := by
  cases l with
  | nil => exact absurd rfl hne
  | cons a l =>
    rw [List.map_cons, join_ok_cons] at h
    obtain ⟨b, bs', h1, h2, rfl⟩ := h
    have h3 := hc a b h1
    rw [List.length_append]; omega

theorem tableStats_never (m : Bytes) (o : Nat) (r : Rec × Nat) : parseTableStats m o ≠ .ok r := by
  simp [parseTableStats, bind_ok]

theorem tableDesc_never (m : Bytes) (o : Nat) (r : Rec × Nat) : parseTableDesc m o ≠ .ok r := by
  simp [parseTableDesc, bind_ok]

theorem portStats_never (m : Bytes) (o : Nat) (r : Rec × Nat) : parsePortStats m o ≠ .ok r := by
  simp [parsePortStats, bind_ok]

theorem queueStats_never (m : Bytes) (o : Nat) (r : Rec × Nat) : parseQueueStats m o ≠ .ok r := by
  simp [parseQueueStats, bind_ok]

theorem portRec_prop (m : Bytes) (o : Nat) (a : Rec) (o' : Nat) (h : parsePortRec m o = .ok (a, o')) : ∃ p, a = .prop p := by
  simp only [parsePortRec, bind_ok, ok_inj, Prod.mk.injEq] at h
  obtain ⟨⟨p, o2⟩, _, rfl, _⟩ := h
  exact ⟨p, rfl⟩

/-- Parsing succeeds with what `parseAt` gives. -/
theorem parse_of {m n msg o} (h : parseAt m n = .ok (msg, o)) : parse m n = .ok msg := by
  rw [parse, h]; rfl

theorem parse_ok {m n msg} (h : parse m n = .ok msg) : ∃ o, parseAt m n = .ok (msg, o) := by
  simp only [parse, bind_ok, ok_inj] at h
  obtain ⟨⟨a, o⟩, h1, rfl⟩ := h
  exact ⟨o, h1⟩

theorem parse_error {m n e} (h : parseAt m n = .error e) : parse m n = .error e := by
  rw [parse, h]; rfl

/-- Replies with records that cannot be parsed. -/
theorem mpReply_never {rnd h t f bs} {l : List Rec} (hne : l ≠ []) (ht : t ∈ [3, 4, 5]) (hl : ∀ r ∈ l, r.replyType = some t)
    (hb : buildMpReply rnd h t f (.many (l.map .tup)) = .ok bs) (pre post : Bytes) (msg : Msg) :
    parse (pre ++ (bs ++ post)) pre.length ≠ .ok msg := by
  intro hp
  obtain ⟨o, hp⟩ := parse_ok hp
  obtain ⟨b, h1, h3, h4⟩ := mpReply_at hb
  have e1 : repBody t (.many (l.map .tup)) = join buildRec (l.map .tup) := by
    simp only [List.mem_cons, List.not_mem_nil, or_false] at ht
    rcases ht with rfl | rfl | rfl <;> rfl
  rw [e1] at h1
  have hpos : 0 < b.length := by
    cases l with
    | nil => exact absurd rfl hne
    | cons a l =>
      rw [List.map_cons, join_ok_cons] at h1
      obtain ⟨b1, bs', h5, h6, rfl⟩ := h1
      have ha := hl a (by simp)
      have h5 : buildRec a = .ok b1 := h5
      simp only [List.mem_cons, List.not_mem_nil, or_false] at ht
      rw [List.length_append]
      have : 0 < b1.length := by
        rcases ht with rfl | rfl | rfl <;> cases a <;> simp [Rec.replyType] at ha <;>
          simp only [buildRec, bind_ok, pack_eq_ok, pyAssert_ok, ok_inj, exists_const] at h5
        · obtain ⟨_, ⟨hf, rfl⟩, _, rfl⟩ := h5
          rw [enc_length _ _ hf]; decide
        · obtain ⟨_, _, _, ⟨hf, rfl⟩, rfl⟩ := h5
          rw [List.length_append, enc_length _ _ hf]
          have : calcsize portStatsFmt = 80 := rfl
          omega
        · obtain ⟨_, _, _, ⟨hf, rfl⟩, rfl⟩ := h5
          rw [List.length_append, enc_length _ _ hf]
          have : calcsize queueStatsFmt = 48 := rfl
          omega
      omega
  obtain ⟨_, h5⟩ := h4 (pre ++ (bs ++ post)) pre.length (At.intro pre bs post _ rfl)
  rw [h5] at hp
  simp only [bind_ok] at hp
  obtain ⟨bd, h6, _⟩ := hp
  simp only [List.mem_cons, List.not_mem_nil, or_false] at ht
  rcases ht with rfl | rfl | rfl
  · have h6 : several (listFetch (parseTableStats (pre ++ (bs ++ post))) _ _) = .ok bd := h6
    simp only [several, bind_ok] at h6
    obtain ⟨r, h7, _⟩ := h6
    exact listFetch_never (tableStats_never _) (by omega) _ h7
  · have h6 : several (listFetch (parsePortStats (pre ++ (bs ++ post))) _ _) = .ok bd := h6
    simp only [several, bind_ok] at h6
    obtain ⟨r, h7, _⟩ := h6
    exact listFetch_never (portStats_never _) (by omega) _ h7
  · have h6 : several (listFetch (parseQueueStats (pre ++ (bs ++ post))) _ _) = .ok bd := h6
    simp only [several, bind_ok] at h6
    obtain ⟨r, h7, _⟩ := h6
    exact listFetch_never (queueStats_never _) (by omega) _ h7

/-- Replies with port descriptions come back with properties, never with ports. -/
theorem mpReply_ports {rnd h f bs} {body : Body} (hb : buildMpReply rnd h 13 f body = .ok bs) (pre post : Bytes) {msg : Msg}
    (hp : parse (pre ++ (bs ++ post)) pre.length = .ok msg) :
    ∃ ps : List Pr, msg = .mpReply ⟨5, 19, bs.length, h.xid rnd⟩ 13 f (.many (ps.map fun p => .tup (.prop p))) := by
  obtain ⟨o, hp⟩ := parse_ok hp
  obtain ⟨b, h1, h3, h4⟩ := mpReply_at hb
  obtain ⟨_, h5⟩ := h4 (pre ++ (bs ++ post)) pre.length (At.intro pre bs post _ rfl)
  rw [h5] at hp
  simp only [bind_ok, ok_inj, Prod.mk.injEq] at hp
  obtain ⟨bd, h6, rfl, _⟩ := hp
  have h6 : several (listFetch (parsePortRec (pre ++ (bs ++ post))) _ _) = .ok bd := h6
  simp only [several, listFetch, bind_ok, pyAssert_ok, ok_inj, exists_const] at h6
  obtain ⟨r, ⟨r', h7, _, rfl⟩, rfl⟩ := h6
  have h8 := whileFetch_all (portRec_prop _) h7
  have key : ∀ l : List Rec, (∀ a ∈ l, ∃ p, a = .prop p) → ∃ ps : List Pr, l.map Elem.tup = ps.map fun p => .tup (.prop p) := by
    intro l hl
    induction l with
    | nil => exact ⟨[], rfl⟩
    | cons a l ih =>
      obtain ⟨p, rfl⟩ := hl a (by simp)
      obtain ⟨ps, hps⟩ := ih fun a ha => hl a (by simp [ha])
      exact ⟨p :: ps, by rw [List.map_cons, List.map_cons, hps]⟩
  obtain ⟨ps, hps⟩ := key _ h8
  exact ⟨ps, by rw [← hps]⟩

/-- A meter modification whose header gives no length comes back without bands. -/
theorem meterMod_short {rnd v x c f mt bd bs} (hb : buildMeterMod rnd (.tup v (some 29) none x) c f mt bd = .ok bs) {m n}
    (hm : At m n bs) : parseAt m n = .ok (.meterMod ⟨5, 29, 8, x.getD rnd⟩ c f mt [], n + 16) := by
  simp only [buildMeterMod, bind_ok, pack_eq_ok, ok_inj] at hb
  obtain ⟨kb, hkb, hd, hhd, _, ⟨hf, rfl⟩, rfl⟩ := hb
  have hf2 : fits [H, H, I] [.int c, .int f, .int mt] = true := by simpa [fits] using hf
  obtain ⟨t', ht, h1, rfl⟩ := ofpHeader_ok hhd
  injection ht with ht; subst ht
  have h1 : fits hdrFmt [.int 5, .int 29, .int 8, .int (x.getD rnd)] = true := h1
  have he : enc [S 8, H, H, I] [.str (enc hdrFmt [.int 5, .int 29, .int 8, .int (x.getD rnd)]), .int c, .int f, .int mt] =
      enc hdrFmt [.int 5, .int 29, .int 8, .int (x.getD rnd)] ++ enc [H, H, I] [.int c, .int f, .int mt] := by
    show padTo 8 _ ++ _ = _
    rw [padTo_eq 8 _ (by rw [hdr_length])]
  simp only [Option.getD_none] at hm
  rw [he, List.append_assoc] at hm
  have hh : parseHdr m n = .ok (⟨5, 29, 8, x.getD rnd⟩, n + 8) := by
    rw [parseHdr, rd_at hm.left h1 (by simp [exact, hdrFmt]) (four Hdr.mk) ⟨5, 29, 8, x.getD rnd⟩ rfl, ok_bind, pyAssert_true rfl]
    rfl
  rw [parseAt_of hh]
  show parseMeterMod m n = _
  rw [parseMeterMod, hh, ok_bind]
  refine (rd_bind (hm.right (n + 8) (by rw [hdr_length])).left hf2 (by simp [exact]) (by rfl)).trans ?_
  have hc : calcsize [H, H, I] = 8 := rfl
  simp only [hc]
  rw [whileFetch, if_neg (by omega), ok_bind]

end Twink.Of14
