import Verif.Model.Helper
import Verif.Spec.Helper
import Verif.Props.Controller

/-!
# C81: socket files of jack-in and monitor servers
-/

namespace Twink.Helper
open Spec

theorem digit_inj : ∀ a < 16, ∀ b < 16, Nat.digitChar a = Nat.digitChar b → a = b := by decide

theorem digit_hex : ∀ a < 16, Nat.digitChar a ≠ '-' ∧ Nat.digitChar a ≠ '.' ∧ Nat.digitChar a ≠ 'u' := by decide

theorem hex_chars (n : Nat) : ∀ c ∈ Nat.toDigits 16 n, c ≠ '-' ∧ c ≠ '.' ∧ c ≠ 'u' := by
  induction n using Nat.strongRecOn with
  | ind n ih =>
    rw [Nat.toDigits_eq_if (by decide)]
    split
    · rename_i h
      intro c hc
      simp only [List.mem_singleton] at hc
      subst hc; exact digit_hex n h
    · rename_i h
      intro c hc
      simp only [List.mem_append, List.mem_singleton] at hc
      rcases hc with hc | rfl
      · exact ih (n / 16) (by omega) c hc
      · exact digit_hex _ (by omega)

theorem hex_inj (a : Nat) : ∀ b, Nat.toDigits 16 a = Nat.toDigits 16 b → a = b := by
  induction a using Nat.strongRecOn with
  | ind a ih =>
    intro b h
    rw [Nat.toDigits_eq_if (by decide) (n := a), Nat.toDigits_eq_if (by decide) (n := b)] at h
    have hne : ∀ n, Nat.toDigits 16 n ≠ [] := fun n => Nat.toDigits_ne_nil
    split at h <;> split at h
    · rename_i h1 h2
      simp only [List.cons.injEq, and_true] at h
      exact digit_inj a h1 b h2 h
    · exfalso
      have := congrArg List.length h
      have h3 := List.length_pos_iff.2 (hne (b / 16))
      simp at this
    · exfalso
      have := congrArg List.length h
      have h3 := List.length_pos_iff.2 (hne (a / 16))
      simp at this
    · rename_i h1 h2
      have h3 := List.append_inj' h rfl
      have h4 := ih (a / 16) (by omega) (b / 16) h3.1
      have h5 := digit_inj (a % 16) (by omega) (b % 16) (by omega) (by simpa using h3.2)
      omega

theorem cut_inj {x : Char} : ∀ {a b r s : Text}, x ∉ a → x ∉ b → a ++ x :: r = b ++ x :: s → a = b ∧ r = s
  | [], [], _, _, _, _, h => by simpa using h
  | [], c :: b, _, _, _, hb, h => by simp at h hb; exact (hb.1 h.1).elim
  | c :: a, [], _, _, ha, _, h => by simp at h ha; exact (ha.1 h.1.symm).elim
  | c :: a, d :: b, _, _, ha, hb, h => by
    simp only [List.cons_append, List.cons.injEq] at h
    simp only [List.mem_cons, not_or] at ha hb
    obtain ⟨h1, h2⟩ := cut_inj ha.2 hb.2 h.2
    rw [h.1, h1]; exact ⟨rfl, h2⟩

theorem fst_chars (d : Nat) : '-' ∉ (if d = 0 then "unknown".toList else Nat.toDigits 16 d) := by
  split
  · decide
  · exact fun h => (hex_chars d _ h).1 rfl

/-- C81. The name of a file determines datapath, channel and kind: no two channels that exist at the same time share a file. -/
theorem C81_names {d d' id id' : Nat} {k k' : Kind} (h : fileName d id k = fileName d' id' k') : d = d' ∧ id = id' ∧ k = k' := by
  unfold fileName at h
  obtain ⟨h1, h2⟩ := cut_inj (fst_chars d) (fst_chars d') h
  obtain ⟨h3, h4⟩ := cut_inj (fun h => (hex_chars id _ h).2.1 rfl) (fun h => (hex_chars id' _ h).2.1 rfl) h2
  refine ⟨?_, hex_inj _ _ h3, ?_⟩
  · have hu : ∀ n, "unknown".toList ≠ Nat.toDigits 16 n := by
      intro n e
      have : 'u' ∈ Nat.toDigits 16 n := by rw [← e]; decide
      exact (hex_chars n _ this).2.2 rfl
    split at h1 <;> split at h1
    · omega
    · exact (hu _ h1).elim
    · exact (hu _ h1.symm).elim
    · exact hex_inj _ _ h1
  · cases k <;> cases k' <;> first | rfl | (simp [Kind.text] at h4)

theorem oldName_eq (id : Nat) (k : Kind) : oldName id k = fileName 0 id k := rfl
theorem newName_eq {d : Nat} (hd : d ≠ 0) (id : Nat) (k : Kind) : newName d id k = fileName d id k := by
  unfold newName fileName hex; rw [if_neg hd]

/-- The datapath that names files: 0 for `None`. -/
def cur (s : St) : Nat := s.features.datapath.getD 0

theorem helperPath_eq (c : Conf) (k : Kind) (s : St) :
    (helperPath c k s).2 = fileName (cur s) c.id k ∧ (helperPath c k s).1.features = s.features ∧ (helperPath c k s).1.up = s.up ∧
    (helperPath c k s).1.files = if cur s = 0 then s.files else rename s.files (fileName 0 c.id k) (fileName (cur s) c.id k) := by
  unfold helperPath cur
  cases hd : s.features.datapath with
  | none => exact ⟨rfl, rfl, rfl, rfl⟩
  | some d =>
    simp only [Option.getD_some]
    by_cases h0 : d = 0
    · subst h0; exact ⟨rfl, rfl, rfl, rfl⟩
    · rw [if_neg h0, if_neg h0]
      exact ⟨newName_eq h0 _ _, rfl, rfl, by rw [newName_eq h0]; rfl⟩

/-- Files of kind `k`: one, named after `e`, if the server is up. -/
def Has (c : Conf) (s : St) (k : Kind) (e : Nat) : Prop := ∀ d, s.files (fileName d c.id k) = (s.up k && decide (d = e))

theorem helper_has {c : Conf} {k : Kind} {s : St} {e : Nat} (h : Has c s k e) (he : e = 0 ∨ e = cur s) :
    Has c (helperPath c k s).1 k (cur s) := by
  obtain ⟨_, _, h3, h4⟩ := helperPath_eq c k s
  intro d
  rw [h4, h3]
  split
  · rename_i h0
    have : e = cur s := by omega
    rw [h d, this]
  · rename_i h0
    rw [rename, h 0]
    split
    · rename_i hu
      simp only [Bool.and_eq_true, decide_eq_true_eq] at hu
      simp only
      by_cases hd : d = cur s
      · subst hd; simp [hu.1]
      · rw [if_neg (fun e' => hd (C81_names e').1)]
        split
        · simp [hd]
        · rename_i hne
          have : d ≠ 0 := fun e' => hne (by rw [e'])
          rw [h d]; simp [hd]; omega
    · rename_i hu
      rw [h d]
      rcases he with rfl | rfl
      · cases hup : s.up k <;> simp [hup] at hu ⊢
      · rfl

theorem helper_frame (c : Conf) (k : Kind) (s : St) (p : Text) (hp : ∀ d, p ≠ fileName d c.id k) : (helperPath c k s).1.files p = s.files p := by
  obtain ⟨_, _, _, h4⟩ := helperPath_eq c k s
  rw [h4]
  split
  · rfl
  · unfold rename
    split
    · simp only [if_neg (hp _)]
    · rfl

theorem helper_other {c : Conf} {k j : Kind} {s : St} {e : Nat} (hk : j ≠ k) (h : Has c s j e) : Has c (helperPath c k s).1 j e := by
  intro d
  rw [helper_frame c k s _ (fun d' e' => hk (C81_names e').2.2), (helperPath_eq c k s).2.2.1]
  exact h d

/-- Between messages: files are named after the current datapath, servers are up only if enabled. -/
structure Inv (c : Conf) (s : St) : Prop where
  has : ∀ k, Has c s k (cur s)
  on : ∀ k, s.up k = true → c.on k = true

theorem cur_helper (c : Conf) (k : Kind) (s : St) : cur (helperPath c k s).1 = cur s := by
  unfold cur; rw [(helperPath_eq c k s).2.1]

theorem start_inv {c : Conf} {k : Kind} {s : St} (h : Inv c s) : Inv c (startServer c k s).1 ∧ (startServer c k s).1.features = s.features := by
  unfold startServer
  split
  · rename_i hon
    obtain ⟨h1, h2, h3, _⟩ := helperPath_eq c k s
    have hh : Inv c (helperPath c k s).1 := by
      refine ⟨fun j => ?_, fun j hj => h.on j (by rwa [h3] at hj)⟩
      rw [cur_helper]
      by_cases hj : j = k
      · subst hj; exact helper_has (h.has j) (.inr rfl)
      · exact helper_other hj (h.has j)
    unfold bindServer
    split
    · rename_i heq
      split at heq
      · simp at heq
      · rename_i hex
        simp only [Prod.mk.injEq, and_true] at heq
        subst heq
        have hk : (helperPath c k s).1.up k = false := by
          have := hh.has k (cur s)
          rw [h1] at hex
          rw [cur_helper] at this
          rw [this] at hex
          simpa using hex
        refine ⟨⟨fun j d => ?_, fun j hj => ?_⟩, h2⟩
        · show (if fileName d c.id j = (helperPath c k s).2 then true else (helperPath c k s).1.files (fileName d c.id j)) = _
          rw [h1]
          show _ = ((if j = k then true else (helperPath c k s).1.up j) && decide (d = cur (helperPath c k s).1))
          rw [cur_helper]
          have := hh.has j d
          rw [cur_helper] at this
          by_cases hj : j = k
          · subst hj
            by_cases hd : d = cur s
            · subst hd; simp
            · rw [if_neg (fun e => hd (C81_names e).1), this, hk]; simp [hd]
          · rw [if_neg (fun e => hj (C81_names e).2.2), this, if_neg hj]
        · have : (if j = k then true else (helperPath c k s).1.up j) = true := hj
          by_cases hj' : j = k
          · subst hj'; exact hon
          · rw [if_neg hj'] at this; exact hh.on j this
    · rename_i heq
      split at heq
      · simp only [Prod.mk.injEq] at heq
        obtain ⟨rfl, _⟩ := heq
        exact ⟨hh, h2⟩
      · simp at heq
  · exact ⟨h, rfl⟩

theorem start_frame (c : Conf) (k : Kind) (s : St) (p : Text) (hp : ∀ d, p ≠ fileName d c.id k) : (startServer c k s).1.files p = s.files p := by
  unfold startServer
  split
  · unfold bindServer
    have h1 := (helperPath_eq c k s).1
    split
    · rename_i heq
      split at heq
      · simp at heq
      · simp only [Prod.mk.injEq, and_true] at heq
        subst heq
        show (if p = (helperPath c k s).2 then true else _) = _
        rw [h1, if_neg (hp _), helper_frame c k s p hp]
    · rename_i heq
      split at heq
      · simp only [Prod.mk.injEq] at heq
        obtain ⟨rfl, _⟩ := heq
        exact helper_frame c k s p hp
      · simp at heq
  · rfl

theorem starts_inv {c : Conf} {s : St} (h : Inv c s) : Inv c (startServers c s).1 ∧ (startServers c s).1.features = s.features := by
  unfold startServers
  have h1 := start_inv (k := .jackin) h
  split
  · rename_i s' heq
    rw [heq] at h1
    have h2 := start_inv (k := .monitor) h1.1
    exact ⟨h2.1, h2.2.trans h1.2⟩
  · rename_i s' e heq
    rw [heq] at h1
    exact h1

open Fmt in
theorem features_old (st : Features) (m : Bytes) (h6 : u8 m 1 = 6) :
    (∃ ft, (match unpackFrom [Q] m 8 with
      | .ok [.int d] => (({ st with datapath := some d } : Features), (.ok m : Py Bytes))
      | .ok _ => (st, .error .valueError)
      | .error e => (st, .error e)) = (ft, .ok m) ∧ ((u8 m 1 ≠ 6 ∧ ft = st) ∨ (u8 m 1 = 6 ∧ ft.datapath = some (u64 m 8)))) ∨
    ∃ e, (match unpackFrom [Q] m 8 with
      | .ok [.int d] => (({ st with datapath := some d } : Features), (.ok m : Py Bytes))
      | .ok _ => (st, .error .valueError)
      | .error e => (st, .error e)) = (st, .error e) := by
  by_cases h16 : 16 ≤ m.length
  · have hQ : unpackFrom [Fmt.Q] m 8 = .ok [.int (u64 m 8)] := by
      rw [unpackFrom, if_pos (by simp [calcsize, Item.width]; omega)]
      simp only [dec, decBE_u64 m 8 (by omega)]
    rw [hQ]
    exact .inl ⟨_, rfl, .inr ⟨h6, rfl⟩⟩
  · have hQ : unpackFrom [Fmt.Q] m 8 = .error .structError := by
      rw [unpackFrom, if_neg (by simp [calcsize, Item.width]; omega)]
    rw [hQ]
    exact .inr ⟨_, rfl⟩

open Fmt in
theorem features_new (st : Features) (m : Bytes) (h6 : u8 m 1 = 6) :
    (∃ ft, (match unpackFrom [Q, I, B, B] m 8 with
      | .ok [.int d, .int _, .int _, .int a] => ((⟨some d, some a⟩ : Features), (.ok m : Py Bytes))
      | .ok _ => (st, .error .valueError)
      | .error e => (st, .error e)) = (ft, .ok m) ∧ ((u8 m 1 ≠ 6 ∧ ft = st) ∨ (u8 m 1 = 6 ∧ ft.datapath = some (u64 m 8)))) ∨
    ∃ e, (match unpackFrom [Q, I, B, B] m 8 with
      | .ok [.int d, .int _, .int _, .int a] => ((⟨some d, some a⟩ : Features), (.ok m : Py Bytes))
      | .ok _ => (st, .error .valueError)
      | .error e => (st, .error e)) = (st, .error e) := by
  by_cases h22 : 22 ≤ m.length
  · have hF : unpackFrom [Fmt.Q, Fmt.I, Fmt.B, Fmt.B] m 8 =
        .ok [.int (u64 m 8), .int (u32 m 16), .int (u8 m 20), .int (u8 m 21)] := by
      rw [unpackFrom, if_pos (by simp [calcsize, Item.width]; omega)]
      simp only [dec, List.drop_drop, Nat.reduceAdd, decBE_u64 m 8 (by omega), decBE_u32 m 16 (by omega),
        decBE_u8 m 20 (by omega), decBE_u8 m 21 (by omega)]
    rw [hF]
    exact .inl ⟨_, rfl, .inr ⟨h6, rfl⟩⟩
  · have hF : unpackFrom [Fmt.Q, Fmt.I, Fmt.B, Fmt.B] m 8 = .error .structError := by
      rw [unpackFrom, if_neg (by simp [calcsize, Item.width]; omega)]
    rw [hF]
    exact .inr ⟨_, rfl⟩

theorem features_cases (version : Option Nat) (st : Features) (m : Bytes) :
    (∃ ft, featuresRecv version st m = (ft, .ok m) ∧ ((u8 m 1 ≠ 6 ∧ ft = st) ∨ (u8 m 1 = 6 ∧ ft.datapath = some (u64 m 8)))) ∨
    ∃ e, featuresRecv version st m = (st, .error e) := by
  unfold featuresRecv
  split
  · rename_i h; subst h; exact .inl ⟨st, rfl, .inl ⟨by decide, rfl⟩⟩
  · by_cases h8 : 8 ≤ m.length
    · rw [parseHeader_fields m h8]
      simp only
      by_cases h6 : u8 m 1 = 6
      · rw [if_pos h6]
        cases version with
        | none => exact features_old st m h6
        | some v =>
          simp only
          by_cases hv : v < 4
          · simp only [hv, decide_true, if_true]; exact features_old st m h6
          · simp only [hv, decide_false, Bool.false_eq_true, if_false]; exact features_new st m h6
      · rw [if_neg h6]
        exact .inl ⟨st, rfl, .inl ⟨h6, rfl⟩⟩
    · rw [parseHeader_short m (by omega)]
      exact .inr ⟨_, rfl⟩

theorem touch_up (c : Conf) (k : Kind) (s : St) : (touch c k s).up = s.up ∧ (touch c k s).features = s.features ∧ cur (touch c k s) = cur s := by
  unfold touch
  split
  · obtain ⟨_, h2, h3, _⟩ := helperPath_eq c k s
    exact ⟨h3, h2, cur_helper c k s⟩
  · exact ⟨rfl, rfl, rfl⟩

theorem touch_has {c : Conf} {k : Kind} {s : St} {e : Nat} (h : Has c s k e) (he : e = 0 ∨ e = cur s) (hon : s.up k = true → c.on k = true) :
    Has c (touch c k s) k (cur s) := by
  unfold touch
  split
  · exact helper_has h he
  · rename_i hn
    have hu : s.up k = false := by cases hu : s.up k with
      | false => rfl
      | true => exact (hn (hon hu)).elim
    intro d; rw [h d, hu]; simp

theorem touch_other {c : Conf} {k j : Kind} {s : St} {e : Nat} (hk : j ≠ k) (h : Has c s j e) : Has c (touch c k s) j e := by
  unfold touch
  split
  · exact helper_other hk h
  · exact h

theorem touches_inv {c : Conf} {s : St} {e : Nat} (h : ∀ k, Has c s k e) (he : e = 0 ∨ e = cur s) (hon : ∀ k, s.up k = true → c.on k = true) :
    Inv c (touch c .monitor (touch c .jackin s)) := by
  obtain ⟨u1, u2, u3⟩ := touch_up c .jackin s
  obtain ⟨v1, v2, v3⟩ := touch_up c .monitor (touch c .jackin s)
  refine ⟨fun k => ?_, fun k hk => hon k (by rwa [v1, u1] at hk)⟩
  rw [v3, u3]
  cases k with
  | jackin => exact touch_other (by decide) (touch_has (h .jackin) he (hon .jackin))
  | monitor =>
    have := touch_has (c := c) (k := .monitor) (s := touch c .jackin s) (touch_other (by decide) (h .monitor)) (by rw [u3]; exact he)
      (by rw [u1]; exact hon .monitor)
    rwa [u3] at this

theorem recv_inv {c : Conf} {s : St} {m : Bytes} (h : Inv c s) (hd : u8 m 1 = 6 → cur s = 0 ∨ cur s = u64 m 8) :
    Inv c (recvMessage c s m).1 ∧
    ((recvMessage c s m).2 = .ok () → cur (recvMessage c s m).1 = if u8 m 1 = 6 then u64 m 8 else cur s) := by
  unfold recvMessage
  rcases features_cases c.version s.features m with ⟨ft, hf, hc⟩ | ⟨e, hf⟩
  · rw [hf]
    simp only [afterRecv]
    have hsame : ∀ s', s' = s → ft = s.features → ({ s' with features := ft } : St) = s := by rintro _ rfl rfl; rfl
    split
    · rename_i hm
      rcases hc with ⟨hc, e⟩ | ⟨hc, _⟩
      · rw [hsame s rfl e]
        exact ⟨h, fun _ => by rw [if_neg hc]⟩
      · subst hm; simp [u8] at hc
    · by_cases h8 : 8 ≤ m.length
      · rw [parseHeader_fields m h8]
        simp only
        split
        · rename_i h0
          rcases hc with ⟨hc, e⟩ | ⟨hc, _⟩
          · rw [hsame s rfl e]
            obtain ⟨h1, h2⟩ := starts_inv h
            exact ⟨h1, fun _ => by rw [if_neg hc]; unfold cur; rw [h2]⟩
          · omega
        · split
          · rename_i _ h6
            rcases hc with ⟨hc, _⟩ | ⟨_, hc⟩
            · exact (hc h6).elim
            · have hcur : cur ({ s with features := ft } : St) = u64 m 8 := by unfold cur; simp only [hc]; rfl
              have := touches_inv (c := c) (s := { s with features := ft }) (e := cur s) (fun k => h.has k)
                (by rw [hcur]; exact hd h6) h.on
              refine ⟨this, fun _ => ?_⟩
              obtain ⟨_, _, u3⟩ := touch_up c .jackin { s with features := ft }
              obtain ⟨_, _, v3⟩ := touch_up c .monitor (touch c .jackin { s with features := ft })
              simp only [v3, u3, hcur]
          · rename_i h6
            rcases hc with ⟨hc, e⟩ | ⟨hc, _⟩
            · rw [hsame s rfl e]; exact ⟨h, fun _ => rfl⟩
            · exact (h6 hc).elim
      · rw [parseHeader_short m (by omega)]
        simp only
        rcases hc with ⟨hc, e⟩ | ⟨hc, _⟩
        · rw [hsame s rfl e]; exact ⟨h, fun hh => by simp at hh⟩
        · exfalso
          have := hf
          unfold featuresRecv at this
          rw [if_neg (by assumption), parseHeader_short m (by omega)] at this
          simp at this
  · rw [hf]
    exact ⟨h, fun hh => by simp at hh⟩

theorem recvs_inv {c : Conf} {ms : List Bytes} {s : St} (h : Inv c s)
    (hs : ∃ i j d, datapaths ms = List.replicate i 0 ++ List.replicate j d ∧ (cur s = 0 ∨ (i = 0 ∧ cur s = d))) :
    Inv c (recvMessages c s ms) := by
  induction ms generalizing s with
  | nil => exact h
  | cons m ms ih =>
    obtain ⟨i, j, d, hs, hc⟩ := hs
    have hd : u8 m 1 = 6 → (cur s = 0 ∨ cur s = u64 m 8) ∧ ∃ i j d, datapaths ms = List.replicate i 0 ++ List.replicate j d ∧
        (u64 m 8 = 0 ∨ (i = 0 ∧ u64 m 8 = d)) := by
      intro h6
      simp only [datapaths, List.filter_cons, h6, decide_true, if_true, List.map_cons] at hs
      cases i with
      | succ i =>
        simp only [List.replicate_succ, List.cons_append, List.cons.injEq] at hs
        refine ⟨by omega, i, j, d, hs.2, .inl hs.1⟩
      | zero =>
        cases j with
        | zero => simp at hs
        | succ j =>
          simp only [List.replicate_zero, List.nil_append, List.replicate_succ, List.cons.injEq] at hs
          refine ⟨by omega, 0, j, d, by simpa [datapaths] using hs.2, .inr ⟨rfl, hs.1⟩⟩
    obtain ⟨h1, h2⟩ := recv_inv (m := m) h (fun h6 => (hd h6).1)
    rw [recvMessages]
    split
    · rename_i s' heq
      rw [heq] at h1 h2
      refine ih h1 ?_
      have h2 := h2 rfl
      by_cases h6 : u8 m 1 = 6
      · rw [if_pos h6] at h2
        have := (hd h6).2
        rwa [← h2] at this
      · rw [if_neg h6] at h2
        simp only [datapaths, List.filter_cons, h6, decide_false] at hs
        exact ⟨i, j, d, hs, by rw [h2]; exact hc⟩
    · rename_i s' e heq
      rw [heq] at h1; exact h1

/-- A channel before its first message, in a directory without files of its own. -/
def Fresh (c : Conf) (s : St) : Prop := s.features.datapath = none ∧ (∀ k, s.up k = false) ∧ ∀ p, Own c.id p → s.files p = false

theorem fresh_inv {c : Conf} {s : St} (h : Fresh c s) : Inv c s :=
  ⟨fun k d => by rw [h.2.2 _ ⟨d, k, rfl⟩, h.2.1 k]; rfl, fun k hk => by rw [h.2.1 k] at hk; cases hk⟩

/-- C81. Whatever messages arrive, as long as the switch does not change its datapath: of each kind there is exactly one file if the server
has been started, else none; it is named after the datapath last announced, and so is every file asked for with `helper_path`. -/
theorem C81_named_partial (c : Conf) (s : St) (ms : List Bytes) (h : Fresh c s) (hs : Steady ms) (k : Kind) (d : Nat) :
    ((recvMessages c s ms).files (fileName d c.id k) = true ↔
      (recvMessages c s ms).up k = true ∧ d = (recvMessages c s ms).features.datapath.getD 0) ∧
    (helperPath c k (recvMessages c s ms)).2 = fileName ((recvMessages c s ms).features.datapath.getD 0) c.id k := by
  obtain ⟨i, j, e, hs⟩ := hs
  have hi := recvs_inv (fresh_inv h) ⟨i, j, e, hs, .inl (by unfold cur; rw [h.1]; rfl)⟩
  refine ⟨?_, (helperPath_eq c k _).1⟩
  rw [hi.has k d, Bool.and_eq_true, decide_eq_true_eq]
  rfl

theorem closeServer_inv {c : Conf} {k : Kind} {s : St} (h : ∀ d, s.files (fileName d c.id k) = (s.up k && decide (d = cur s))) :
    (closeServer c k true s).2 = .ok () ∧ (∀ d, (closeServer c k true s).1.files (fileName d c.id k) = false) ∧
    (∀ p, (∀ d, p ≠ fileName d c.id k) → (closeServer c k true s).1.files p = s.files p) ∧
    (closeServer c k true s).1.up = s.up ∧ cur (closeServer c k true s).1 = cur s := by
  unfold closeServer
  split
  · obtain ⟨h1, h2, h3, _⟩ := helperPath_eq c k s
    simp only [if_true]
    refine ⟨trivial, fun d => ?_, fun p hp => ?_, h3, cur_helper c k s⟩
    · rw [h1, remove]
      have := helper_has (c := c) (k := k) (s := s) h (.inr rfl) d
      split
      · rfl
      · rename_i hne
        rw [this]
        have : d ≠ cur s := fun e => hne (by rw [e])
        simp [this]
    · rw [h1, remove, if_neg (hp _)]; exact helper_frame c k s p hp
  · rename_i hu
    refine ⟨rfl, fun d => ?_, fun _ _ => rfl, rfl, rfl⟩
    rw [h d]; simp at hu; rw [hu]; rfl

theorem recvs_frame (c : Conf) (s : St) (ms : List Bytes) (p : Text) (hp : ¬ Own c.id p) : (recvMessages c s ms).files p = s.files p := by
  have hp' : ∀ k d, p ≠ fileName d c.id k := fun k d e => hp ⟨d, k, e⟩
  have ht : ∀ k (s : St), (touch c k s).files p = s.files p := by
    intro k s; unfold touch; split
    · exact helper_frame c k s p (hp' k)
    · rfl
  have hone : ∀ (s : St) m, (recvMessage c s m).1.files p = s.files p := by
    intro s m
    unfold recvMessage
    rcases features_cases c.version s.features m with ⟨ft, hf, _⟩ | ⟨e, hf⟩
    · rw [hf]
      simp only [afterRecv]
      split
      · rfl
      · split
        · rfl
        · split
          · unfold startServers
            have h1 := start_frame c .jackin { s with features := ft } p (hp' _)
            split
            · rename_i s' heq
              rw [heq] at h1
              rw [start_frame c .monitor s' p (hp' _)]; exact h1
            · rename_i s' e heq
              rw [heq] at h1; exact h1
          · split
            · rw [ht, ht]
            · rfl
    · rw [hf]
  induction ms generalizing s with
  | nil => rfl
  | cons m ms ih =>
    have h1 := hone s m
    rw [recvMessages]
    split
    · rename_i s' heq
      rw [heq] at h1
      rw [ih s']; exact h1
    · rename_i s' e heq
      rw [heq] at h1; exact h1

/-- C81. Files of others are never touched, whatever messages arrive and whether stopping the servers succeeds. -/
theorem C81_others (c : Conf) (s : St) (ms : List Bytes) (stops : Kind → Bool) (p : Text) (hp : ¬ Own c.id p) :
    (recvMessages c s ms).files p = s.files p ∧ (close c stops (recvMessages c s ms)).1.files p = s.files p := by
  have h1 := recvs_frame c s ms p hp
  refine ⟨h1, ?_⟩
  have hp' : ∀ k d, p ≠ fileName d c.id k := fun k d e => hp ⟨d, k, e⟩
  have hone : ∀ k b (s : St), (closeServer c k b s).1.files p = s.files p := by
    intro k b s
    unfold closeServer
    split
    · split
      · show remove _ _ p = _
        rw [(helperPath_eq c k s).1, remove, if_neg (hp' k _)]; exact helper_frame c k s p (hp' k)
      · rfl
    · rfl
  unfold close
  have h2 := hone .jackin (stops .jackin) (recvMessages c s ms)
  split
  · rename_i s' heq
    rw [heq] at h2
    rw [hone, h2]; exact h1
  · rename_i s' e heq
    rw [heq] at h2
    rw [h2]; exact h1

/-- C81. If the switch does not change its datapath, closing the channel leaves the directory as it was before the channel existed, whatever
messages have arrived. -/
theorem C81_clean_partial (c : Conf) (s : St) (ms : List Bytes) (h : Fresh c s) (hs : Steady ms) :
    (close c (fun _ => true) (recvMessages c s ms)).2 = .ok () ∧ (close c (fun _ => true) (recvMessages c s ms)).1.files = s.files := by
  obtain ⟨i, j, e, hs⟩ := hs
  have hi := recvs_inv (fresh_inv h) ⟨i, j, e, hs, .inl (by unfold cur; rw [h.1]; rfl)⟩
  obtain ⟨a1, a2, a3, a4, a5⟩ := closeServer_inv (c := c) (k := .jackin) (hi.has .jackin)
  have hm : ∀ d, (closeServer c .jackin true (recvMessages c s ms)).1.files (fileName d c.id .monitor) =
      ((closeServer c .jackin true (recvMessages c s ms)).1.up .monitor && decide (d = cur (closeServer c .jackin true (recvMessages c s ms)).1)) := by
    intro d
    rw [a3 _ (fun d' e => by have := (C81_names e).2.2; cases this), a4, a5]
    exact hi.has .monitor d
  obtain ⟨b1, b2, b3, _, _⟩ := closeServer_inv (c := c) (k := .monitor) hm
  have hclose : close c (fun _ => true) (recvMessages c s ms) = closeServer c .monitor true (closeServer c .jackin true (recvMessages c s ms)).1 := by
    unfold close
    split
    · rename_i s' heq; rw [heq]
    · rename_i s' e heq; rw [heq] at a1; cases a1
  rw [hclose]
  refine ⟨b1, funext fun p => ?_⟩
  by_cases hp : Own c.id p
  · rw [h.2.2 p hp]
    obtain ⟨d, k, rfl⟩ := hp
    cases k with
    | jackin => rw [b3 _ (fun d' e => by have := (C81_names e).2.2; cases this)]; exact a2 d
    | monitor => exact b2 d
  · have := (C81_others c s ms (fun _ => true) p hp).2
    rw [hclose] at this; exact this

theorem path_eq (c : Conf) (k : Kind) (d : Nat) : path c k d = fileName d c.id k := by
  unfold path
  split
  · rename_i h; subst h; exact oldName_eq _ _
  · rename_i h; exact newName_eq h _ _

/-- At any point: only files named after no datapath or the current one, and only if `stop` is or will be assigned. -/
structure Loose (c : Conf) (s : St) (as : List Act) : Prop where
  name : ∀ k d, s.files (fileName d c.id k) = true → d = 0 ∨ d = cur s
  up : ∀ k d, s.files (fileName d c.id k) = true → s.up k = true ∨ Act.assign k ∈ as

theorem helper_loose {c : Conf} {k : Kind} {s : St} {as : List Act} (h : Loose c s as) : Loose c (helperPath c k s).1 as := by
  obtain ⟨_, h2, h3, h4⟩ := helperPath_eq c k s
  have key : ∀ j d, (helperPath c k s).1.files (fileName d c.id j) = true → (d = 0 ∨ d = cur s) ∧ ∃ d', s.files (fileName d' c.id j) = true := by
    intro j d hf
    rw [h4] at hf
    split at hf
    · exact ⟨h.name j d hf, d, hf⟩
    · unfold rename at hf
      split at hf
      · rename_i ho
        simp only at hf
        split at hf
        · rename_i e
          obtain ⟨e1, _, e2⟩ := C81_names e
          subst e2
          exact ⟨.inr e1, 0, ho⟩
        · split at hf
          · cases hf
          · exact ⟨h.name j d hf, d, hf⟩
      · exact ⟨h.name j d hf, d, hf⟩
  refine ⟨fun j d hf => by rw [cur_helper]; exact (key j d hf).1, fun j d hf => ?_⟩
  obtain ⟨_, d', hd⟩ := key j d hf
  rw [h3]; exact h.up j d' hd

theorem act_loose {c : Conf} {s : St} {a : Act} {as : List Act} (h : Loose c s (a :: as))
    (hd : ∀ d, a = .features d → cur s = 0 ∨ cur s = d) (hb : ∀ k, a = .bind k → Act.assign k ∈ as) : Loose c (act c s a) as := by
  have drop : ∀ k, (∀ j, a ≠ .assign j) → Act.assign k ∈ a :: as → Act.assign k ∈ as := by
    intro k ha hm
    rcases List.mem_cons.1 hm with e | hm
    · exact (ha k e.symm).elim
    · exact hm
  cases a with
  | features d =>
    refine ⟨fun k e hf => ?_, fun k e hf => (h.up k e hf).imp id (drop k (by simp))⟩
    have := h.name k e hf
    have := hd d rfl
    show e = 0 ∨ e = d
    omega
  | helper k =>
    exact helper_loose ⟨h.name, fun j d hf => (h.up j d hf).imp id (drop j (by simp))⟩
  | bind k =>
    have hf' : ∀ j d, (act c s (.bind k)).files (fileName d c.id j) = true → (j = k ∧ d = cur s) ∨ s.files (fileName d c.id j) = true := by
      intro j d hf
      change (if fileName d c.id j = path c k (cur s) then true else s.files (fileName d c.id j)) = true at hf
      by_cases e : fileName d c.id j = path c k (cur s)
      · rw [path_eq] at e
        obtain ⟨e1, _, e2⟩ := C81_names e
        exact .inl ⟨e2, e1⟩
      · rw [if_neg e] at hf; exact .inr hf
    refine ⟨fun j d hf => ?_, fun j d hf => ?_⟩
    · rcases hf' j d hf with ⟨_, e⟩ | hf
      · exact .inr e
      · exact h.name j d hf
    · rcases hf' j d hf with ⟨rfl, _⟩ | hf
      · exact .inr (hb _ rfl)
      · exact (h.up j d hf).imp id (drop j (by simp))
  | assign k =>
    refine ⟨h.name, fun j d hf => ?_⟩
    show (if j = k then true else s.up j) = true ∨ _
    split
    · exact .inl rfl
    · rename_i hj
      rcases h.up j d hf with hu | hm
      · exact .inl hu
      · rcases List.mem_cons.1 hm with e | hm
        · injection e with e; exact (hj e).elim
        · exact .inr hm
  | remove k stale =>
    have hf' : ∀ p, (act c s (.remove k stale)).files p = true → s.files p = true := by
      intro p hf
      simp only [act, remove] at hf
      by_cases e : p = path c k (if stale = true then 0 else s.features.datapath.getD 0)
      · rw [if_pos e] at hf; cases hf
      · rw [if_neg e] at hf; exact hf
    exact ⟨fun j d hf => h.name j d (hf' _ hf), fun j d hf => (h.up j d (hf' _ hf)).imp id (drop j (by simp))⟩

theorem acts_loose {c : Conf} {as : List Act} {s : St} (h : Loose c s as) (ha : Assigned as)
    (hs : ∃ i j d, announcedBy as = List.replicate i 0 ++ List.replicate j d ∧ (cur s = 0 ∨ (i = 0 ∧ cur s = d))) :
    Loose c (acts c s as) [] := by
  induction as generalizing s with
  | nil => exact h
  | cons a as ih =>
    have ha' : Assigned as := fun k pre post e => ha k (a :: pre) post (by rw [e]; rfl)
    obtain ⟨i, j, d, hs, hc⟩ := hs
    have hcur : (∀ d, a ≠ .features d) → cur (act c s a) = cur s := by
      intro hn
      cases a with
      | features d => exact (hn d rfl).elim
      | helper k => exact cur_helper c k s
      | bind k => rfl
      | assign k => rfl
      | remove k b => rfl
    have hfeat : ∀ d', a = .features d' → (cur s = 0 ∨ cur s = d') ∧ ∃ i j d, announcedBy as = List.replicate i 0 ++ List.replicate j d ∧
        (d' = 0 ∨ (i = 0 ∧ d' = d)) := by
      rintro d' rfl
      rw [announcedBy] at hs
      cases i with
      | succ i =>
        simp only [List.replicate_succ, List.cons_append, List.cons.injEq] at hs
        exact ⟨by omega, i, j, d, hs.2, .inl hs.1⟩
      | zero =>
        cases j with
        | zero => simp at hs
        | succ j =>
          simp only [List.replicate_zero, List.nil_append, List.replicate_succ, List.cons.injEq] at hs
          exact ⟨by omega, 0, j, d, by simpa using hs.2, .inr ⟨rfl, hs.1⟩⟩
    rw [acts]
    refine ih (act_loose h (fun d e => (hfeat d e).1) (fun k e => ha k [] as (by rw [e]; rfl))) ha' ?_
    by_cases hn : ∃ d', a = .features d'
    · obtain ⟨d', hn⟩ := hn
      have := (hfeat d' hn).2
      subst hn
      exact this
    · have hn' : ∀ d, a ≠ .features d := fun d e => hn ⟨d, e⟩
      rw [hcur hn']
      refine ⟨i, j, d, ?_, hc⟩
      rw [← hs]
      cases a <;> first | rfl | exact (hn' _ rfl).elim

theorem closeServer_loose {c : Conf} {k : Kind} {s : St} (h : Loose c s []) :
    (closeServer c k true s).2 = .ok () ∧ (∀ d, (closeServer c k true s).1.files (fileName d c.id k) = false) ∧
    (∀ p, (∀ d, p ≠ fileName d c.id k) → (closeServer c k true s).1.files p = s.files p) ∧ Loose c (closeServer c k true s).1 [] := by
  unfold closeServer
  split
  · obtain ⟨h1, h2, h3, h4⟩ := helperPath_eq c k s
    have hl := helper_loose (k := k) h
    simp only [if_true]
    have hf' : ∀ p, remove (helperPath c k s).1.files (helperPath c k s).2 p = true → (helperPath c k s).1.files p = true := by
      intro p hf
      unfold remove at hf
      split at hf
      · cases hf
      · exact hf
    refine ⟨trivial, fun d => ?_, fun p hp => ?_, fun j d hf => hl.name j d (hf' _ hf), fun j d hf => hl.up j d (hf' _ hf)⟩
    · rw [h1, remove]
      split
      · rfl
      · rename_i hne
        have hd : d ≠ cur s := fun e => hne (by rw [e])
        cases hf : (helperPath c k s).1.files (fileName d c.id k) with
        | false => rfl
        | true =>
          exfalso
          have h0 : d = 0 := by
            rcases hl.name k d hf with e | e
            · exact e
            · rw [cur_helper] at e; exact (hd e).elim
          subst h0
          rw [h4, if_neg (by omega), rename] at hf
          split at hf
          · simp only [if_neg hne, if_true] at hf; cases hf
          · rename_i ho; exact ho hf
    · rw [h1, remove, if_neg (hp _)]; exact helper_frame c k s p hp
  · rename_i hu
    refine ⟨rfl, fun d => ?_, fun _ _ => rfl, h⟩
    cases hf : s.files (fileName d c.id k) with
    | false => rfl
    | true =>
      rcases h.up k d hf with e | e
      · exact (hu e).elim
      · cases e

/-- C81. However `recv` and any number of `close` interleave: the `close` that `_loop_runner` calls after the receiving loop has ended
removes every file of the channel, as long as the switch does not change its datapath. -/
theorem C81_interleaved_partial (c : Conf) (s : St) (as : List Act) (h : Fresh c s) (ha : Assigned as)
    (hs : ∃ i j d, announcedBy as = List.replicate i 0 ++ List.replicate j d) :
    (close c (fun _ => true) (acts c s as)).2 = .ok () ∧
    ∀ p, Own c.id p → (close c (fun _ => true) (acts c s as)).1.files p = false := by
  obtain ⟨i, j, d, hs⟩ := hs
  have hno : ∀ k d, s.files (fileName d c.id k) ≠ true := fun k d e => by rw [h.2.2 _ ⟨d, k, rfl⟩] at e; cases e
  have hl := acts_loose (c := c) (as := as) (s := s) ⟨fun k d e => (hno k d e).elim, fun k d e => (hno k d e).elim⟩ ha
    ⟨i, j, d, hs, .inl (by unfold cur; rw [h.1]; rfl)⟩
  obtain ⟨a1, a2, _, a4⟩ := closeServer_loose (k := .jackin) hl
  obtain ⟨b1, b2, b3, _⟩ := closeServer_loose (k := .monitor) a4
  have hclose : close c (fun _ => true) (acts c s as) = closeServer c .monitor true (closeServer c .jackin true (acts c s as)).1 := by
    unfold close
    split
    · rename_i s' heq; rw [heq]
    · rename_i s' e heq; rw [heq] at a1; cases a1
  rw [hclose]
  refine ⟨b1, ?_⟩
  rintro _ ⟨d, k, rfl⟩
  cases k with
  | jackin => rw [b3 _ (fun d' e => by have := (C81_names e).2.2; cases this)]; exact a2 d
  | monitor => exact b2 d

/-! Witnesses. -/

def conf : Conf := ⟨0x7f01, some 4, fun _ => true⟩
def st0 : St := ⟨fun _ => false, ⟨none, none⟩, fun _ => false⟩
def hello4 : Bytes := [4, 0, 0, 8, 0, 0, 0, 1]
def reply (d : UInt8) : Bytes := [4, 6, 0, 32, 0, 0, 0, 2, 0, 0, 0, 0, 0, 0, 0, d] ++ List.replicate 16 0

theorem fresh0 : Fresh conf st0 := ⟨rfl, fun _ => rfl, fun _ _ => rfl⟩

/-- C81, the part that fails. A switch that announces another datapath later leaves the files of the first one behind: after `close`
both still exist. -/
theorem C81_changed_refuted : ∃ (c : Conf) (s : St) (ms : List Bytes), Fresh c s ∧
    (close c (fun _ => true) (recvMessages c s ms)).2 = .ok () ∧
    ∀ k, Own c.id (fileName 1 c.id k) ∧ s.files (fileName 1 c.id k) = false ∧
      (close c (fun _ => true) (recvMessages c s ms)).1.files (fileName 1 c.id k) = true :=
  ⟨conf, st0, [hello4, reply 1, reply 2], fresh0, by decide +kernel, fun k => ⟨⟨1, k, rfl⟩, rfl, by cases k <;> decide +kernel⟩⟩

/-- C81, the part that fails. While such a channel is open, the path that `helper_path` returns does not exist. -/
theorem C81_path_refuted : ∃ (c : Conf) (s : St) (ms : List Bytes), Fresh c s ∧ ∀ k,
    (recvMessages c s ms).up k = true ∧
    (helperPath c k (recvMessages c s ms)).1.files (helperPath c k (recvMessages c s ms)).2 = false :=
  ⟨conf, st0, [hello4, reply 1, reply 2], fresh0, fun k => by cases k <;> decide +kernel⟩

example : fileName 0xabc 0x7f01 .monitor = "abc-7f01.monitor".toList := by decide +kernel
example : fileName 0 0x7f01 .jackin = "unknown-7f01.jackin".toList := by decide +kernel
example : ¬ Own 0x7f01 "passwd".toList := by
  rintro ⟨d, k, h⟩
  have : '-' ∈ "passwd".toList := by rw [h]; simp [fileName]
  revert this; decide
example : Steady [hello4, reply 0, reply 5, [4, 10, 0, 8, 0, 0, 0, 3], reply 5] := ⟨1, 2, 5, by decide⟩
example : (recvMessages conf st0 [hello4]).files (fileName 0 conf.id .jackin) = true := by decide +kernel
example : (recvMessages conf st0 [hello4, reply 5]).files (fileName 5 conf.id .jackin) = true ∧
    (recvMessages conf st0 [hello4, reply 5]).files (fileName 0 conf.id .jackin) = false := by decide +kernel
example : ¬ Steady [hello4, reply 1, reply 2] := by
  rintro ⟨i, j, d, h⟩
  have h : [1, 2] = List.replicate i 0 ++ List.replicate j d := h
  cases i with
  | succ i => simp [List.replicate_succ] at h
  | zero =>
    have : ∀ x ∈ [1, 2], x = d := by rw [h]; simp
    have h1 := this 1 (by simp); have h2 := this 2 (by simp); omega
/-- A `close` between binding and assigning: the second `close` removes the file. -/
example : (acts conf st0 [.helper .jackin, .bind .jackin, .helper .jackin, .assign .jackin, .features 5]).files (fileName 0 conf.id .jackin) = true ∧
    announcedBy [.helper .jackin, .bind .jackin, .helper .jackin, .assign .jackin, .features 5] = List.replicate 0 0 ++ List.replicate 1 5 ∧
    (close conf (fun _ => true) (acts conf st0 [.helper .jackin, .bind .jackin, .helper .jackin, .assign .jackin, .features 5])).1.files
      (fileName 0 conf.id .jackin) = false := by decide +kernel
example : Assigned [.helper .jackin, .bind .jackin, .assign .jackin] := by
  intro k pre post h
  match pre, h with
  | [_], h => simp at h; obtain ⟨_, rfl, rfl⟩ := h; simp
  | [_, _], h => simp at h
  | _ :: _ :: _ :: _, h => simp at h

end Twink.Helper
