import Verif.Model.Layers
import Verif.Props.Mro
import Verif.Props.Server
import Verif.Spec.Controller

/-!
# Lemmas about the handlers of combined channel classes
-/

namespace Twink.Layers
open Twink Spec Mro

/-! ## Reduction to the classes that have a `handle_proxy` -/

/-- The classes that define `handle_proxy`. -/
def active : Cls → Bool
  | .server | .autoEcho | .controller | .parallel => true
  | _ => false

theorem proxy_filter (cfg : Cfg) : ∀ (l : List Cls) (st : Ctl) (t : Target) (sp : Bool) (m : Bytes), proxy cfg l st t sp m = proxy cfg (l.filter active) st t sp m
  | [], _, _, _, _ => rfl
  | c :: r, st, t, sp, m => by
    have ih := fun st t sp => proxy_filter cfg r st t sp m
    cases c
    case server => rw [List.filter_cons_of_pos rfl]; rfl
    case parallel => rw [List.filter_cons_of_pos rfl]; simp only [proxy]; exact ih _ _ _
    case autoEcho =>
      rw [List.filter_cons_of_pos rfl]
      simp only [proxy, ← ih]
    case controller =>
      rw [List.filter_cons_of_pos rfl]
      simp only [proxy, ← ih]
    all_goals
      rw [List.filter_cons_of_neg (by simp [active])]
      simp only [proxy]
      exact ih _ _ _

/-- All ways to arrange the three mixins. -/
def arrangements : List (List Cls) :=
  [[], [.autoEcho], [.controller], [.parallel], [.autoEcho, .controller], [.autoEcho, .parallel], [.controller, .autoEcho], [.controller, .parallel], [.parallel, .autoEcho],
   [.parallel, .controller], [.autoEcho, .controller, .parallel], [.autoEcho, .parallel, .controller], [.controller, .autoEcho, .parallel], [.controller, .parallel, .autoEcho],
   [.parallel, .autoEcho, .controller], [.parallel, .controller, .autoEcho]]

theorem arrange : ∀ (p : List Cls), p.Nodup → (∀ x ∈ p, x = .autoEcho ∨ x = .controller ∨ x = .parallel) → p ∈ arrangements
  | [], _, _ => by simp [arrangements]
  | [x], _, h => by
    rcases h x (by simp) with rfl | rfl | rfl <;> decide
  | [x, y], hn, h => by
    rcases h x (by simp) with rfl | rfl | rfl <;> rcases h y (by simp) with rfl | rfl | rfl <;> first | decide | (exfalso; revert hn; decide)
  | [x, y, z], hn, h => by
    rcases h x (by simp) with rfl | rfl | rfl <;> rcases h y (by simp) with rfl | rfl | rfl <;> rcases h z (by simp) with rfl | rfl | rfl <;>
      first | decide | (exfalso; revert hn; decide)
  | x :: y :: z :: w :: r, hn, h => by
    exfalso
    have hn : [x, y, z, w].Nodup := List.Sublist.nodup (by simp) hn
    rcases h x (by simp) with rfl | rfl | rfl <;> rcases h y (by simp) with rfl | rfl | rfl <;> rcases h z (by simp) with rfl | rfl | rfl <;>
      rcases h w (by simp) with rfl | rfl | rfl <;> (revert hn; decide)

theorem anc_server (defs : List Def) (x : Cls) (hx : x = .autoEcho ∨ x = .controller ∨ x = .parallel) : Ancestor (library ++ defs) .server x := by
  rcases hx with rfl | rfl | rfl
  · exact .step (bs := [.server]) (List.mem_append_left _ (by decide)) (by simp) (.refl _)
  · exact .step (bs := [.server, .weakCaller]) (List.mem_append_left _ (by decide)) (List.mem_cons_self (a := Cls.server)) (.refl _)
  · exact .step (bs := [.server]) (List.mem_append_left _ (by decide)) (by simp) (.refl _)

/-- What is left of an order when only the classes with `handle_proxy` are kept. -/
theorem reduce {defs : List Def} {env : Env} (h : run (library ++ defs) builtin = some env) {c : Cls} {l : List Cls} (hc : env.lookup c = some l)
    (hs : Ancestor (library ++ defs) .server c) :
    ∃ p ∈ arrangements, (∀ cfg st t sp m, proxy cfg l st t sp m = proxy cfg (p ++ [.server]) st t sp m) ∧
      (∀ x, active x = true → (x ∈ l ↔ x ∈ p ++ [.server])) ∧
      (∀ a b, active a = true → active b = true → (Before l a b ↔ Before (p ++ [.server]) a b)) := by
  obtain ⟨hn, hmem, _⟩ := C107_order _ env h c l hc
  have hsl : Cls.server ∈ l := (hmem _).2 hs
  obtain ⟨p, q, hpq, _⟩ := split_at (k := []) (List.singleton_sublist.2 (List.mem_filter.2 ⟨hsl, (rfl : active .server = true)⟩))
  have hnf : (l.filter active).Nodup := List.filter_sublist.nodup hn
  have hin : ∀ x ∈ l.filter active, x ≠ .server → x = .autoEcho ∨ x = .controller ∨ x = .parallel := by
    intro x hx hne
    have := (List.mem_filter.1 hx).2
    cases x <;> simp_all [active]
  have hbe : ∀ x ∈ l.filter active, x ≠ .server → [x, .server].Sublist (l.filter active) := by
    intro x hx hne
    have hxl := (List.mem_filter.1 hx).1
    have := (ancestor_after h hc hxl (anc_server defs x (hin x hx hne)) (Ne.symm hne)).filter active
    rwa [List.filter_cons_of_pos (List.mem_filter.1 hx).2, List.filter_cons_of_pos rfl, List.filter_nil] at this
  have hq : q = [] := by
    cases q with
    | nil => rfl
    | cons y q =>
      exfalso
      have hy : y ∈ l.filter active := by rw [hpq]; simp
      have hn2 := hnf
      rw [hpq] at hn2
      have hys : y ≠ .server := by
        have h1 := (List.nodup_cons.1 (List.nodup_append.1 hn2).2.1).1
        rintro rfl
        exact h1 List.mem_cons_self
      have h1 : [Cls.server, y].Sublist (l.filter active) := by
        rw [hpq]
        refine List.Sublist.trans ?_ (List.sublist_append_right p _)
        exact (List.singleton_sublist.2 List.mem_cons_self).cons_cons _
      exact (not_before hnf (hbe y hy hys)).1 (before_of_sub hnf h1)
  subst hq
  refine ⟨p, ?_, ?_, ?_, ?_⟩
  · refine arrange p ?_ ?_
    · rw [hpq] at hnf
      exact (List.nodup_append.1 hnf).1
    · intro x hx
      refine hin x (by rw [hpq]; exact List.mem_append_left _ hx) ?_
      rintro rfl
      rw [hpq] at hnf
      exact (List.nodup_append.1 hnf).2.2 _ hx _ List.mem_cons_self rfl
  · intro cfg st t sp m
    rw [proxy_filter, hpq]
  · intro x hx
    rw [← hpq, List.mem_filter]
    simp [hx]
  · intro a b ha hb
    rw [← hpq]
    constructor
    · intro hh
      have := List.Sublist.filter active hh
      rwa [List.filter_cons_of_pos ha, List.filter_cons_of_pos hb, List.filter_nil] at this
    · intro hh
      exact List.Sublist.trans hh List.filter_sublist

/-! ## Messages -/

/-- A reply callback is registered for the messages that arrive now: the record at the head belongs to a request with a callback that is still alive. -/
def Awaiting (alive : Nat → Bool) (st : Ctl) (cb : Nat) : Prop := ∃ rest, st.seq = .chunk (some cb) :: rest ∧ alive cb = true

/-- `m` is PACKET_IN, FLOW_REMOVED or PORT_STATUS. -/
def IsAsync (m : Bytes) : Prop := u8 m 1 = 10 ∨ u8 m 1 = 11 ∨ u8 m 1 = 12

theorem ctl_echo {hasAsync : Bool} {alive : Nat → Bool} {st : Ctl} {m : Bytes} (hm : 8 ≤ m.length) (he : IsEchoRequest m) :
    ctlHandle hasAsync alive st m = (st, .default) ∧ (∀ cb, ¬ Awaiting alive st cb) ∨ ∃ cb, Awaiting alive st cb ∧ ctlHandle hasAsync alive st m = (st, .callback cb) := by
  simp only [IsEchoRequest] at he
  simp only [ctlHandle, parseHeader_fields m hm, he]
  cases hseq : st.seq with
  | nil => exact .inl ⟨by simp, fun cb ⟨r, h, _⟩ => by rw [hseq] at h; cases h⟩
  | cons e rest =>
    cases e with
    | barrier x cb => exact .inl ⟨by simp [isBarrierReply], fun cb ⟨r, h, _⟩ => by rw [hseq] at h; cases h⟩
    | chunk c =>
      cases c with
      | none => exact .inl ⟨by simp [isBarrierReply, cbOr, live], fun cb ⟨r, h, _⟩ => by rw [hseq] at h; cases h⟩
      | some c =>
        by_cases ha : alive c = true
        · exact .inr ⟨c, ⟨rest, hseq, ha⟩, by simp [isBarrierReply, cbOr, live, ha]⟩
        · exact .inl ⟨by simp [isBarrierReply, cbOr, live, ha], fun cb ⟨r, h, h2⟩ => by rw [hseq] at h; cases h; exact ha h2⟩

theorem echo_here {cfg : Cfg} {r : List Cls} {st : Ctl} {t : Target} {sp : Bool} {m : Bytes} {v : Nat} (hv : v < 256) (hver : cfg.version = some v) (hm : 8 ≤ m.length)
    (he : IsEchoRequest m) : ∃ reply, IsEchoReply v m reply ∧ proxy cfg (.autoEcho :: r) st t sp m = (st, .echoed reply) := by
  have hne : m ≠ [] := by intro e; subst e; simp at hm
  have hu := u16_lt m 2
  have hx := u32_lt m 4
  simp only [IsEchoRequest] at he
  have f1 : fits hdrFmt [.int v, .int 3, .int (u16 m 2), .int (u32 m 4)] = true := by simp [fits, hdrFmt]; omega
  refine ⟨_, ?_, by simp only [proxy, if_neg hne, parseHeader_fields m hm, hver]; rw [if_pos he, pack, if_pos f1]⟩
  obtain ⟨a, b, c, d, e, f⟩ := hdr_fields v 3 (u16 m 2) (u32 m 4) (m.drop 8) hv (by decide) hu hx
  exact ⟨b, c, d, e, by rw [a, List.length_drop]; omega, f⟩

theorem cbOr_ne {alive : Nat → Bool} (cb : Option Nat) {d x : Handled} (hd : d ≠ x) (hx : ∀ c, x ≠ .callback c) : cbOr alive cb d ≠ x := by
  unfold cbOr
  split
  · exact Ne.symm (hx _)
  · exact hd

theorem scan_ne {alive : Nat → Bool} {xid : Nat} {x : Handled} (h1 : x = .async ∨ x = .default) : ∀ (l o : List Elem) (b : Bool), (scan alive xid o b l).2 ≠ x
  | [], o, b => by cases b <;> rcases h1 with rfl | rfl <;> simp [scan]
  | .barrier y cb :: l, o, b => by
    simp only [scan]
    split
    · rcases h1 with rfl | rfl <;> exact cbOr_ne _ (by decide) (fun c => by simp)
    · rcases h1 with rfl | rfl <;> simp
  | .chunk cb :: l, o, true => by rcases h1 with rfl | rfl <;> simp [scan]
  | .chunk cb :: l, o, false => by
    simp only [scan]
    exact scan_ne h1 l o true

theorem ctl_async {hasAsync : Bool} {alive : Nat → Bool} {st st' : Ctl} {m : Bytes} (hm : 8 ≤ m.length) (h : ctlHandle hasAsync alive st m = (st', .async)) :
    hasAsync = true ∧ IsAsync m := by
  simp only [ctlHandle, parseHeader_fields m hm] at h
  split at h
  · rename_i hc
    simp at hc
    exact ⟨hc.1, by unfold IsAsync; omega⟩
  · exfalso
    split at h
    · cases h
    · split at h
      · exact scan_ne (.inl rfl) _ _ _ (congrArg Prod.snd h)
      · split at h
        · cases h
        · exact cbOr_ne (x := .async) _ (by decide) (fun c => by simp) (congrArg Prod.snd h)

theorem ctl_is_async {alive : Nat → Bool} {st : Ctl} {m : Bytes} (hm : 8 ≤ m.length) (h : IsAsync m) : ctlHandle true alive st m = (st, .async) := by
  simp only [ctlHandle, parseHeader_fields m hm]
  rw [if_pos (by unfold IsAsync at h; simp; omega)]

theorem finish_called {cfg : Cfg} {t t' : Target} {sp sp' : Bool} {m : Bytes} (h : finish cfg t sp m = .called t' sp') : t' = t ∧ sp' = sp := by
  unfold finish at h
  cases sp
  · simp at h
    exact ⟨h.1.symm, h.2⟩
  · simp only [if_true] at h
    split at h
    · cases h
    · cases h
      exact ⟨rfl, rfl⟩

/-- Which handler is called, and where, for every arrangement of the classes. -/
theorem calls_of (cfg : Cfg) : ∀ (l : List Cls) (st : Ctl) (t : Target) (sp : Bool) (m : Bytes) (st' : Ctl) (t' : Target) (sp' : Bool), 8 ≤ m.length →
    proxy cfg l st t sp m = (st', .called t' sp') →
    (t' = t ∧ (sp' = true ↔ sp = true ∨ ∃ r, l.takeWhile (· ≠ .server) = r ∧ Cls.parallel ∈ r)) ∨
    (t' = .async ∧ IsAsync m ∧ cfg.hasAsync = true ∧ ∃ p q, l.takeWhile (· ≠ .server) = p ++ .controller :: q ∧ (sp' = true ↔ Cls.parallel ∈ q))
  | [], st, t, sp, m, st', t', sp', hm, h => by cases h
  | c :: r, st, t, sp, m, st', t', sp', hm, h => by
    have ih := fun st t sp => calls_of cfg r st t sp m st' t' sp' hm
    have skip : ∀ c : Cls, c ≠ .server → c ≠ .parallel → ∀ t sp, proxy cfg r st t sp m = (st', .called t' sp') →
        (t' = t ∧ (sp' = true ↔ sp = true ∨ ∃ q, (c :: r).takeWhile (· ≠ .server) = q ∧ Cls.parallel ∈ q)) ∨
        (t' = .async ∧ IsAsync m ∧ cfg.hasAsync = true ∧ ∃ p q, (c :: r).takeWhile (· ≠ .server) = p ++ .controller :: q ∧ (sp' = true ↔ Cls.parallel ∈ q)) := by
      intro c h1 h2 t sp h
      rw [List.takeWhile_cons, if_pos (by simpa using h1)]
      rcases ih st t sp h with ⟨a, b⟩ | ⟨a, b, d, p, q, e, f⟩
      · refine .inl ⟨a, b.trans ?_⟩
        simp [Ne.symm h2]
      · exact .inr ⟨a, b, d, c :: p, q, by rw [e]; rfl, f⟩
    cases c
    case server =>
      rw [proxy] at h
      obtain ⟨h1, h2⟩ := finish_called (congrArg Prod.snd h)
      exact .inl ⟨h1, by simp [h2]⟩
    case parallel =>
      rw [proxy] at h
      rw [List.takeWhile_cons, if_pos (by simp)]
      rcases ih st t true h with ⟨a, b⟩ | ⟨a, b, d, p, q, e, f⟩
      · exact .inl ⟨a, by simpa using b⟩
      · exact .inr ⟨a, b, d, .parallel :: p, q, by rw [e]; rfl, f⟩
    case autoEcho =>
      simp only [proxy] at h
      split at h
      · cases h
      · split at h
        · cases h
        · split at h
          · split at h
            · cases h
            · split at h
              · cases h
              · cases h
          · exact skip .autoEcho (by decide) (by decide) t sp h
    case controller =>
      simp only [proxy] at h
      split at h
      · rename_i st1 hd
        obtain ⟨h1, h2⟩ := ctl_async hm hd
        refine .inr ?_
        rcases ih st1 .async false h with ⟨a, b⟩ | ⟨a, b, d, p, q, e, f⟩
        · refine ⟨a, h2, h1, [], r.takeWhile (· ≠ .server), by simp, b.trans (by simp)⟩
        · exact ⟨a, b, d, .controller :: p, q, by rw [List.takeWhile_cons, if_pos (by simp), e]; rfl, f⟩
      · rename_i st1 hd
        have : st1 = st := by
          simp only [ctlHandle, parseHeader_fields m hm] at hd
          split at hd
          · cases hd
          · split at hd
            · cases hd; rfl
            · split at hd
              · exfalso
                exact scan_ne (.inr rfl) _ _ _ (congrArg Prod.snd hd)
              · split at hd
                · cases hd; rfl
                · exact (congrArg Prod.fst hd).symm
        subst this
        exact skip .controller (by decide) (by decide) t sp h
      · cases h
      · cases h
    all_goals exact skip _ (by simp) (by simp) t sp h

end Twink.Layers
