import Verif.Proof.Mro

/-!
# C107: however channel classes are combined, every layer takes part once

Programs are arbitrary: the class statements of the library followed by any class statements of users, as long as Python accepts them.
-/

namespace Twink.Mro

/-! ## Specification -/

/-- `x` is `c`, a base of `c`, a base of a base, and so on, in the text of the program. -/
inductive Ancestor (prog : List Def) : Cls → Cls → Prop where
  | refl (c) : Ancestor prog c c
  | step {c b x bs} : (c, bs) ∈ prog → b ∈ bs → Ancestor prog x b → Ancestor prog x c

theorem Ancestor.trans {prog : List Def} {x y z : Cls} (h1 : Ancestor prog x y) (h2 : Ancestor prog y z) : Ancestor prog x z := by
  induction h2 with
  | refl => exact h1
  | step hd hb _ ih => exact .step hd hb (ih h1)

/-- `a` comes before `b`. -/
def Before (l : List Cls) (a b : Cls) : Prop := [a, b].Sublist l

instance (l : List Cls) (a b : Cls) : Decidable (Before l a b) := inferInstanceAs (Decidable ([a, b].Sublist l))

/-! ## Order -/

/-- The order of a class that Python accepts consists of its ancestors, each once.  Every class in it stands before its bases, the bases in the order in which its own
statement lists them, and the order of every ancestor is kept. -/
theorem C107_order (prog : List Def) (env : Env) (h : run prog builtin = some env) (c : Cls) (m : List Cls) (hc : env.lookup c = some m) :
    m.Nodup ∧ (∀ x, x ∈ m ↔ Ancestor prog x c) ∧ (∃ t, m = c :: t) ∧ (∀ d bs, (d, bs) ∈ prog → d ∈ m → (d :: bs).Sublist m) ∧
      (∀ x ∈ m, ∃ mx, env.lookup x = some mx ∧ mx.Sublist m) := by
  have hg := run_good h hc
  have hbases : ∀ d bs, (d, bs) ∈ prog → d ∈ m → (d :: bs).Sublist m := by
    intro d bs hd hm
    obtain ⟨md, hmd, hs⟩ := hg.sub d hm
    exact ((run_good h hmd).bases bs (by simpa using hd)).trans hs
  refine ⟨hg.nodup, ?_, hg.head, hbases, hg.sub⟩
  intro x
  constructor
  · suffices ∀ (n : Nat) (c : Cls) (m : List Cls), m.length ≤ n → env.lookup c = some m → x ∈ m → Ancestor prog x c from this _ c m (Nat.le_refl _) hc
    intro n
    induction n with
    | zero =>
      intro c m hl hc hx
      rw [List.eq_nil_of_length_eq_zero (Nat.le_zero.1 hl)] at hx
      cases hx
    | succ n ih =>
      intro c m hl hc hx
      have hg := run_good h hc
      rcases hg.from_ with ⟨rfl, rfl⟩ | ⟨bs, hbs, hfrom⟩
      · rw [List.mem_singleton.1 hx]
        exact .refl _
      · rcases hfrom x hx with rfl | ⟨b, hb, mb, hmb, hxb⟩
        · exact .refl _
        · refine .step (by simpa using hbs) hb (ih b mb ?_ hmb hxb)
          have hsb := hg.bases bs (by simpa using hbs)
          obtain ⟨mb', hmb', hs⟩ := hg.sub b (hsb.subset (List.mem_cons_of_mem _ hb))
          rw [hmb] at hmb'
          cases hmb'
          have hne : mb ≠ m := by
            rintro rfl
            obtain ⟨t, rfl⟩ := (run_good h hmb).head
            obtain ⟨t', ht'⟩ := hg.head
            cases ht'
            have := hsb.nodup hg.nodup
            exact (List.nodup_cons.1 this).1 hb
          have hlt : mb.length < m.length := Nat.lt_of_le_of_ne hs.length_le (fun e => hne (hs.eq_of_length e))
          omega
  · intro ha
    clear hbases
    induction ha generalizing m with
    | refl c =>
      obtain ⟨t, rfl⟩ := hg.head
      exact List.mem_cons_self
    | step hd hb _ ih =>
      have hs := hg.bases _ (by simpa using hd)
      obtain ⟨mb, hmb, hsub⟩ := hg.sub _ (hs.subset (List.mem_cons_of_mem _ hb))
      exact hsub.subset (ih mb hmb (run_good h hmb))

/-- An ancestor of a class in the order stands behind it. -/
theorem ancestor_after {prog : List Def} {env : Env} (h : run prog builtin = some env) {c : Cls} {m : List Cls} (hc : env.lookup c = some m) {x y : Cls} (hx : x ∈ m)
    (ha : Ancestor prog y x) (hn : y ≠ x) : Before m x y := by
  obtain ⟨mx, hmx, hs⟩ := (run_good h hc).sub x hx
  obtain ⟨_, hm, ⟨t, rfl⟩, _⟩ := C107_order prog env h x mx hmx
  have hy : y ∈ t := by
    rcases List.mem_cons.1 ((hm y).2 ha) with h | h
    · exact absurd h hn
    · exact h
  exact ((List.singleton_sublist.2 hy).cons_cons x).trans hs

/-- ovs.py:175-184: `type("TestChannel", (AutoPacketOut, OvsChannel, JackinChannel, AutoEchoChannel, ParallelChannel, LoggingChannel), …)`. -/
def exOvs : Def := (.user 0, [.autoPacketOut, .ovs, .jackin, .autoEcho, .parallel, .logging])

example : ((run (library ++ [exOvs]) builtin).bind (·.lookup (.user 0))) =
    some [.user 0, .autoPacketOut, .ovs, .jackin, .parent, .controller, .autoEcho, .parallel, .server, .openflow, .logging, .base, .channel, .weakCaller, .object] := by
  decide +kernel

/-- Python refuses `class X(OpenflowChannel, AutoEchoChannel)`. -/
example : run (library ++ [(.user 0, [.openflow, .autoEcho])]) builtin = none := by decide +kernel

/-! ## Methods -/

/-- The methods of a program: those of the library, and for users' classes none or one that calls `super`. -/
def bodies (user : Nat → Bool) (m : Meth) : Cls → Body
  | .user n => if user n then .super else .absent
  | c => libBody m c

/-- The class whose method ends the chain. -/
def rootOf : Meth → Cls
  | .recv => .base
  | _ => .channel

theorem bodies_root (user : Nat → Bool) (m : Meth) : bodies user m (rootOf m) = .last := by cases m <;> rfl

theorem bodies_other (user : Nat → Bool) (m : Meth) (hm : m ≠ .attach ∧ m ≠ .reclose) (x : Cls) (hx : x ≠ rootOf m) : bodies user m x = .absent ∨ bodies user m x = .super := by
  cases x with
  | user n =>
    simp only [bodies]
    cases user n <;> simp
  | _ => cases m <;> simp_all [bodies, libBody, rootOf]

/-- `__init__`, `send`, `recv` and `close` of an object of any class that derives from `Channel` (from `OpenflowBaseChannel` in the case of `recv`): the call reaches the
method of the root; on its way it runs the method of every layer that derives from the root and has one, each once, in the order of the classes. -/
theorem C107_layers (defs : List Def) (env : Env) (h : run (library ++ defs) builtin = some env) (c : Cls) (l : List Cls) (hc : env.lookup c = some l)
    (user : Nat → Bool) (m : Meth) (hm : m ≠ .attach ∧ m ≠ .reclose) (hroot : Ancestor (library ++ defs) (rootOf m) c) :
    ∃ t, call (bodies user m) l = (t, true) ∧ t.Sublist l ∧ t.Nodup ∧ t.getLast? = some (rootOf m) ∧
      ∀ x, Ancestor (library ++ defs) x c → Ancestor (library ++ defs) (rootOf m) x → (x ∈ t ↔ bodies user m x ≠ .absent) := by
  obtain ⟨hn, hmem, _⟩ := C107_order _ env h c l hc
  have hr : rootOf m ∈ l := (hmem _).2 hroot
  have ht := chain_last (bodies_root user m) (bodies_other user m hm) hr
  have hsub : ((l.takeWhile (· ≠ rootOf m)).filter (fun x => bodies user m x ≠ .absent) ++ [rootOf m]).Sublist l := by
    exact ((List.filter_sublist (l := l.takeWhile (· ≠ rootOf m))).append_right _).trans (tw_upto hr)
  refine ⟨_, ht, hsub, hsub.nodup hn, by simp, ?_⟩
  intro x hx hrx
  by_cases hxr : x = rootOf m
  · subst hxr
    simp [bodies_root]
  · have hb := before_of_sub hn (ancestor_after h hc ((hmem x).2 hx) hrx (Ne.symm hxr))
    simp only [List.mem_append, List.mem_filter, List.mem_singleton, hb, true_and, hxr, or_false, decide_eq_true_eq]

/-- The class of ovs.py: a message sent passes the controller's bookkeeping, then the log, then the socket; a message received goes the other way. -/
example : ∃ env l, run (library ++ [exOvs]) builtin = some env ∧ env.lookup (.user 0) = some l ∧
    call (bodies (fun _ => false) .send) l = ([.controller, .logging, .channel], true) ∧
    call (bodies (fun _ => false) .recv) l = ([.parent, .controller, .openflow, .logging, .base], true) ∧
    call (bodies (fun _ => false) .close) l = ([.parent, .parallel, .logging, .channel], true) ∧
    call (bodies (fun _ => false) .init) l = ([.controller, .parallel, .logging, .base, .channel], true) :=
  ⟨_, _, rfl, rfl, by decide +kernel, by decide +kernel, by decide +kernel, by decide +kernel⟩

/-- All mixins for controllers together; and a client's channel (base.py:757-761). -/
example : ∃ env l k, run (library ++ [(.user 0, [.sync, .portMonitor, .jackin, .autoEcho, .logging]), (.user 1, [.jackinChild, .autoEcho, .logging])]) builtin = some env ∧
    env.lookup (.user 0) = some l ∧ env.lookup (.user 1) = some k ∧
    call (bodies (fun _ => false) .init) l = ([.sync, .portMonitor, .controller, .parallel, .logging, .base, .channel], true) ∧
    call (bodies (fun _ => false) .attach) l = ([.openflow, .channel], true) ∧
    call (bodies (fun _ => false) .send) l = ([.controller, .logging, .channel], true) ∧
    call (bodies (fun _ => false) .recv) l = ([.sync, .portMonitor, .parent, .controller, .openflow, .logging, .base], true) ∧
    call (bodies (fun _ => false) .close) l = ([.sync, .portMonitor, .parent, .parallel, .logging, .channel], true) ∧
    call (bodies (fun _ => false) .init) k = ([.jackinChild, .logging, .base, .channel], true) ∧
    call (bodies (fun _ => false) .send) k = ([.child, .logging, .channel], true) ∧
    call (bodies (fun _ => false) .recv) k = ([.openflow, .logging, .base], true) ∧
    call (bodies (fun _ => false) .close) k = ([.jackinChild, .logging, .channel], true) :=
  ⟨_, _, _, rfl, rfl, rfl, by decide +kernel, by decide +kernel, by decide +kernel, by decide +kernel, by decide +kernel, by decide +kernel, by decide +kernel,
    by decide +kernel, by decide +kernel⟩

/-- Full statement: every layer, be it derived from `Channel` or not.  A layer behind the root has no part in the call: the methods of the roots do not call `super`. -/
theorem C107_behind_refuted (defs : List Def) (env : Env) (h : run (library ++ defs) builtin = some env) (c : Cls) (l : List Cls) (hc : env.lookup c = some l)
    (user : Nat → Bool) (m : Meth) (hm : m ≠ .attach ∧ m ≠ .reclose) (x : Cls) (hx : Before l (rootOf m) x) : x ∉ (call (bodies user m) l).1 := by
  obtain ⟨hn, _⟩ := C107_order _ env h c l hc
  have hr : rootOf m ∈ l := hx.subset (by simp)
  rw [call, chain_last (bodies_root user m) (bodies_other user m hm) hr]
  have hne : x ≠ rootOf m := by
    have := hx.nodup hn
    simp at this
    exact Ne.symm this
  intro hmem
  simp only [List.mem_append, List.mem_filter, List.mem_singleton, hne, or_false] at hmem
  exact (not_before hn hx).1 hmem.1

/-- `class Mixin(object)` with an `__init__`, `class App(LoggingChannel, Mixin)`: `Mixin.__init__` does not run, though `Mixin.__init__` itself would be cooperative. -/
example : ∃ env l, run (library ++ [(.user 0, [.object]), (.user 1, [.logging, .user 0])]) builtin = some env ∧ env.lookup (.user 1) = some l ∧
    Before l (rootOf .init) (.user 0) ∧ call (bodies (fun n => n = 0) .init) l = ([.logging, .base, .channel], true) :=
  ⟨_, _, rfl, rfl, by decide +kernel, by decide +kernel⟩

/-- `ControllerChannel.locked_send` also sends barrier requests of its own, by `super(ControllerChannel, self).send(msg)` (base.py:410): they pass the layers behind
`ControllerChannel` that derive from `Channel` and have a `send`, and no others.  In particular they are logged exactly if `ControllerChannel` comes before
`LoggingChannel`. -/
theorem C107_inserted (defs : List Def) (env : Env) (h : run (library ++ defs) builtin = some env) (c : Cls) (p q : List Cls)
    (hc : env.lookup c = some (p ++ .controller :: q)) (user : Nat → Bool) :
    ∃ t, chain (bodies user .send) none q = (t, true) ∧ t.Sublist q ∧ t.getLast? = some .channel ∧
      (∀ x, Ancestor (library ++ defs) x c → Ancestor (library ++ defs) .channel x →
        (x ∈ t ↔ bodies user .send x ≠ .absent ∧ Before (p ++ .controller :: q) .controller x)) := by
  obtain ⟨hn, hmem, _⟩ := C107_order _ env h c _ hc
  have hctl : Ancestor (library ++ defs) .channel .controller := by
    refine .step (bs := [.server, .weakCaller]) (b := .server) (List.mem_append_left _ (by decide)) (by simp) ?_
    refine .step (bs := [.openflow]) (b := .openflow) (List.mem_append_left _ (by decide)) (by simp) ?_
    refine .step (bs := [.base]) (b := .base) (List.mem_append_left _ (by decide)) (by simp) ?_
    exact .step (bs := [.channel]) (b := .channel) (List.mem_append_left _ (by decide)) (by simp) (.refl _)
  have hbc : Before (p ++ .controller :: q) .controller .channel := ancestor_after h hc (by simp) hctl (by decide)
  have hcp : Cls.controller ∉ p := fun hm => (List.nodup_append.1 hn).2.2 _ hm _ List.mem_cons_self rfl
  have hq : ∀ x, Before (p ++ .controller :: q) .controller x ↔ x ∈ q := by
    intro x
    constructor
    · intro hx
      have hnb := not_before hn hx
      rw [tw_split hcp] at hnb
      have : x ∈ p ++ .controller :: q := hx.subset (by simp)
      rcases List.mem_append.1 this with hh | hh
      · exact absurd hh hnb.1
      · rcases List.mem_cons.1 hh with hh | hh
        · exact absurd hh hnb.2
        · exact hh
    · intro hx
      exact ((List.singleton_sublist.2 hx).cons_cons _).trans (List.sublist_append_right p _)
  have hch : Cls.channel ∈ q := (hq _).1 hbc
  have ht := chain_last (bodies_root user .send) (bodies_other user .send (by decide)) (l := q) hch
  have hsub : ((q.takeWhile (· ≠ .channel)).filter (fun x => bodies user .send x ≠ .absent) ++ [Cls.channel]).Sublist q :=
    ((List.filter_sublist (l := q.takeWhile (· ≠ .channel))).append_right _).trans (tw_upto hch)
  refine ⟨_, ht, hsub, by simp [rootOf], ?_⟩
  intro x hx hxc
  rw [hq]
  constructor
  · intro hm
    refine ⟨?_, hsub.subset hm⟩
    rcases List.mem_append.1 hm with hm | hm
    · simpa using (List.mem_filter.1 hm).2
    · rw [List.mem_singleton.1 hm]
      simp [bodies, libBody, rootOf]
  · rintro ⟨h1, h2⟩
    by_cases hxr : x = .channel
    · subst hxr
      simp [rootOf]
    · have hb := ancestor_after h hc ((hmem x).2 hx) hxc (Ne.symm hxr)
      have hbq : [x, Cls.channel].Sublist q := by
        -- both stand behind `controller`
        have hx' := before_of_sub hn hb
        by_cases hh : [x, Cls.channel].Sublist q
        · exact hh
        · exfalso
          obtain ⟨q1, q2, rfl, hq2⟩ := split_at (k := []) (List.singleton_sublist.2 hch)
          rcases List.mem_append.1 h2 with h2 | h2
          · exact hh (((List.singleton_sublist.2 h2).append_right [Cls.channel]).trans ((List.singleton_sublist.2 List.mem_cons_self).append_left q1))
          · rcases List.mem_cons.1 h2 with h2 | h2
            · exact hxr h2
            · have : [Cls.channel, x].Sublist (p ++ .controller :: (q1 ++ .channel :: q2)) :=
                ((List.singleton_sublist.2 h2).cons_cons _).trans ((List.sublist_append_right q1 _).trans ((List.sublist_cons_self _ _).trans (List.sublist_append_right p _)))
              exact (not_before hn this).1 hx'
      have hnq : q.Nodup := (List.nodup_cons.1 (List.nodup_append.1 hn).2.1).2
      exact List.mem_append_left _ (List.mem_filter.2 ⟨before_of_sub hnq hbq, by simpa using h1⟩)

/-- `class App(ControllerChannel, LoggingChannel)` logs the barrier requests that the library adds, `class App(LoggingChannel, ControllerChannel)` does not. -/
example : (∃ env q, run (library ++ [(.user 0, [.controller, .logging])]) builtin = some env ∧ env.lookup (.user 0) = some ([.user 0] ++ .controller :: q) ∧
      chain (bodies (fun _ => false) .send) none q = ([.logging, .channel], true)) ∧
    (∃ env q, run (library ++ [(.user 0, [.logging, .controller])]) builtin = some env ∧ env.lookup (.user 0) = some ([.user 0, .logging] ++ .controller :: q) ∧
      chain (bodies (fun _ => false) .send) none q = ([.channel], true)) :=
  ⟨⟨_, _, rfl, rfl, by decide +kernel⟩, ⟨_, _, rfl, rfl, by decide +kernel⟩⟩

/-! ## A second `close()` -/

/-- On a closed channel `LoggingChannel.close` ends the call: layers behind it are not asked again.  Those before it, or all layers if there is no `LoggingChannel`, close a
second time. -/
theorem C107_reclose (defs : List Def) (env : Env) (h : run (library ++ defs) builtin = some env) (c : Cls) (l : List Cls) (hc : env.lookup c = some l)
    (user : Nat → Bool) (hroot : Ancestor (library ++ defs) .channel c) :
    ∃ t, call (bodies user .reclose) l = (t, true) ∧ t.Sublist l ∧
      (Ancestor (library ++ defs) .logging c → t.getLast? = some .logging ∧
        ∀ x ∈ l, (Before l x .logging → (x ∈ t ↔ bodies user .reclose x ≠ .absent)) ∧ (Before l .logging x → x ∉ t)) ∧
      (¬ Ancestor (library ++ defs) .logging c → (call (bodies user .close) l) = (t, true)) := by
  obtain ⟨hn, hmem, _⟩ := C107_order _ env h c l hc
  have hr : Cls.channel ∈ l := (hmem _).2 hroot
  have hother : ∀ x, x ≠ .channel → x ≠ .logging → bodies user .reclose x = .absent ∨ bodies user .reclose x = .super := by
    intro x h1 h2
    cases x with
    | user n => simp only [bodies]; cases user n <;> simp
    | _ => simp_all [bodies, libBody]
  have hrest : Ancestor (library ++ defs) .channel .logging := .step (b := .base) (bs := [.base]) (List.mem_append_left _ (by decide)) (by simp)
    (.step (b := .channel) (bs := [.channel]) (List.mem_append_left _ (by decide)) (by simp) (.refl _))
  by_cases hlog : Cls.logging ∈ l
  · have hbe : Before l .logging .channel := ancestor_after h hc hlog hrest (by decide)
    -- up to `logging`
    have key : ∀ l : List Cls, l.Nodup → [Cls.logging, .channel].Sublist l →
        chain (bodies user .reclose) none l = ((l.takeWhile (· ≠ .logging)).filter (fun x => bodies user .reclose x ≠ .absent) ++ [.logging], true) := by
      intro l
      induction l with
      | nil => intro _ h; cases h
      | cons a l ih =>
        intro hn hs
        have hn' := List.nodup_cons.1 hn
        rw [chain]
        by_cases ha : a = .logging
        · subst ha
          simp [bodies, libBody]
        · have hs' : [Cls.logging, .channel].Sublist l := by
            cases hs with
            | cons _ h => exact h
            | cons_cons _ h => exact absurd rfl ha
          have hac : a ≠ .channel := by
            rintro rfl
            exact hn'.1 (hs'.subset (by simp))
          rw [List.takeWhile_cons, if_pos (by simpa using ha)]
          rcases hother a hac ha with h0 | h0
          · rw [h0]
            dsimp only
            rw [ih hn'.2 hs', List.filter_cons_of_neg (by simp [h0])]
          · rw [h0]
            dsimp only
            rw [ih hn'.2 hs', List.filter_cons_of_pos (by simp [h0])]
            rfl
    refine ⟨_, key l hn hbe, ((List.filter_sublist (l := l.takeWhile (· ≠ .logging))).append_right _).trans (tw_upto hlog), ?_, ?_⟩
    · refine fun _ => ⟨by simp, fun x _ => ⟨fun hb => ?_, fun hb => ?_⟩⟩
      · have h1 := before_of_sub hn hb
        have h2 : x ≠ .logging := by
          have := mem_tw h1
          simpa using this
        simp only [List.mem_append, List.mem_filter, List.mem_singleton, h1, true_and, h2, or_false, decide_eq_true_eq]
      · obtain ⟨h1, h2⟩ := not_before hn hb
        simp only [List.mem_append, List.mem_filter, List.mem_singleton, h1, false_and, h2, or_false, not_false_eq_true]
    · intro hna
      exact absurd ((hmem _).1 hlog) hna
  · have key : ∀ l : List Cls, Cls.logging ∉ l → Cls.channel ∈ l → chain (bodies user .reclose) none l = chain (bodies user .close) none l := by
      intro l
      induction l with
      | nil => intro _ h; cases h
      | cons a l ih =>
        intro h1 h2
        have ha : a ≠ .logging := fun e => h1 (e ▸ List.mem_cons_self)
        have hb : bodies user .reclose a = bodies user .close a := by
          cases a <;> first | rfl | exact absurd rfl ha
        rw [chain, chain, hb]
        by_cases hac : a = .channel
        · subst hac
          rfl
        · have h2' : Cls.channel ∈ l := by
            rcases List.mem_cons.1 h2 with h | h
            · exact absurd h.symm hac
            · exact h
          have := ih (fun hm => h1 (List.mem_cons_of_mem _ hm)) h2'
          rcases bodies_other user .close (by decide) a hac with h0 | h0 <;> rw [h0] <;> dsimp only <;> rw [this]
    obtain ⟨t, ht, hts, _⟩ := C107_layers defs env h c l hc user .close (by decide) hroot
    refine ⟨t, ?_, hts, fun hl => absurd ((hmem _).2 hl) hlog, fun _ => ht⟩
    rw [call, key l hlog hr]
    exact ht

/-- The class of ovs.py once more; and the same classes without `LoggingChannel`. -/
example : ∃ env l, run (library ++ [exOvs]) builtin = some env ∧ env.lookup (.user 0) = some l ∧
    call (bodies (fun _ => false) .reclose) l = ([.parent, .parallel, .logging], true) :=
  ⟨_, _, rfl, rfl, by decide +kernel⟩

/-! ## `attach` -/

/-- `attach` of a class that derives from `OpenflowChannel`: every layer that derives from `OpenflowChannel` and has the method takes part once, in order, and so does
`Channel.attach`. -/
theorem C107_attach_partial (defs : List Def) (env : Env) (h : run (library ++ defs) builtin = some env) (c : Cls) (l : List Cls) (hc : env.lookup c = some l)
    (user : Nat → Bool) (hroot : Ancestor (library ++ defs) .openflow c) :
    ∃ t, call (bodies user .attach) l = (t, true) ∧ t.Sublist l ∧ t.getLast? = some .channel ∧
      (∀ x, Ancestor (library ++ defs) x c → Ancestor (library ++ defs) .openflow x → (x ∈ t ↔ bodies user .attach x ≠ .absent)) ∧
      (∀ x, Before l .openflow x → Before l x .base → x ∉ t) := by
  obtain ⟨hn, hmem, _⟩ := C107_order _ env h c l hc
  have ho : Cls.openflow ∈ l := (hmem _).2 hroot
  have hbo : (.openflow, [.base]) ∈ library ++ defs := List.mem_append_left _ (by decide)
  have hcb : (.base, [.channel]) ∈ library ++ defs := List.mem_append_left _ (by decide)
  have h3 : [Cls.openflow, .base, .channel].Sublist l := by
    obtain ⟨mo, hmo, hs⟩ := (run_good h hc).sub _ ho
    refine List.Sublist.trans ?_ hs
    obtain ⟨_, hmemo, ⟨t, rfl⟩, _, hsubo⟩ := C107_order _ env h _ mo hmo
    have hb : Cls.base ∈ t := by
      have := (hmemo .base).2 (.step hbo (by simp) (.refl _))
      simpa using this
    have := ancestor_after h hmo (List.mem_cons_of_mem _ hb) (y := .channel) (.step hcb (List.mem_singleton.2 rfl) (.refl _)) (by decide)
    have ht : [Cls.base, .channel].Sublist t := by
      cases this with
      | cons _ h => exact h
    exact ht.cons_cons _
  have hother : ∀ x, x ≠ .channel → x ≠ .openflow → bodies user .attach x = .absent ∨ bodies user .attach x = .super := by
    intro x h1 h2
    cases x with
    | user n => simp only [bodies]; cases user n <;> simp
    | _ => simp_all [bodies, libBody]
  -- split the order at the three classes
  obtain ⟨p, q, rfl, hp⟩ := split_at h3
  obtain ⟨q, r, rfl, hr⟩ := split_at hp
  have hr : Cls.channel ∈ r := List.singleton_sublist.1 hr
  have hn1 := List.nodup_append.1 hn
  have hn2 := List.nodup_cons.1 hn1.2.1
  have hn3 := List.nodup_append.1 hn2.2
  have hn4 := List.nodup_cons.1 hn3.2.1
  -- the last part
  have hchan : ∀ r : List Cls, Cls.openflow ∉ r → Cls.channel ∈ r →
      chain (bodies user .attach) none r = ((r.takeWhile (· ≠ .channel)).filter (fun x => bodies user .attach x ≠ .absent) ++ [.channel], true) := by
    intro r
    induction r with
    | nil => intro _ h; cases h
    | cons a r ih =>
      intro h1 h2
      have ha : a ≠ .openflow := fun e => h1 (e ▸ List.mem_cons_self)
      rw [chain]
      by_cases hac : a = .channel
      · subst hac
        simp [bodies, libBody]
      · have h2' : Cls.channel ∈ r := by
          rcases List.mem_cons.1 h2 with h | h
          · exact absurd h.symm hac
          · exact h
        have := ih (fun hm => h1 (List.mem_cons_of_mem _ hm)) h2'
        rw [List.takeWhile_cons, if_pos (by simpa using hac)]
        rcases hother a hac ha with h0 | h0
        · rw [h0]
          dsimp only
          rw [this, List.filter_cons_of_neg (by simp [h0])]
        · rw [h0]
          dsimp only
          rw [this, List.filter_cons_of_pos (by simp [h0])]
          rfl
  have hskip : ∀ q : List Cls, Cls.base ∉ q → chain (bodies user .attach) (some .base) (q ++ .base :: r) = chain (bodies user .attach) none r := by
    intro q
    induction q with
    | nil => intro _; simp [chain]
    | cons a q ih =>
      intro h1
      have ha : a ≠ .base := fun e => h1 (e ▸ List.mem_cons_self)
      rw [List.cons_append, chain, if_neg ha]
      exact ih (fun hm => h1 (List.mem_cons_of_mem _ hm))
  have hbq : Cls.base ∉ q := fun hm => (hn3.2.2 _ hm .base List.mem_cons_self) rfl
  have hoq : Cls.openflow ∉ r := fun hm => hn2.1 (List.mem_append_right _ (List.mem_cons_of_mem _ hm))
  have hfront : ∀ p : List Cls, Cls.openflow ∉ p → Cls.channel ∉ p →
      chain (bodies user .attach) none (p ++ .openflow :: (q ++ .base :: r)) =
        (p.filter (fun x => bodies user .attach x ≠ .absent) ++ .openflow :: ((r.takeWhile (· ≠ .channel)).filter (fun x => bodies user .attach x ≠ .absent) ++ [.channel]), true) := by
    intro p
    induction p with
    | nil =>
      intro _ _
      rw [List.nil_append, chain]
      show (let q := chain (bodies user .attach) (some .base) (q ++ .base :: r); (Cls.openflow :: q.1, q.2)) = _
      rw [hskip q hbq, hchan r hoq hr]
      rfl
    | cons a p ih =>
      intro h1 h2
      have ha : a ≠ .openflow := fun e => h1 (e ▸ List.mem_cons_self)
      have hac : a ≠ .channel := fun e => h2 (e ▸ List.mem_cons_self)
      have := ih (fun hm => h1 (List.mem_cons_of_mem _ hm)) (fun hm => h2 (List.mem_cons_of_mem _ hm))
      rw [List.cons_append, chain]
      rcases hother a hac ha with h0 | h0
      · rw [h0]
        dsimp only
        rw [this, List.filter_cons_of_neg (by simp [h0])]
      · rw [h0]
        dsimp only
        rw [this, List.filter_cons_of_pos (by simp [h0])]
        rfl
  have hop : Cls.openflow ∉ p := fun hm => (hn1.2.2 _ hm .openflow List.mem_cons_self) rfl
  have hcp : Cls.channel ∉ p := fun hm =>
    (hn1.2.2 _ hm .channel (List.mem_cons_of_mem _ (List.mem_append_right _ (List.mem_cons_of_mem _ hr)))) rfl
  have hsubr : ((r.takeWhile (· ≠ .channel)).filter (fun x => bodies user .attach x ≠ .absent) ++ [Cls.channel]).Sublist r := by
    exact ((List.filter_sublist (l := r.takeWhile (· ≠ .channel))).append_right _).trans (tw_upto hr)
  refine ⟨_, hfront p hop hcp, ?_, ?_, ?_, ?_⟩
  · exact List.Sublist.append List.filter_sublist ((hsubr.trans ((List.sublist_cons_self _ _).trans (List.sublist_append_right q _))).cons_cons _)
  · rw [List.getLast?_append, List.getLast?_cons, List.getLast?_append]
    simp
  · intro x hx hox
    by_cases hxo : x = .openflow
    · subst hxo
      simp [bodies, libBody]
    · have hb := ancestor_after h hc ((hmem x).2 hx) hox (Ne.symm hxo)
      have hxp : x ∈ p := by
        have := before_of_sub hn hb
        rwa [tw_split hop] at this
      have hxr : x ∉ r := fun hm => (hn1.2.2 _ hxp x (List.mem_cons_of_mem _ (List.mem_append_right _ (List.mem_cons_of_mem _ hm)))) rfl
      have hxc : x ≠ .channel := fun e => hxr (e ▸ hr)
      have hxw : x ∉ r.takeWhile (· ≠ .channel) := fun hm => hxr ((List.takeWhile_sublist _).subset hm)
      simp only [List.mem_append, List.mem_cons, List.mem_filter, hxp, true_and, hxo, hxc, hxw, false_and, List.not_mem_nil, or_false, decide_eq_true_eq]
  · intro x h1 h2
    have hxq : x ∈ q := by
      have hb := before_of_sub hn h2
      have hnb := not_before hn h1
      rw [tw_split hop] at hnb
      have hbp : Cls.base ∉ p ++ .openflow :: q := by
        intro hm
        rcases List.mem_append.1 hm with hm | hm
        · exact (hn1.2.2 _ hm .base (List.mem_cons_of_mem _ (List.mem_append_right _ List.mem_cons_self))) rfl
        · rcases List.mem_cons.1 hm with hm | hm
          · cases hm
          · exact hbq hm
      rw [show p ++ Cls.openflow :: (q ++ Cls.base :: r) = (p ++ .openflow :: q) ++ .base :: r by simp, tw_split hbp] at hb
      rcases List.mem_append.1 hb with hb | hb
      · exact absurd hb hnb.1
      · rcases List.mem_cons.1 hb with hb | hb
        · exact absurd hb hnb.2
        · exact hb
    have hxp : x ∉ p := fun hm => (hn1.2.2 _ hm x (List.mem_cons_of_mem _ (List.mem_append_left _ hxq))) rfl
    have hxo : x ≠ .openflow := fun e => hn2.1 (e ▸ List.mem_append_left _ hxq)
    have hxr : x ∉ r := fun hm => (hn3.2.2 _ hxq x (List.mem_cons_of_mem _ hm)) rfl
    have hxc : x ≠ .channel := fun e => hxr (e ▸ hr)
    have hxw : x ∉ r.takeWhile (· ≠ .channel) := fun hm => hxr ((List.takeWhile_sublist _).subset hm)
    simp only [List.mem_append, List.mem_cons, List.mem_filter, hxp, false_and, hxo, hxc, hxw, List.not_mem_nil, or_false, not_false_eq_true]

/-- Full statement: every layer that derives from `Channel`.  A user's class that derives from `OpenflowBaseChannel`, as `LoggingChannel` does, and has an `attach` is
passed over if it stands behind `OpenflowChannel`, since `OpenflowChannel.attach` calls `super(OpenflowBaseChannel, self)`, not `super(OpenflowChannel, self)`:
`class Mixin(OpenflowBaseChannel)`, `class App(AutoEchoChannel, Mixin)`. -/
theorem C107_attach_refuted : ∃ env l, run (library ++ [(.user 0, [.base]), (.user 1, [.autoEcho, .user 0])]) builtin = some env ∧ env.lookup (.user 1) = some l ∧
    Before l .openflow (.user 0) ∧ Before l (.user 0) .base ∧ call (bodies (fun n => n = 0) .attach) l = ([.openflow, .channel], true) ∧
    call (bodies (fun n => n = 0) .send) l = ([.user 0, .channel], true) :=
  ⟨_, _, rfl, rfl, by decide +kernel, by decide +kernel, by decide +kernel, by decide +kernel⟩

end Twink.Mro
