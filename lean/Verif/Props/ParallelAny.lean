import Verif.Props.Parallel
import Verif.Props.RateCalls

/-! # Property C66: how often messages are handled, for all schedules and rate limits -/

namespace Twink.Par
open Twink Spec

/-- Threads of the rate limiter that call something call `handle` for a submitted message. -/
theorem poolMsgs_count {tasks : List Bytes} {l : List RProxy}
    (h : ∀ p ∈ l, (unstarted p = true → p.called = none) ∧
      (unstarted p = false → ∃ a b c, p.called = some (some a, some b, some c) ∧ b < tasks.length)) :
    ((l.filterMap (·.called)).filterMap fun c => c.2.1.bind (tasks[·]?)).length = (l.filter fun p => !unstarted p).length ∧
    ∀ m ∈ (l.filterMap (·.called)).filterMap (fun c => c.2.1.bind (tasks[·]?)), m ∈ tasks := by
  induction l with
  | nil => simp
  | cons p l ih =>
    obtain ⟨i1, i2⟩ := ih fun q hq => h q (by simp [hq])
    obtain ⟨h1, h2⟩ := h p (by simp)
    cases hu : unstarted p with
    | true =>
      simp only [List.filterMap_cons, h1 hu, List.filter_cons, hu]
      exact ⟨by simpa using i1, i2⟩
    | false =>
      obtain ⟨a, b, c, e, hb⟩ := h2 hu
      simp only [List.filterMap_cons, e, List.filter_cons, hu, Option.bind_some, List.getElem?_eq_getElem hb]
      constructor
      · simpa using i1
      · intro m hm
        rcases List.mem_cons.1 hm with rfl | hm
        · exact List.getElem_mem hb
        · exact i2 m hm

/-- C66 for all rate limits and all schedules: `handle` is only ever called for messages that were received, not more often than messages
were received, and at rest exactly as often. (Partial: with `async_rate` it may be called twice for one message and never for
another, `C66_refuted`.) -/
theorem C66_count_partial (rate : Nat) (ops : List Op) (ho : ∀ op ∈ ops, op.HasHeader) :
    let s := runs (fresh rate) ops
    (∀ m ∈ s.handled, m ∈ s.got) ∧ s.handled.length ≤ s.got.length ∧ (AtRest s → s.handled.length = s.got.length) := by
  intro s
  have hi : PInv s := pinv_runs ops ho (pinv_fresh rate)
  have hpool : s.pool = rrun (freshRate rate) (poolOps (fresh rate) ops) := pool_runs ops (fresh rate)
  have hcalls := RateCalls.C35_calls_partial rate (poolOps (fresh rate) ops)
  obtain ⟨⟨rest, hr⟩, hn⟩ := C35_started_partial rate (poolOps (fresh rate) ops)
  rw [← hpool] at hr hn
  simp only [← hpool] at hcalls
  obtain ⟨k1, k2⟩ := poolMsgs_count (tasks := s.tasks) (l := s.pool.proxies) (fun p hp => ⟨(hcalls p hp).1, fun hu => by
    obtain ⟨a, b, c, e, _, hb, _⟩ := (hcalls p hp).2 hu
    exact ⟨a, b, c, e, by rw [← hi.count]; exact hb.2⟩⟩)
  have lh := hi.handled.length_eq
  have lg := hi.got.length_eq
  rw [List.length_append] at lh lg
  have lb : (begun s.threads).length ≤ (s.threads.map Thread.msg).length := by
    rw [begun, List.length_map, List.length_map]; exact List.length_filter_le _ _
  have lr := congrArg List.length hr
  rw [List.length_append, List.length_map, List.length_range, hi.count] at lr
  have lf := List.length_filter_le (fun p => !unstarted p) s.pool.proxies
  have kp : (poolMsgs s.tasks s.pool).length = (s.pool.proxies.filter fun p => !unstarted p).length := k1
  refine ⟨fun m hm => ?_, by omega, fun hrest => ?_⟩
  · refine hi.got.symm.subset ?_
    rcases List.mem_append.1 (hi.handled.subset hm) with hb | hp
    · obtain ⟨t, ht, rfl⟩ := List.mem_map.1 hb
      exact List.mem_append_left _ (List.mem_map_of_mem (List.mem_filter.1 ht).1)
    · exact List.mem_append_right _ (k2 m hp)
  · obtain ⟨ht, hl, hd⟩ := hrest
    have ln := congrArg List.length (hn hl)
    rw [List.length_map, List.length_range, hi.count] at ln
    have e1 : begun s.threads = s.threads.map Thread.msg := by
      rw [begun, List.filter_eq_self.2]
      intro t hm
      simp [ht t hm]
    have e2 : s.pool.proxies.filter (fun p => !unstarted p) = s.pool.proxies := by
      rw [List.filter_eq_self]
      intro p hp
      simp [unstarted, hd p hp]
    rw [e2] at kp
    rw [e1] at lh
    omega

/-- Non-vacuity of C66_count_partial: the schedule of `C66_refuted` has headers and comes to rest. -/
example : ∃ ops, (∀ op ∈ ops, op.HasHeader) ∧ AtRest (runs (fresh 2) ops) ∧ (runs (fresh 2) ops).handled.length = 2 := by
  obtain ⟨ops, h1, h2, h3, h4⟩ := C66_refuted
  exact ⟨ops, h1, h2, by rw [h4]; rfl⟩

end Twink.Par
