import Verif.FirMatrix.Model
import Verif.Run

/-!
# C35: control messages of the FIR filter matrices
-/

namespace Visr.FirMatrix

open Visr Visr.Convolver

variable {K F : Type*} [Field K] [Field F] [Algebra K F]

/-! ### Specification -/

/-- The calls of the convolver which the pending messages ask for: the new filters, the
new routing list, if there is one, and the single routings. -/
def Fir.calls (s : Fir K F) : List (Op K) :=
  s.filters.map (fun m => .setImpulseResponse m.value m.index) ++
    ((if s.changed then .clearRoutings :: s.all.map .setRouting else []) ++ s.singles.map .setRouting)

/-- The calls for the pending filter messages of the crossfading matrix: every new filter
starts a transition. -/
def XFir.calls (s : XFir K F) : List (Crossfade.Op K F) :=
  s.filters.map (fun m => .setImpulseResponse m.value m.index true)

/-- The convolver accepts all calls, made in this order. -/
def AllOk {S O R : Type*} (step : S → O → S × Outcome R) (s : S) (ops : List O) : Prop :=
  ∀ r ∈ (run step s ops).2, ∃ x, r = .ok x

/-! ### Lemmas -/

theorem run_append {S O R : Type*} (step : S → O → S × R) (s : S) (a b : List O) :
    run step s (a ++ b) = ((run step (run step s a).1 b).1, (run step s a).2 ++ (run step (run step s a).1 b).2) := by
  induction a generalizing s with
  | nil => rfl
  | cons o a ih => simp only [List.cons_append, run, ih]

theorem allOk_append {S O R : Type*} {step : S → O → S × Outcome R} {s : S} {a b : List O}
    (h : AllOk step s (a ++ b)) : AllOk step s a ∧ AllOk step (final step s a) b := by
  unfold AllOk at *
  rw [run_append] at h
  exact ⟨fun r hr => h r (List.mem_append_left _ hr), fun r hr => h r (List.mem_append_right _ hr)⟩

theorem allOk_cons {S O R : Type*} {step : S → O → S × Outcome R} {s : S} {o : O} {b : List O}
    (h : AllOk step s (o :: b)) : (∃ x, (step s o).2 = .ok x) ∧ AllOk step (step s o).1 b := by
  unfold AllOk at *
  simp only [run, List.mem_cons, forall_eq_or_imp] at h
  exact h

theorem filterLoop_ok {q : List (FilterMsg K)} {c : Multi K F} (hne : ∀ m ∈ q, m.value ≠ [])
    (h : AllOk Multi.step c (q.map (fun m => .setImpulseResponse m.value m.index))) :
    filterLoop setMulti q c =
      (.ok (), [], final Multi.step c (q.map (fun m => .setImpulseResponse m.value m.index))) := by
  induction q generalizing c with
  | nil => rfl
  | cons m q ih =>
    obtain ⟨⟨x, hx⟩, h2⟩ := allOk_cons h
    simp only [filterLoop, List.map_cons, final_cons]
    rw [if_neg (hne m (by simp))]
    simp only [Multi.step] at hx h2 ⊢
    simp only [setMulti]
    cases hs : c.core.setImpulseResponse m.value m.index with
    | ok c' =>
      rw [hs] at h2
      exact ih (fun m hm => hne m (List.mem_cons_of_mem _ hm)) h2
    | throw e => rw [hs] at hx; cases hx
    | ub => rw [hs] at hx; cases hx

theorem xfilterLoop_ok {q : List (FilterMsg K)} {c : Crossfade.Xf K F} (hne : ∀ m ∈ q, m.value ≠ [])
    (h : AllOk Crossfade.Xf.step c (q.map (fun m => .setImpulseResponse m.value m.index true))) :
    filterLoop (fun c ir idx => Crossfade.Xf.setImpulseResponse c ir idx true) q c =
      (.ok (), [], final Crossfade.Xf.step c
        (q.map (fun m => .setImpulseResponse m.value m.index true))) := by
  induction q generalizing c with
  | nil => rfl
  | cons m q ih =>
    obtain ⟨⟨x, hx⟩, h2⟩ := allOk_cons h
    simp only [filterLoop, List.map_cons, final_cons]
    rw [if_neg (hne m (by simp))]
    simp only [Crossfade.Xf.step] at hx h2 ⊢
    cases hs : Crossfade.Xf.setImpulseResponse c m.value m.index true with
    | ok c' =>
      rw [hs] at h2
      exact ih (fun m hm => hne m (List.mem_cons_of_mem _ hm)) h2
    | throw e => rw [hs] at hx; cases hx
    | ub => rw [hs] at hx; cases hx

theorem map_ok {α β : Type*} {o : Outcome α} {f : α → β} {y : β} (h : o.map f = .ok y) : ∃ x, o = .ok x := by
  cases o with
  | ok x => exact ⟨x, rfl⟩
  | throw e => cases h
  | ub => cases h

theorem routingLoop_ok {q : List (Entry K)} {c : Multi K F}
    (h : AllOk Multi.step c (q.map .setRouting)) :
    ∃ r, routingLoop q c.routes = (.ok (), [], r) ∧
      final Multi.step c (q.map .setRouting) = { c with routes := r } := by
  induction q generalizing c with
  | nil => exact ⟨_, rfl, rfl⟩
  | cons e q ih =>
    obtain ⟨⟨x, hx⟩, h2⟩ := allOk_cons h
    simp only [Multi.step] at hx h2
    obtain ⟨y, hy⟩ := map_ok hx
    obtain ⟨r, h3, h4⟩ := ih h2
    refine ⟨r, ?_, h4⟩
    simp only [routingLoop]
    rcases hs : c.routes.set e with ⟨r', o⟩
    rw [hs] at hy h3
    dsimp only at hy
    subst hy
    exact h3

theorem setAll_ok {q : List (Entry K)} {c : Multi K F}
    (h : AllOk Multi.step c (q.map .setRouting)) :
    ∃ r, c.routes.setAll q = (r, .ok ()) ∧
      final Multi.step c (q.map .setRouting) = { c with routes := r } := by
  induction q generalizing c with
  | nil => exact ⟨_, rfl, rfl⟩
  | cons e q ih =>
    obtain ⟨⟨x, hx⟩, h2⟩ := allOk_cons h
    simp only [Multi.step] at hx h2
    obtain ⟨y, hy⟩ := map_ok hx
    obtain ⟨r, h3, h4⟩ := ih h2
    refine ⟨r, ?_, h4⟩
    simp only [Routes.setAll]
    rcases hs : c.routes.set e with ⟨r', o⟩
    rw [hs] at hy h3
    dsimp only at hy
    subst hy
    exact h3

/-! ### Properties -/

/-- C35, partial: if the convolver accepts the pending messages (and no impulse response
is empty), `process()` consumes all of them, makes exactly the calls they ask for, in
order of arrival, and then filters the input with the new settings.  Missing: the same if
some of the messages are invalid, which is false (see below). -/
theorem valid_messages_applied_partial (s : Fir K F) (input : Nat → Nat → K)
    (hne : ∀ m ∈ s.filters, m.value ≠ []) (h : AllOk Multi.step s.conv s.calls) :
    s.process input =
      (⟨(Multi.step (final Multi.step s.conv s.calls) (.process input)).1, [], s.all, false, []⟩,
        (Multi.step (final Multi.step s.conv s.calls) (.process input)).2) := by
  rcases s with ⟨c, q, all, ch, singles⟩
  simp only [Fir.calls] at h ⊢
  obtain ⟨h1, h2⟩ := allOk_append h
  have e1 := filterLoop_ok hne h1
  obtain ⟨h3, h4⟩ := allOk_append h2
  simp only [Fir.process, e1]
  rw [final_append, final_append]
  generalize final Multi.step c (q.map fun m => .setImpulseResponse m.value m.index) = c1 at *
  cases ch with
  | false =>
    simp only [Bool.false_eq_true, if_false, final_nil] at h4 ⊢
    obtain ⟨r, h5, h6⟩ := routingLoop_ok h4
    rw [h6]
    simp only [h5]
  | true =>
    simp only [if_true, final_cons] at h3 h4 ⊢
    obtain ⟨-, h3⟩ := allOk_cons h3
    obtain ⟨r, h5, h6⟩ := setAll_ok h3
    have e2 : Routes.setAll c1.routes.clear all = (r, .ok ()) := h5
    rw [h6] at h4 ⊢
    obtain ⟨r2, h7, h8⟩ := routingLoop_ok h4
    have h7 : routingLoop singles r = (.ok (), [], r2) := h7
    rw [h8]
    simp only [setRoutings, e2, h7]
    rfl

/-- C35, partial, for the crossfading filter matrix. -/
theorem crossfading_messages_applied_partial (s : XFir K F) (input : Nat → Nat → K)
    (hne : ∀ m ∈ s.filters, m.value ≠ []) (h : AllOk Crossfade.Xf.step s.conv s.calls) :
    s.process input =
      (⟨(Crossfade.Xf.step (final Crossfade.Xf.step s.conv s.calls) (.process input)).1, []⟩,
        (Crossfade.Xf.step (final Crossfade.Xf.step s.conv s.calls) (.process input)).2) := by
  rcases s with ⟨c, q⟩
  simp only [XFir.calls] at h ⊢
  simp only [XFir.process, xfilterLoop_ok hne h]

/-- A filter message the convolver rejects: a wrong filter index, or too many
coefficients. -/
def Rejected (c : Multi K F) (m : FilterMsg K) : Prop :=
  m.value ≠ [] ∧ (c.core.entries ≤ m.index ∨ c.core.maxLen < m.value.length)

theorem rejected_throws {c : Multi K F} {m : FilterMsg K} (h : Rejected c m) :
    setMulti c m.value m.index = .throw .invalidArgument := by
  unfold setMulti Core.setImpulseResponse Core.transformImpulseResponse
  by_cases h1 : m.index ≥ c.core.entries
  · rw [if_pos h1]
  · rw [if_neg h1, if_pos (by have := h.2; omega)]

/-- A rejected filter message at the head of the queue: `process()` throws, and nothing
changes. -/
theorem bad_filter_throws (s : Fir K F) (m : FilterMsg K) (q : List (FilterMsg K))
    (hq : s.filters = m :: q) (hm : Rejected s.conv m) (input : Nat → Nat → K) :
    s.process input = (s, .throw .runtimeError) := by
  rcases s with ⟨c, f, all, ch, singles⟩
  simp only at hq hm
  subst hq
  have e : filterLoop setMulti (m :: q) c = (.throw .runtimeError, m :: q, c) := by
    simp only [filterLoop, rejected_throws hm]
    rw [if_neg hm.1]
  simp only [Fir.process, e]

/-- C35 is false: after a rejected filter message every call of `process()` throws, whatever
messages arrive afterwards; no audio is filtered and no message is consumed any more. -/
theorem bad_filter_blocks (s : Fir K F) (m : FilterMsg K) (q : List (FilterMsg K))
    (hq : s.filters = m :: q) (hm : Rejected s.conv m)
    (hist : List (Arrivals K × (Nat → Nat → K))) (a : Arrivals K) (input : Nat → Nat → K) :
    ((hist.foldl (fun s p => (s.period p.1 p.2).1) s).period a input).2 = .throw .runtimeError ∧
      (hist.foldl (fun s p => (s.period p.1 p.2).1) s).conv = s.conv := by
  induction hist generalizing s q with
  | nil =>
    refine ⟨?_, rfl⟩
    rw [List.foldl_nil, Fir.period,
      bad_filter_throws (s.receive a) m (q ++ a.filters) (by simp [Fir.receive, hq]) hm]
  | cons p hist ih =>
    rw [List.foldl_cons]
    have e : (s.period p.1 p.2).1 = s.receive p.1 := by
      rw [Fir.period, bad_filter_throws (s.receive p.1) m (q ++ p.1.filters) (by simp [Fir.receive, hq]) hm]
    rw [e]
    exact ih (s.receive p.1) (q ++ p.1.filters) (by simp [Fir.receive, hq]) hm

/-- The filter loop keeps the routings and the dimensions of the convolver. -/
theorem filterLoop_routes (q : List (FilterMsg K)) (c : Multi K F) :
    (filterLoop setMulti q c).2.2.routes = c.routes := by
  induction q generalizing c with
  | nil => rfl
  | cons m q ih =>
    simp only [filterLoop]
    split_ifs with h
    · rfl
    · cases hs : setMulti c m.value m.index with
      | ok c' =>
        dsimp only
        rw [ih]
        unfold setMulti at hs
        cases h2 : c.core.setImpulseResponse m.value m.index with
        | ok c2 => rw [h2] at hs; injection hs with hs; rw [← hs]
        | throw e => rw [h2] at hs; cases hs
        | ub => rw [h2] at hs; cases hs
      | throw e => cases e <;> rfl
      | ub => rfl

/-- The limits of a routing table. -/
def Routes.same (r r' : Routes K) : Prop :=
  r'.inputs = r.inputs ∧ r'.outputs = r.outputs ∧ r'.filters = r.filters

theorem set_same (r : Routes K) (e : Entry K) : Routes.same r (r.set e).1 := by
  unfold Routes.set
  dsimp only
  split_ifs <;> exact ⟨rfl, rfl, rfl⟩

theorem setAll_same (es : List (Entry K)) (r : Routes K) : Routes.same r (r.setAll es).1 := by
  induction es generalizing r with
  | nil => exact ⟨rfl, rfl, rfl⟩
  | cons e es ih =>
    simp only [Routes.setAll]
    have h := set_same r e
    rcases hs : r.set e with ⟨r', o⟩
    rw [hs] at h
    cases o with
    | ok u =>
      have h2 := ih r'
      exact ⟨h2.1.trans h.1, h2.2.1.trans h.2.1, h2.2.2.trans h.2.2⟩
    | throw x => exact h
    | ub => exact h

/-- A routing with an index outside the dimensions of the filter matrix. -/
def BadRouting (c : Multi K F) (e : Entry K) : Prop :=
  c.routes.inputs ≤ e.input ∨ c.routes.outputs ≤ e.output ∨ c.routes.filters ≤ e.filter

theorem bad_set {r : Routes K} {e : Entry K}
    (h : r.inputs ≤ e.input ∨ r.outputs ≤ e.output ∨ r.filters ≤ e.filter) :
    r.set e = (r, .throw .invalidArgument) := by
  unfold Routes.set
  dsimp only
  split_ifs <;> first | rfl | omega

/-- One call of `process()` with a bad single routing at the head of its queue does not
succeed, and keeps that message. -/
theorem bad_single_step (s : Fir K F) (e : Entry K) (q : List (Entry K)) (hq : s.singles = e :: q)
    (he : BadRouting s.conv e) (input : Nat → Nat → K) :
    (∀ x, (s.process input).2 ≠ .ok x) ∧ (s.process input).1.singles = e :: q ∧
      BadRouting (s.process input).1.conv e := by
  rcases s with ⟨c, f, all, ch, singles⟩
  simp only at hq he
  subst hq
  simp only [Fir.process]
  have hr := filterLoop_routes f c
  rcases hf : filterLoop setMulti f c with ⟨o, q', c'⟩
  rw [hf] at hr
  simp only at hr
  have he' : BadRouting c' e := by unfold BadRouting; rw [hr]; exact he
  cases o with
  | throw x => exact ⟨by simp, rfl, he'⟩
  | ub => exact ⟨by simp, rfl, he'⟩
  | ok u =>
    dsimp only
    have hs : Routes.same c'.routes (if ch then setRoutings all c'.routes else (c'.routes, .ok ())).1 := by
      split_ifs
      · exact setAll_same all c'.routes.clear
      · exact ⟨rfl, rfl, rfl⟩
    rcases hg : (if ch then setRoutings all c'.routes else (c'.routes, .ok ())) with ⟨r, o⟩
    rw [hg] at hs
    obtain ⟨s1, s2, s3⟩ := hs
    have he2 : r.inputs ≤ e.input ∨ r.outputs ≤ e.output ∨ r.filters ≤ e.filter := by
      dsimp only at s1 s2 s3
      rw [s1, s2, s3]; exact he'
    cases o with
    | throw x => exact ⟨by simp, rfl, he2⟩
    | ub => exact ⟨by simp, rfl, he2⟩
    | ok u =>
      have e4 : routingLoop (e :: q) r = (.throw .runtimeError, e :: q, r) := by
        simp only [routingLoop, bad_set he2]
      simp only [e4]
      exact ⟨by simp, trivial, he2⟩

/-- C35 is false also for single routings: after a routing with an invalid index no call of
`process()` succeeds any more, whatever arrives. -/
theorem bad_single_blocks (s : Fir K F) (e : Entry K) (q : List (Entry K)) (hq : s.singles = e :: q)
    (he : BadRouting s.conv e) (hist : List (Arrivals K × (Nat → Nat → K))) (a : Arrivals K)
    (input : Nat → Nat → K) :
    ∀ x, ((hist.foldl (fun s p => (s.period p.1 p.2).1) s).period a input).2 ≠ .ok x := by
  induction hist generalizing s q with
  | nil =>
    exact (bad_single_step (s.receive a) e (q ++ a.singles) (by simp [Fir.receive, hq]) he input).1
  | cons p hist ih =>
    rw [List.foldl_cons]
    obtain ⟨-, h2, h3⟩ := bad_single_step (s.receive p.1) e (q ++ p.1.singles)
      (by simp [Fir.receive, hq]) he p.2
    exact ih _ _ h2 h3

theorem setAll_bad (es : List (Entry K)) (r : Routes K)
    (h : ∃ e ∈ es, r.inputs ≤ e.input ∨ r.outputs ≤ e.output ∨ r.filters ≤ e.filter) :
    ∃ x, (r.setAll es).2 = .throw x := by
  induction es generalizing r with
  | nil => obtain ⟨e, he, -⟩ := h; cases he
  | cons e es ih =>
    simp only [Routes.setAll]
    have hs := set_same r e
    rcases hr : r.set e with ⟨r', o⟩
    rw [hr] at hs
    obtain ⟨s1, s2, s3⟩ := hs
    dsimp only at s1 s2 s3
    cases o with
    | ok u =>
      refine ih r' ?_
      obtain ⟨e', he', hb⟩ := h
      rcases List.mem_cons.mp he' with rfl | he'
      · rw [bad_set hb] at hr; cases hr
      · exact ⟨e', he', by rw [s1, s2, s3]; exact hb⟩
    | throw x => exact ⟨x, rfl⟩
    | ub =>
      exfalso
      have : (r.set e).2 = .ub := by rw [hr]
      unfold Routes.set at this
      dsimp only at this
      split_ifs at this

/-- C35 is false also for routing lists: as long as the routing list with an invalid index
is not replaced, every call of `process()` fails (the flag of the input is not reset). -/
theorem bad_routings_block (s : Fir K F) (hc : s.changed = true) (hb : ∃ e ∈ s.all, BadRouting s.conv e)
    (hist : List (Arrivals K × (Nat → Nat → K))) (hh : ∀ p ∈ hist, p.1.all = none)
    (a : Arrivals K) (ha : a.all = none) (input : Nat → Nat → K) :
    ∀ x, ((hist.foldl (fun s p => (s.period p.1 p.2).1) s).period a input).2 ≠ .ok x := by
  have key : ∀ (s : Fir K F) (input : Nat → Nat → K), s.changed = true →
      (∃ e ∈ s.all, BadRouting s.conv e) →
      (∀ x, (s.process input).2 ≠ .ok x) ∧ (s.process input).1.changed = true ∧
        (∃ e ∈ (s.process input).1.all, BadRouting (s.process input).1.conv e) := by
    rintro ⟨c, f, all, ch, singles⟩ input hc ⟨e, hm, he⟩
    simp only at hc he hm
    subst hc
    simp only [Fir.process]
    have hr := filterLoop_routes f c
    rcases hf : filterLoop setMulti f c with ⟨o, q', c'⟩
    rw [hf] at hr
    simp only at hr
    have he' : BadRouting c' e := by unfold BadRouting; rw [hr]; exact he
    cases o with
    | throw x => exact ⟨by simp, rfl, e, hm, he'⟩
    | ub => exact ⟨by simp, rfl, e, hm, he'⟩
    | ok u =>
      dsimp only
      simp only [if_true]
      have hs := setAll_same all c'.routes.clear
      obtain ⟨x, hx⟩ := setAll_bad all c'.routes.clear ⟨e, hm, he'⟩
      rcases hg : setRoutings all c'.routes with ⟨r, o⟩
      rw [setRoutings] at hg
      rw [hg] at hs hx
      obtain ⟨s1, s2, s3⟩ := hs
      dsimp only at s1 s2 s3 hx
      subst hx
      refine ⟨by simp, rfl, e, hm, ?_⟩
      simp only [BadRouting]
      rw [s1, s2, s3]; exact he'
  induction hist generalizing s with
  | nil =>
    refine (key (s.receive a) input (by simp [Fir.receive, hc]) ?_).1
    simpa [Fir.receive, ha] using hb
  | cons p hist ih =>
    rw [List.foldl_cons]
    have hp : p.1.all = none := hh p (by simp)
    obtain ⟨-, h2, h3⟩ := key (s.receive p.1) p.2 (by simp [Fir.receive, hc])
      (by simpa [Fir.receive, hp] using hb)
    exact ih _ h2 h3 (fun p hp => hh p (by simp [hp]))

/-- C35 is false also for the crossfading matrix: a filter with too many coefficients makes
every later `process()` throw, whatever arrives. -/
theorem crossfading_bad_filter_blocks (s : XFir K F) (m : FilterMsg K) (q : List (FilterMsg K))
    (hq : s.filters = m :: q) (hne : m.value ≠ []) (hi : m.index < s.conv.maxFilters)
    (hl : s.conv.core.maxLen < m.value.length)
    (hist : List (List (FilterMsg K) × (Nat → Nat → K))) (a : List (FilterMsg K)) (input : Nat → Nat → K) :
    let period := fun (s : XFir K F) (p : List (FilterMsg K) × (Nat → Nat → K)) =>
      XFir.process { s with filters := s.filters ++ p.1 } p.2
    (period (hist.foldl (fun s p => (period s p).1) s) (a, input)).2 = .throw .runtimeError := by
  intro period
  have key : ∀ (s : XFir K F) (q : List (FilterMsg K)), s.filters = m :: q →
      m.index < s.conv.maxFilters → s.conv.core.maxLen < m.value.length → ∀ input,
      s.process input = (s, .throw .runtimeError) := by
    rintro ⟨c, f⟩ q hq hi hl input
    simp only at hq hi hl
    subst hq
    have e0 : Crossfade.Xf.setImpulseResponse c m.value m.index true = .throw .invalidArgument := by
      unfold Crossfade.Xf.setImpulseResponse Core.setImpulseResponse Core.transformImpulseResponse
      rw [if_neg (by omega)]
      dsimp only
      generalize (if (if c.current m.index = 0 then 1 else 0) = 0 then m.index else m.index + c.maxFilters) = j
      by_cases h1 : j ≥ c.core.entries
      · rw [if_pos h1]
      · rw [if_neg h1, if_pos (by omega)]
    have e : filterLoop (fun c ir idx => Crossfade.Xf.setImpulseResponse c ir idx true) (m :: q) c =
        (.throw .runtimeError, m :: q, c) := by
      simp only [filterLoop, e0]
      rw [if_neg hne]
    simp only [XFir.process, e]
  induction hist generalizing s q with
  | nil =>
    rw [List.foldl_nil]
    simp only [period]
    rw [key { s with filters := s.filters ++ a } (q ++ a) (by simp [hq]) hi hl]
  | cons p hist ih =>
    rw [List.foldl_cons]
    have e : (period s p).1 = { s with filters := s.filters ++ p.1 } := by
      simp only [period]
      rw [key { s with filters := s.filters ++ p.1 } (q ++ p.1) (by simp [hq]) hi hl]
    rw [e]
    exact ih { s with filters := s.filters ++ p.1 } (q ++ p.1) (by simp [hq]) hi hl

/-! ### Concrete cases -/

/-- A matrix with two filters of up to three coefficients, one input and one output: a
message with a filter and one with a routing are accepted. -/
example (c : Multi ℚ ℚ) (he : c.core.entries = 2) (hm : c.core.maxLen = 3)
    (hr : c.routes = ⟨1, 1, 2, 1, []⟩) :
    AllOk Multi.step c (Fir.calls ⟨c, [⟨1, [1, 2]⟩], [⟨0, 0, 1, 1⟩], true, []⟩) := by
  rcases c with ⟨c, r⟩
  simp only at he hm hr
  subst hr
  simp [AllOk, Fir.calls, run, Multi.step, Core.setImpulseResponse, Core.transformImpulseResponse,
    he, hm, Routes.clear, Routes.set, eraseEntry, Outcome.map]

/-- Filter index 2 and an impulse response of four coefficients are rejected. -/
example (c : Multi ℚ ℚ) (he : c.core.entries = 2) (hm : c.core.maxLen = 3) :
    Rejected c ⟨2, [1]⟩ ∧ Rejected c ⟨0, [1, 2, 3, 4]⟩ := by
  simp [Rejected, he, hm]

/-- A routing from input 1 is rejected by a matrix with one input. -/
example (c : Multi ℚ ℚ) (hr : c.routes = ⟨1, 1, 2, 1, []⟩) : BadRouting c ⟨1, 0, 0, 1⟩ := by
  simp [BadRouting, hr]

end Visr.FirMatrix
