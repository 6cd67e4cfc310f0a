import Verif.ConvolverApp.Spec
import Verif.Application.Props
import Verif.Options.Props
import Verif.ChannelList.Sequence
import Mathlib.Tactic.SplitIfs

/-!
# C103: the matrix convolver application
-/

namespace Visr.ConvolverApp

open Options (Word Vars FileOptions readWords effective sizeSetting textSetting readSize)
open Application (Base Device Res Status loop Backend registerAll builtin)

variable {K R : Type} [Zero K]

theorem registered : Options.Registered options := by
  refine ⟨by decide +kernel, ?_, ⟨some 'h', by decide +kernel⟩, ⟨some 'v', by decide +kernel⟩, ⟨none, by decide +kernel⟩⟩
  unfold Options.GoodName
  decide +kernel

theorem refuse_ok {b : Bool} {e : Exn} {u : Unit} (h : refuse b e = .ok u) : b = false := by
  unfold refuse at h
  split_ifs at h with hb
  simpa using hb

/-- **C103.** The convolver plays with the channel numbers, routings, filters, period, sampling frequency and libraries
given on the command line or in the option file, and with the documented default values for all others: as many routings as
are given, filters as long and as many as the files contain. There are never more routings than the given maximum. -/
theorem convolver_settings {w : World K R} {args : List Word} {p : Plan K R} {spec : Word} {d : Device}
    (h : Plays w args p spec d) :
    ∃ cmd file, readWords options true args = .ok cmd ∧ FileOptions options w.files cmd file ∧
      (∃ x, effective cmd file "input-channels".toList = some [x] ∧ readSize x = some p.inputs) ∧
      (∃ x, effective cmd file "output-channels".toList = some [x] ∧ readSize x = some p.outputs) ∧
      sizeSetting cmd file "period".toList 1024 = some p.period ∧
      sizeSetting cmd file "sampling-frequency".toList 48000 = some p.samplingRate ∧
      textSetting cmd file "audio-backend".toList "default".toList = some p.backend ∧
      textSetting cmd file "fft-library".toList "default".toList = some p.fft ∧
      (∃ text, textSetting cmd file "routings".toList "[]".toList = some text ∧ w.routes text = .ok p.routings) ∧
      sizeSetting cmd file "max-routings".toList p.routings.length = some p.maxRoutings ∧
      p.routings.length ≤ p.maxRoutings ∧
      (∃ len n list offsetText offsets,
        sizeSetting cmd file "max-filter-length".toList sizeMax = some len ∧
        sizeSetting cmd file "max-filters".toList sizeMax = some n ∧
        textSetting cmd file "filters".toList [] = some list ∧
        textSetting cmd file "filter-file-index-offsets".toList [] = some offsetText ∧
        ChannelList.parse offsetText = .ok offsets ∧
        FilterMatrix.initFilterMatrix w.sort w.disk list (limit len) (limit n) (offsets.map Int.toNat) = .ok p.filters) ∧
      (effective cmd file "dsp-optimisation".toList ≠ none → w.dsp = true) := by
  obtain ⟨v, ⟨hp, -⟩, hs, -⟩ := h
  obtain ⟨cmd, file, hc, hf, hv⟩ := Options.precedence registered hp (by decide)
  have hv : Options.Holds options v cmd file := hv
  unfold plan at hs
  obtain ⟨backend, e1, hs⟩ := Options.bind_ok hs
  obtain ⟨inputs, e2, hs⟩ := Options.bind_ok hs
  obtain ⟨outputs, e3, hs⟩ := Options.bind_ok hs
  obtain ⟨text, e4, hs⟩ := Options.bind_ok hs
  obtain ⟨routings, e5, hs⟩ := Options.bind_ok hs
  obtain ⟨maxRoutings, e6, hs⟩ := Options.bind_ok hs
  obtain ⟨u, e7, hs⟩ := Options.bind_ok hs
  obtain ⟨len, e8, hs⟩ := Options.bind_ok hs
  obtain ⟨n, e9, hs⟩ := Options.bind_ok hs
  obtain ⟨list, e10, hs⟩ := Options.bind_ok hs
  obtain ⟨offsetText, e11, hs⟩ := Options.bind_ok hs
  obtain ⟨offsets, e12, hs⟩ := Options.bind_ok hs
  obtain ⟨filters, e13, hs⟩ := Options.bind_ok hs
  obtain ⟨period, e14, hs⟩ := Options.bind_ok hs
  obtain ⟨rate, e15, hs⟩ := Options.bind_ok hs
  obtain ⟨fft, e16, hs⟩ := Options.bind_ok hs
  obtain ⟨dsp, e17, hs⟩ := Options.bind_ok hs
  obtain ⟨u', e18, hs⟩ := Options.bind_ok hs
  cases hs
  have e7 := refuse_ok e7
  have e18 := refuse_ok e18
  have hd := Options.flagOr_eq hv (c := some 'd') (by decide +kernel) e17
  exact ⟨cmd, file, hc, hf, Options.getSize_eq hv (c := some 'i') (by decide +kernel) e2,
    Options.getSize_eq hv (c := some 'o') (by decide +kernel) e3,
    Options.sizeOr_eq hv (c := some 'p') (by decide +kernel) e14,
    Options.sizeOr_eq hv (c := some 'f') (by decide +kernel) e15,
    Options.textOr_eq hv (c := some 'D') (by decide +kernel) e1,
    Options.textOr_eq hv (c := none) (by decide +kernel) e16,
    ⟨text, Options.textOr_eq hv (c := some 'r') (by decide +kernel) e4, e5⟩,
    Options.sizeOr_eq hv (c := none) (by decide +kernel) e6,
    by simpa using e7,
    ⟨len, n, list, offsetText, offsets, Options.sizeOr_eq hv (c := some 'l') (by decide +kernel) e8,
      Options.sizeOr_eq hv (c := none) (by decide +kernel) e9, Options.textOr_eq hv (c := none) (by decide +kernel) e10,
      Options.textOr_eq hv (c := none) (by decide +kernel) e11, e12, e13⟩,
    fun he => by
      have : dsp = true := by
        rw [hd]; exact Option.isSome_iff_ne_none.2 he
      rw [this] at e18
      simpa using e18⟩

/-! ## The possible histories -/

omit [Zero K] in
theorem typed_iff (w : World K R) (reads : Nat) : Typed w reads ↔ loop w.console 0 reads ≠ none := by
  rw [Ne, Application.loop_none]
  simp [Typed]

/-- The interface runs. -/
def Running (w : World K R) (v : Vars) (p : Plan K R) (spec : Word) (d : Device) : Prop :=
  plan w v = .ok p ∧ w.build p = .ok () ∧ w.flow p = .ok () ∧ Options.interfaceOptions v w.files = .ok spec ∧
    Application.create w.interfaces p.backend (base p) spec = .ok d ∧ d.register = .ok () ∧ d.start = .ok ()

/-- The objects that exist at a failure, and the events after it. -/
inductive Failure : List Event → List Event → Prop
  | none : Failure [] []
  | convolver : Failure [.convolver] [.convolverGone]
  | flow : Failure [.convolver, .flow] [.flowGone, .convolverGone]
  | interface (n b p) : Failure [.convolver, .flow, .interface n b p] [.interfaceGone, .flowGone, .convolverGone]
  | callback (n b p) : Failure [.convolver, .flow, .interface n b p, .callback] [.interfaceGone, .flowGone, .convolverGone]
  | started (n b p) :
      Failure [.convolver, .flow, .interface n b p, .callback, .started] [.interfaceGone, .flowGone, .convolverGone]

/-- How far a run of the try block came after the lists, with its events. -/
inductive History (w : World K R) (v : Vars) (reads : Nat) : List Event → Res → Prop
  | failed {l t : List Event} {e : Exn} : Failure l t →
      (∀ n b s, .interface n b s ∈ l → ∃ p, plan w v = .ok p ∧ n = p.backend ∧ b = base p ∧
        Options.interfaceOptions v w.files = .ok s) →
      (∀ p spec d, Running w v p spec d → Typed w reads ∧ d.stop = .throw e) →
      History w v reads (l ++ if e = .cString then [] else t) (.thrown e)
  | undefined {l t : List Event} : Failure l t →
      (∀ n b s, .interface n b s ∈ l → ∃ p, plan w v = .ok p ∧ n = p.backend ∧ b = base p ∧
        Options.interfaceOptions v w.files = .ok s) →
      (∀ p spec d, Running w v p spec d → Typed w reads ∧ d.stop = .ub) → History w v reads l .undefined
  | waiting {p spec d} : Running w v p spec d → ¬ Typed w reads →
      History w v reads [.convolver, .flow, .interface p.backend (base p) spec, .callback, .started] .waiting
  | done {p spec d} : Running w v p spec d → Typed w reads → d.stop = .ok () →
      History w v reads [.convolver, .flow, .interface p.backend (base p) spec, .callback, .started, .stopped, .unregistered,
        .unflush, .interfaceGone, .flowGone, .convolverGone] .done

theorem history (w : World K R) (v : Vars) (reads : Nat) :
    History w v reads (use (plan w v) fun p => convolve w v p reads).1 (use (plan w v) fun p => convolve w v p reads).2 := by
  cases hp : plan w v with
  | throw e =>
    have := History.failed (w := w) (v := v) (reads := reads) (e := e) .none (by simp) (by simp [Running, hp])
    simpa [use] using this
  | ub => exact .undefined (l := []) .none (by simp) (by simp [Running, hp])
  | ok p =>
    have only : ∀ p' s d, Running w v p' s d → w.build p = .ok () ∧ w.flow p = .ok () ∧
        Options.interfaceOptions v w.files = .ok s := by
      rintro p' s d ⟨a1, a2, a3, a4, -⟩
      rw [hp] at a1; cases a1
      exact ⟨a2, a3, a4⟩
    simp only [use]
    unfold convolve
    cases hb : w.build p with
    | throw e =>
      have := History.failed (w := w) (v := v) (reads := reads) (e := e) .none (by simp) (fun _ _ _ h => by simpa [hb] using only _ _ _ h)
      simpa [scope] using this
    | ub => exact .undefined (l := []) .none (by simp) (fun _ _ _ h => by simpa [hb] using only _ _ _ h)
    | ok _ =>
      cases hf : w.flow p with
      | throw e =>
        have := History.failed (w := w) (v := v) (reads := reads) (e := e) .convolver (by simp) (fun _ _ _ h => by simpa [hb, hf] using only _ _ _ h)
        by_cases he : e = .cString <;> simpa [scope, Res.unwinds, he] using this
      | ub =>
        have := History.undefined (w := w) (v := v) (reads := reads) .convolver (by simp) (fun _ _ _ h => by simpa [hb, hf] using only _ _ _ h)
        simpa [scope, Res.unwinds] using this
      | ok _ =>
        cases ho : Options.interfaceOptions v w.files with
        | throw e =>
          have := History.failed (w := w) (v := v) (reads := reads) (e := e) .flow (by simp)
            (fun _ _ _ h => by simpa [hb, hf, ho] using only _ _ _ h)
          by_cases he : e = .cString <;> simpa [scope, use, Res.unwinds, he] using this
        | ub =>
          have := History.undefined (w := w) (v := v) (reads := reads) .flow (by simp) (fun _ _ _ h => by simpa [hb, hf, ho] using only _ _ _ h)
          simpa [scope, use, Res.unwinds] using this
        | ok spec =>
          cases hc : Application.create w.interfaces p.backend (base p) spec with
          | throw e =>
            have := History.failed (w := w) (v := v) (reads := reads) (e := e) .flow (by simp) (by
              rintro p' spec' d' ⟨a1, -, -, a4, a5, -⟩
              rw [hp] at a1; cases a1; rw [ho] at a4; cases a4; rw [hc] at a5; cases a5)
            by_cases he : e = .cString <;> simpa [scope, use, hc, Res.unwinds, he] using this
          | ub =>
            have := History.undefined (w := w) (v := v) (reads := reads) .flow (by simp) (by
              rintro p' spec' d' ⟨a1, -, -, a4, a5, -⟩
              rw [hp] at a1; cases a1; rw [ho] at a4; cases a4; rw [hc] at a5; cases a5)
            simpa [scope, use, hc, Res.unwinds] using this
          | ok d =>
            have uniq : ∀ p' spec' d', Running w v p' spec' d' → d' = d := by
              rintro p' spec' d' ⟨a1, -, -, a4, a5, -⟩
              rw [hp] at a1; cases a1; rw [ho] at a4; cases a4; rw [hc] at a5; cases a5; rfl
            have hi : ∀ l : List Event, (∀ n b s, .interface n b s ∈ l →
                (.interface n b s : Event) = .interface p.backend (base p) spec) →
                ∀ n b s, .interface n b s ∈ l → ∃ p, plan w v = .ok p ∧ n = p.backend ∧ b = base p ∧
                  Options.interfaceOptions v w.files = .ok s := by
              intro l hl n b s hm
              have := hl n b s hm
              cases this
              exact ⟨p, hp, rfl, rfl, ho⟩
            cases hr : d.register with
            | throw e =>
              have := History.failed (w := w) (v := v) (reads := reads) (e := e) (.interface p.backend (base p) spec)
                (hi _ (by simp)) (by
                  intro p' spec' d' h
                  have := uniq _ _ _ h
                  subst this
                  have := h.2.2.2.2.2.1
                  rw [hr] at this; cases this)
              by_cases he : e = .cString <;> simpa [scope, act, use, hc, hr, Res.unwinds, he] using this
            | ub =>
              have := History.undefined (w := w) (v := v) (reads := reads) (.interface p.backend (base p) spec)
                (hi _ (by simp)) (by
                  intro p' spec' d' h
                  have := uniq _ _ _ h
                  subst this
                  have := h.2.2.2.2.2.1
                  rw [hr] at this; cases this)
              simpa [scope, act, use, hc, hr, Res.unwinds] using this
            | ok _ =>
              cases ht : d.start with
              | throw e =>
                have := History.failed (w := w) (v := v) (reads := reads) (e := e) (.callback p.backend (base p) spec)
                  (hi _ (by simp)) (by
                    intro p' spec' d' h
                    have := uniq _ _ _ h
                    subst this
                    have := h.2.2.2.2.2.2
                    rw [ht] at this; cases this)
                by_cases he : e = .cString <;> simpa [scope, act, use, hc, hr, ht, Res.unwinds, he] using this
              | ub =>
                have := History.undefined (w := w) (v := v) (reads := reads) (.callback p.backend (base p) spec)
                  (hi _ (by simp)) (by
                    intro p' spec' d' h
                    have := uniq _ _ _ h
                    subst this
                    have := h.2.2.2.2.2.2
                    rw [ht] at this; cases this)
                simpa [scope, act, use, hc, hr, ht, Res.unwinds] using this
              | ok _ =>
                have hrun : Running w v p spec d := ⟨hp, hb, hf, ho, hc, hr, ht⟩
                cases hl : loop w.console 0 reads with
                | none =>
                  have := History.waiting (reads := reads) hrun (fun h => (typed_iff _ _).1 h hl)
                  simpa [scope, act, use, hc, hr, ht, Res.unwinds] using this
                | some k =>
                  have hy : Typed w reads := (typed_iff _ _).2 (by rw [hl]; simp)
                  cases hq : d.stop with
                  | throw e =>
                    have := History.failed (w := w) (v := v) (reads := reads) (e := e) (.started p.backend (base p) spec)
                      (hi _ (by simp)) (by
                        intro p' spec' d' h
                        have := uniq _ _ _ h
                        subst this
                        exact ⟨hy, hq⟩)
                    by_cases he : e = .cString <;> simpa [scope, act, use, hc, hr, ht, hq, Res.unwinds, he] using this
                  | ub =>
                    have := History.undefined (w := w) (v := v) (reads := reads) (.started p.backend (base p) spec)
                      (hi _ (by simp)) (by
                        intro p' spec' d' h
                        have := uniq _ _ _ h
                        subst this
                        exact ⟨hy, hq⟩)
                    simpa [scope, act, use, hc, hr, ht, hq, Res.unwinds] using this
                  | ok _ =>
                    have := History.done (reads := reads) hrun hy hq
                    simpa [scope, act, use, hc, hr, ht, hq, Res.unwinds] using this

/-- The possible ends of the application. -/
inductive Ends (w : World K R) (args : List Word) (reads : Nat) : List Event × Status → Prop
  | informs : Informs w args → Ends w args reads ([.flush], .exit 0)
  | refused : (∃ v, Options.parse options w.files args = .ok (.failure, v)) → Ends w args reads ([.flush], .exit 1)
  | outside {e} : Options.parse options w.files args = .throw e → Ends w args reads ([.flush], .aborted)
  | outsideUb : Options.parse options w.files args = .ub → Ends w args reads ([.flush], .undefined)
  | block {v l r} : Asked w args v → History w v reads l r →
      Ends w args reads (.flush :: (handle (l, r)).1, (handle (l, r)).2)

omit [Zero K] in
theorem lists_ok {w : World K R} {args : List Word} {v : Vars}
    (h : Options.parse options w.files args = .ok (.success, v)) : ∃ b, lists v = .ok b := by
  obtain ⟨cmd, file, -, -, hv⟩ := Options.precedence registered h (by decide)
  have key : ∀ n, ⟨n, none, .flag⟩ ∈ options → ∃ b, v.flagOr n false = .ok b := by
    intro n hn
    have hv := hv _ hn
    dsimp only at hv
    unfold Vars.flagOr Vars.has Vars.getFlag
    cases he : effective cmd file n with
    | none =>
      rw [he] at hv
      simp only [if_true, Option.map_eq_some_iff] at hv
      obtain ⟨⟨x, y⟩, e1, e2⟩ := hv
      dsimp only at e2
      subst e2
      exact ⟨false, by simp [e1]⟩
    | some ws =>
      rw [he] at hv
      obtain ⟨val, h1, h2⟩ := hv
      simp only [Options.convert, Outcome.ok.injEq] at h1
      subst h1
      simp only [Option.map_eq_some_iff] at h2
      obtain ⟨⟨x, y⟩, e1, e2⟩ := h2
      dsimp only at e2
      subst e2
      exact ⟨true, by simp [e1]⟩
  obtain ⟨a, ha⟩ := key "list-audio-backends".toList (by decide +kernel)
  obtain ⟨b, hb⟩ := key "list-fft-libraries".toList (by decide +kernel)
  unfold lists
  rw [ha, hb]
  cases a
  · exact ⟨b, rfl⟩
  · exact ⟨true, rfl⟩

theorem ends (w : World K R) (args : List Word) (reads : Nat) : Ends w args reads (main w args reads) := by
  unfold main
  cases ho : Options.parse options w.files args with
  | throw e => exact .outside ho
  | ub => exact .outsideUb ho
  | ok x =>
    obtain ⟨r, v⟩ := x
    cases r with
    | failure => exact .refused ⟨v, ho⟩
    | help => exact .informs ⟨v, Or.inl ho⟩
    | version => exact .informs ⟨v, Or.inr (Or.inl ho)⟩
    | success =>
      obtain ⟨b, hb⟩ := lists_ok ho
      simp only [withOptions, block, hb, use]
      cases b with
      | true =>
        simp only [handle, if_true]
        exact .informs ⟨v, Or.inr (Or.inr ⟨ho, hb⟩)⟩
      | false => exact .block ⟨ho, hb⟩ (history w v reads)

/-! ## The application -/

/-- **C103.** The exit code is zero exactly if the program was asked for its help text, its version or a list, or the
convolver played until a letter q was typed and the interface was stopped without a problem. -/
theorem exit_success (w : World K R) (args : List Word) (reads : Nat) :
    (main w args reads).2 = .exit 0 ↔
      Informs w args ∨ ∃ p spec d, Plays w args p spec d ∧ Typed w reads ∧ d.stop = .ok () := by
  have H := ends w args reads
  generalize main w args reads = m at H
  constructor
  · intro h
    cases H with
    | informs hi => exact Or.inl hi
    | refused _ => cases h
    | outside _ => cases h
    | outsideUb _ => cases h
    | block ha H =>
      cases H with
      | failed _ _ _ => simp only [handle] at h; split_ifs at h <;> cases h
      | undefined _ _ _ => cases h
      | waiting _ _ => cases h
      | done a b c => exact Or.inr ⟨_, _, _, ⟨_, ha, a⟩, b, c⟩
  · rintro (⟨v, hi⟩ | ⟨p, spec, d, ⟨v, ha, hr⟩, hy, hs⟩)
    · cases H with
      | informs _ => rfl
      | refused h =>
        obtain ⟨v', h⟩ := h
        rw [h] at hi; simp at hi
      | outside h => rw [h] at hi; simp at hi
      | outsideUb h => rw [h] at hi; simp at hi
      | block ha H =>
        obtain ⟨h1, h2⟩ := ha
        rw [h1] at hi
        simp only [Outcome.ok.injEq, Prod.mk.injEq, reduceCtorEq, false_and, true_and, false_or] at hi
        obtain ⟨rfl, hi⟩ := hi
        rw [h2] at hi; cases hi
    · have hr : Running w v p spec d := hr
      cases H with
      | informs _ => rfl
      | refused h => obtain ⟨v', h⟩ := h; rw [ha.1] at h; cases h
      | outside h => rw [ha.1] at h; cases h
      | outsideUb h => rw [ha.1] at h; cases h
      | block ha' H =>
        have := ha'.1
        rw [ha.1] at this; cases this
        cases H with
        | failed _ _ h => have := (h _ _ _ hr).2; rw [hs] at this; cases this
        | undefined _ _ h => have := (h _ _ _ hr).2; rw [hs] at this; cases this
        | waiting _ h => exact absurd hy h
        | done _ _ _ => rfl

/-- **C103.** The convolver plays until a letter q is typed, not longer and not shorter. -/
theorem plays_until_q (w : World K R) (args : List Word) (reads : Nat) :
    (main w args reads).2 = .waiting ↔ ∃ p spec d, Plays w args p spec d ∧ ¬ Typed w reads := by
  have H := ends w args reads
  generalize main w args reads = m at H
  constructor
  · intro h
    cases H with
    | informs h => cases h
    | refused _ => cases h
    | outside _ => cases h
    | outsideUb _ => cases h
    | block ha H =>
      cases H with
      | failed _ _ _ => simp only [handle] at h; split_ifs at h
      | undefined _ _ _ => cases h
      | waiting a b => exact ⟨_, _, _, ⟨_, ha, a⟩, b⟩
      | done a b c => cases h
  · rintro ⟨p, spec, d, ⟨v, ha, hr⟩, hy⟩
    have hr : Running w v p spec d := hr
    cases H with
    | informs h =>
      obtain ⟨v', h | h | h⟩ := h
      · rw [ha.1] at h; cases h
      · rw [ha.1] at h; cases h
      · have h1 := h.1
        rw [ha.1] at h1; cases h1
        have := h.2
        rw [ha.2] at this; cases this
    | refused h => obtain ⟨v', h⟩ := h; rw [ha.1] at h; cases h
    | outside h => rw [ha.1] at h; cases h
    | outsideUb h => rw [ha.1] at h; cases h
    | block ha' H =>
      have := ha'.1
      rw [ha.1] at this; cases this
      cases H with
      | failed _ _ h => exact absurd (h _ _ _ hr).1 hy
      | undefined _ _ h => exact absurd (h _ _ _ hr).1 hy
      | waiting _ h => rfl
      | done _ h _ => exact absurd h hy

/-- **C103.** Exit codes are zero and one. -/
theorem exit_codes {w : World K R} {args : List Word} {reads c : Nat} (h : (main w args reads).2 = .exit c) :
    c = 0 ∨ c = 1 := by
  have H := ends w args reads
  generalize main w args reads = m at H h
  cases H with
  | informs _ => cases h; exact Or.inl rfl
  | refused _ => cases h; exact Or.inr rfl
  | outside _ => cases h
  | outsideUb _ => cases h
  | block ha H =>
    cases H with
    | failed _ _ _ => simp only [handle] at h; split_ifs at h <;> cases h; exact Or.inr rfl
    | undefined _ _ _ => cases h
    | waiting _ _ => cases h
    | done _ _ _ => cases h; exact Or.inl rfl

theorem after_nil (e b : Event) : After [] e b ↔ True := by
  simp [After]

theorem after_cons (x : Event) (t : List Event) (e b : Event) : After (x :: t) e b ↔ x ≠ e ∧ (x = b ∨ After t e b) := by
  constructor
  · intro h
    refine ⟨fun hx => ?_, ?_⟩
    · have := h [] t (by rw [hx]; rfl)
      cases this
    · by_cases hx : x = b
      · exact Or.inl hx
      · refine Or.inr fun l r ht => ?_
        have := h (x :: l) r (by rw [ht]; rfl)
        rcases List.mem_cons.1 this with rfl | h
        · exact absurd rfl hx
        · exact h
  · rintro ⟨h1, h2⟩ l r hl
    cases l with
    | nil =>
      simp only [List.nil_append, List.cons.injEq] at hl
      exact absurd hl.1 h1
    | cons y l =>
      simp only [List.cons_append, List.cons.injEq] at hl
      obtain ⟨rfl, hl⟩ := hl
      rcases h2 with rfl | h2
      · exact List.mem_cons_self
      · exact List.mem_cons_of_mem _ (h2 l r hl)

/-- **C103.** Audio is only processed while the signal flow exists: the interface starts after the flow was registered as
its callback, the callback is only removed after the interface was stopped, and in every case, also after an exception, the
interface is destroyed before the signal flow, which is destroyed before the convolver. -/
theorem flow_outlives_interface (w : World K R) (args : List Word) (reads : Nat) :
    After (main w args reads).1 .flow .convolver ∧ After (main w args reads).1 .callback .flow ∧
    After (main w args reads).1 .started .callback ∧ After (main w args reads).1 .stopped .started ∧
    After (main w args reads).1 .unregistered .stopped ∧
    (∀ n b p, After (main w args reads).1 (.interface n b p) .flow) ∧
    (∀ n b p, .interface n b p ∈ (main w args reads).1 → After (main w args reads).1 .flowGone .interfaceGone) ∧
    (.flow ∈ (main w args reads).1 → After (main w args reads).1 .convolverGone .flowGone) := by
  have H := ends w args reads
  generalize main w args reads = m at H
  cases H with
  | informs _ => simp [after_cons, after_nil]
  | refused _ => simp [after_cons, after_nil]
  | outside _ => simp [after_cons, after_nil]
  | outsideUb _ => simp [after_cons, after_nil]
  | block ha H =>
    cases H with
    | @failed l t e hf _ _ =>
      by_cases he : e = .cString <;> simp only [handle, he, if_true, if_false] <;> cases hf <;> simp [after_cons, after_nil]
    | undefined hf _ _ => cases hf <;> simp [handle, after_cons, after_nil]
    | waiting _ _ => simp [handle, after_cons, after_nil]
    | done _ _ _ => simp [handle, after_cons, after_nil]

/-- **C103.** Nothing is left when the program ends with an exit code: each created object is destroyed. -/
theorem all_released {w : World K R} {args : List Word} {reads c : Nat} (h : (main w args reads).2 = .exit c) :
    (.convolver ∈ (main w args reads).1 → .convolverGone ∈ (main w args reads).1) ∧
    (.flow ∈ (main w args reads).1 → .flowGone ∈ (main w args reads).1) ∧
    (∀ n b p, .interface n b p ∈ (main w args reads).1 → .interfaceGone ∈ (main w args reads).1) := by
  have H := ends w args reads
  generalize main w args reads = m at H h
  cases H with
  | informs _ => simp
  | refused _ => simp
  | outside _ => simp
  | outsideUb _ => simp
  | block ha H =>
    cases H with
    | @failed l t e hf _ _ =>
      by_cases he : e = .cString
      · simp [handle, he] at h
      · simp only [handle, he, if_false]
        cases hf <;> simp
    | undefined hf _ _ => cases h
    | waiting _ _ => cases h
    | done _ _ _ => simp [handle]

/-- **C103.** Once the options are read, the handling of denormalised numbers is restored exactly once before the program
ends with an exit code, also after a failure; while it plays it is not restored. -/
theorem mode_restored {w : World K R} {args : List Word} {v : Vars} (ha : Asked w args v) (reads : Nat) :
    (∀ c, (main w args reads).2 = .exit c → (main w args reads).1.count .unflush = 1) ∧
    ((main w args reads).2 = .waiting → (main w args reads).1.count .unflush = 0) := by
  have H := ends w args reads
  generalize main w args reads = m at H
  cases H with
  | informs h =>
    obtain ⟨v', h | h | h⟩ := h
    · rw [ha.1] at h; cases h
    · rw [ha.1] at h; cases h
    · have h1 := h.1
      rw [ha.1] at h1; cases h1
      have := h.2
      rw [ha.2] at this; cases this
  | refused h => obtain ⟨v', h⟩ := h; rw [ha.1] at h; cases h
  | outside h => rw [ha.1] at h; cases h
  | outsideUb h => rw [ha.1] at h; cases h
  | block ha' H =>
    cases H with
    | @failed l t e hf _ _ =>
      by_cases he : e = .cString
      · simp [handle, he]
      · simp only [handle, he, if_false]
        cases hf <;> simp
    | undefined hf _ _ => simp [handle]
    | waiting _ _ => simp [handle]
    | done _ _ _ => simp [handle]

/-- **C103.** The audio interface is created with the name, the channel numbers, the sampling frequency, the period and the
options that the user gave. -/
theorem interface_settings {w : World K R} {args : List Word} {reads : Nat} {n : Word} {b : Base} {s : Word}
    (h : .interface n b s ∈ (main w args reads).1) :
    ∃ v p, Asked w args v ∧ plan w v = .ok p ∧ n = p.backend ∧ b = ⟨p.inputs, p.outputs, p.samplingRate, p.period⟩ ∧
      Options.interfaceOptions v w.files = .ok s := by
  have H := ends w args reads
  generalize main w args reads = m at H h
  cases H with
  | informs _ => simp at h
  | refused _ => simp at h
  | outside _ => simp at h
  | outsideUb _ => simp at h
  | @block v l r ha H =>
    cases H with
    | @failed l t e hf hi _ =>
      have hm : .interface n b s ∈ l := by
        by_cases he : e = .cString
        · simpa [handle, he] using h
        · simp only [handle, he, if_false] at h
          cases hf <;> simpa using h
      obtain ⟨p, h1, h2, h3, h4⟩ := hi _ _ _ hm
      exact ⟨v, p, ha, h1, h2, h3, h4⟩
    | undefined hf hi _ =>
      obtain ⟨p, h1, h2, h3, h4⟩ := hi _ _ _ (by simpa [handle] using h)
      exact ⟨v, p, ha, h1, h2, h3, h4⟩
    | waiting a _ =>
      simp [handle] at h
      exact ⟨v, _, ha, a.1, h.1, h.2.1, by rw [h.2.2]; exact a.2.2.2.1⟩
    | done a _ _ =>
      simp [handle] at h
      exact ⟨v, _, ha, a.1, h.1, h.2.1, by rw [h.2.2]; exact a.2.2.2.1⟩

end Visr.ConvolverApp
