import Verif.Application.Spec
import Verif.Options.Props
import Mathlib.Data.List.Induction

/-!
# C99: the life of a renderer application
-/

namespace Visr.Application

open Options (Word Settings)

/-! ## The factory -/

theorem insert_names (t : Table) (n : Word) (b : Backend) : ∀ m, m ∈ names (insert t n b) ↔ m = n ∨ m ∈ names t := by
  induction t with
  | nil => intro m; simp [insert, names]
  | cons x t ih =>
    obtain ⟨k, c⟩ := x
    intro m
    unfold insert
    split_ifs with h1 h2
    · simp [names]
    · have := ih m
      simp only [names, List.map_cons, List.mem_cons] at this ⊢
      rw [this]
      constructor <;> rintro (h | h | h) <;> simp [h]
    · have hk : k = n := le_antisymm (not_lt.1 h1) (not_lt.1 h2)
      subst hk
      simp [names]

theorem insert_sorted (t : Table) (n : Word) (b : Backend) (h : (names t).Pairwise (· < ·)) :
    (names (insert t n b)).Pairwise (· < ·) := by
  induction t with
  | nil => simp [insert, names]
  | cons x t ih =>
    obtain ⟨k, c⟩ := x
    have h' := h
    simp only [names, List.map_cons, List.pairwise_cons] at h
    unfold insert
    split_ifs with h1 h2
    · simp only [names, List.map_cons, List.pairwise_cons, List.mem_cons]
      refine ⟨?_, h⟩
      rintro m (rfl | hm)
      · exact h1
      · exact lt_trans h1 (h.1 m hm)
    · simp only [names, List.map_cons, List.pairwise_cons]
      refine ⟨fun m hm => ?_, ih h.2⟩
      rcases (insert_names t n b m).1 hm with rfl | hm
      · exact h2
      · exact h.1 m hm
    · exact h'

theorem insert_find (t : Table) (n m : Word) (b : Backend) (h : (names t).Pairwise (· < ·)) :
    find (insert t n b) m = match find t m with
      | some c => some c
      | none => if m = n then some b else none := by
  induction t with
  | nil =>
    rcases lt_trichotomy m n with h | h | h
    · simp [insert, find, h, h.ne]
    · simp [insert, find, h]
    · simp [insert, find, h, h.ne', not_lt.2 h.le]
  | cons x t ih =>
    obtain ⟨k, c⟩ := x
    simp only [names, List.map_cons, List.pairwise_cons] at h
    have ih := ih h.2
    rcases lt_trichotomy n k with a | a | a
    · rcases lt_trichotomy m n with h | h | h
      · simp [insert, find, a, h, h.ne, lt_trans h a]
      · simp [insert, find, a, h]
      · simp only [insert, find, a, if_true, not_lt.2 h.le, if_false, h, h.ne']
        cases (if m < k then none else if k < m then find t m else some c) <;> rfl
    · subst a
      simp only [insert, lt_irrefl, if_false]
      rcases lt_trichotomy m n with h | h | h
      · simp [find, h, h.ne]
      · simp [find, h]
      · simp only [find, h, not_lt.2 h.le, if_false, if_true, h.ne']
        cases find t m <;> rfl
    · simp only [insert, a, not_lt.2 a.le, if_false, if_true]
      rcases lt_trichotomy m k with h | h | h
      · simp [find, h, (lt_trans h a).ne]
      · simp [find, h]
      · simp only [find, h, not_lt.2 h.le, if_false, if_true]
        exact ih

theorem registerAll_append (regs : List (Word × Backend)) (r : Word × Backend) :
    registerAll (regs ++ [r]) = insert (registerAll regs) r.1 r.2 := by
  simp [registerAll]

/-- **C99.** The list of audio interfaces contains every registered name once, in alphabetical order. -/
theorem interfaces_listed (regs : List (Word × Backend)) :
    (names (registerAll regs)).Pairwise (· < ·) ∧ ∀ n, n ∈ names (registerAll regs) ↔ ∃ b, (n, b) ∈ regs := by
  induction regs using List.reverseRecOn with
  | nil => simp [registerAll, names]
  | append_singleton l r ih =>
    obtain ⟨k, c⟩ := r
    rw [registerAll_append]
    refine ⟨insert_sorted _ _ _ ih.1, fun n => ?_⟩
    rw [insert_names, ih.2 n]
    simp only [List.mem_append, List.mem_singleton, Prod.mk.injEq]
    constructor
    · rintro (rfl | ⟨b, hb⟩)
      · exact ⟨c, Or.inr ⟨rfl, rfl⟩⟩
      · exact ⟨b, Or.inl hb⟩
    · rintro ⟨b, hb | ⟨rfl, rfl⟩⟩
      · exact Or.inr ⟨b, hb⟩
      · exact Or.inl rfl

/-- **C99.** Exactly the registered names give an interface, in their exact spelling; the first registration of a name
counts. -/
theorem interface_created (regs : List (Word × Backend)) (n : Word) (b : Base) (spec : Word) :
    create (registerAll regs) n b spec =
      match regs.find? (fun r => r.1 = n) with
      | some r => r.2 b spec
      | none => .throw .invalidArgument := by
  have : find (registerAll regs) n = (regs.find? fun r => r.1 = n).map Prod.snd := by
    induction regs using List.reverseRecOn with
    | nil => rfl
    | append_singleton l r ih =>
      rw [registerAll_append, insert_find _ _ _ _ (interfaces_listed l).1, ih, List.find?_append]
      cases l.find? fun r => r.1 = n with
      | some x => rfl
      | none =>
        by_cases h : r.1 = n
        · simp [h]
        · simp [h, Ne.symm h]
  unfold create
  rw [this]
  cases regs.find? fun r => r.1 = n <;> rfl

/-! ## The console -/

theorem isQuit_iff (c : Option UInt8) : isQuit c = true ↔ c = some 113 := by
  cases c with
  | none => simp [isQuit]
  | some b => simp [isQuit]

theorem loop_none (console : Nat → Option UInt8) : ∀ (n k : Nat),
    loop console k n = none ↔ ∀ i < n, console (k + i) ≠ some 113
  | 0, k => by simp [loop]
  | n + 1, k => by
    unfold loop
    split_ifs with h
    · simp only [false_iff, not_forall, not_not]
      exact ⟨0, by omega, (isQuit_iff _).1 h⟩
    · rw [loop_none console n (k + 1)]
      constructor
      · intro g i hi
        cases i with
        | zero => intro e; exact h ((isQuit_iff _).2 e)
        | succ i => have := g i (by omega); rwa [show k + 1 + i = k + (i + 1) by omega] at this
      · intro g i hi
        rw [show k + 1 + i = k + (i + 1) by omega]
        exact g (i + 1) (by omega)

theorem typed_iff (w : World) (reads : Nat) : Typed w reads ↔ loop w.console 0 reads ≠ none := by
  rw [Ne, loop_none]
  simp [Typed]

/-! ## The possible histories -/

/-- The settings that the parsed options lead to. -/
def Accepts (w : World) (o : Outcome (Options.Result × Options.Vars)) (s : Settings) : Prop :=
  ∃ v, o = .ok (.success, v) ∧ Options.settings v w.files w.arrays w.table = .ok s

/-- The interface runs. -/
def Running (w : World) (o : Outcome (Options.Result × Options.Vars)) (s : Settings) (d : Device) : Prop :=
  Accepts w o s ∧ w.build s = .ok () ∧ w.flow s = .ok () ∧ create w.interfaces s.backend (base s) s.interface = .ok d ∧
    d.register = .ok () ∧ d.start = .ok ()

/-- How far a run came, with the events of that history. -/
inductive History (w : World) (o : Outcome (Options.Result × Options.Vars)) (reads : Nat) : List Event → Res → Prop
  | informs : (∃ v, o = .ok (.help, v) ∨ o = .ok (.version, v)) → History w o reads [] (.exit 0)
  | refused : (∃ v, o = .ok (.failure, v)) → History w o reads [] (.exit 1)
  | parse {e} : o = .throw e → History w o reads [] (.thrown e)
  | settings {v e} : o = .ok (.success, v) →
      Options.settings v w.files w.arrays w.table = .throw e → History w o reads [] (.thrown e)
  | build {s e} : Accepts w o s → w.build s = .throw e → History w o reads [] (.thrown e)
  | flow {s e} : Accepts w o s → w.build s = .ok () → w.flow s = .throw e →
      History w o reads (.renderer :: (if e = .cString then [] else [.rendererGone])) (.thrown e)
  | create {s e} : Accepts w o s → w.build s = .ok () → w.flow s = .ok () →
      create w.interfaces s.backend (base s) s.interface = .throw e →
      History w o reads ([.renderer, .flow] ++ (if e = .cString then [] else [.flowGone, .rendererGone])) (.thrown e)
  | register {s d e} : Accepts w o s → w.build s = .ok () → w.flow s = .ok () →
      create w.interfaces s.backend (base s) s.interface = .ok d → d.register = .throw e →
      History w o reads ([.renderer, .flow, .interface s.backend (base s) s.interface] ++
        (if e = .cString then [] else [.interfaceGone, .flowGone, .rendererGone])) (.thrown e)
  | start {s d e} : Accepts w o s → w.build s = .ok () → w.flow s = .ok () →
      create w.interfaces s.backend (base s) s.interface = .ok d → d.register = .ok () → d.start = .throw e →
      History w o reads ([.renderer, .flow, .interface s.backend (base s) s.interface, .callback] ++
        (if e = .cString then [] else [.interfaceGone, .flowGone, .rendererGone])) (.thrown e)
  | waiting {s d} : Running w o s d → ¬ Typed w reads →
      History w o reads [.renderer, .flow, .interface s.backend (base s) s.interface, .callback, .started] .waiting
  | stop {s d e} : Running w o s d → Typed w reads → d.stop = .throw e →
      History w o reads ([.renderer, .flow, .interface s.backend (base s) s.interface, .callback, .started] ++
        (if e = .cString then [] else [.interfaceGone, .flowGone, .rendererGone])) (.thrown e)
  | done {s d} : Running w o s d → Typed w reads → d.stop = .ok () →
      History w o reads [.renderer, .flow, .interface s.backend (base s) s.interface, .callback, .started, .stopped,
        .unflush, .interfaceGone, .flowGone, .rendererGone] .done
  | undefined {l} : l <+: [.renderer, .flow] ∨ (∃ s, Accepts w o s ∧
        l <+: [.renderer, .flow, .interface s.backend (base s) s.interface, .callback, .started]) →
      History w o reads l .undefined

theorem history (w : World) (o : Outcome (Options.Result × Options.Vars)) (reads : Nat) :
    History w o reads (withOptions w o reads).1
      (withOptions w o reads).2 := by
  cases o with
  | throw e => exact .parse rfl
  | ub => exact .undefined (Or.inl ⟨_, rfl⟩)
  | ok x =>
    obtain ⟨r, v⟩ := x
    cases r with
    | failure => exact .refused ⟨v, rfl⟩
    | help => exact .informs ⟨v, Or.inl rfl⟩
    | version => exact .informs ⟨v, Or.inr rfl⟩
    | success =>
      unfold withOptions withSettings
      dsimp only
      cases hs : Options.settings v w.files w.arrays w.table with
      | throw e => exact .settings rfl hs
      | ub => exact .undefined (Or.inl ⟨_, rfl⟩)
      | ok s =>
        have ha : Accepts w (.ok (.success, v)) s := ⟨v, rfl, hs⟩
        dsimp only
        unfold render
        cases hb : w.build s with
        | throw e => exact .build ha hb
        | ub => exact .undefined (Or.inl ⟨_, rfl⟩)
        | ok u =>
          cases hf : w.flow s with
          | throw e =>
            have := History.flow (reads := reads) ha hb hf
            by_cases he : e = .cString <;> simpa [scope, Res.unwinds, he] using this
          | ub => exact .undefined (Or.inl ⟨[.flow], rfl⟩)
          | ok u2 =>
            cases hc : create w.interfaces s.backend (base s) s.interface with
            | throw e =>
              have := History.create (reads := reads) ha hb hf hc
              by_cases he : e = .cString <;> simpa [scope, Res.unwinds, he] using this
            | ub => exact .undefined (Or.inl ⟨[], rfl⟩)
            | ok d =>
              cases hr : d.register with
              | throw e =>
                have := History.register (reads := reads) ha hb hf hc hr
                by_cases he : e = .cString <;> simpa [scope, act, hr, Res.unwinds, he] using this
              | ub =>
                have := History.undefined (reads := reads) (w := w) (o := .ok (.success, v))
                  (l := [.renderer, .flow, .interface s.backend (base s) s.interface]) (Or.inr ⟨s, ha, ⟨_, rfl⟩⟩)
                simpa [scope, act, hr, Res.unwinds] using this
              | ok u3 =>
                cases ht : d.start with
                | throw e =>
                  have := History.start (reads := reads) ha hb hf hc hr ht
                  by_cases he : e = .cString <;> simpa [scope, act, hr, ht, Res.unwinds, he] using this
                | ub =>
                  have := History.undefined (reads := reads) (w := w) (o := .ok (.success, v))
                    (l := [.renderer, .flow, .interface s.backend (base s) s.interface, .callback]) (Or.inr ⟨s, ha, ⟨_, rfl⟩⟩)
                  simpa [scope, act, hr, ht, Res.unwinds] using this
                | ok u4 =>
                  have hplays : Running w (.ok (.success, v)) s d := ⟨ha, hb, hf, hc, hr, ht⟩
                  cases hl : loop w.console 0 reads with
                  | none =>
                    have := History.waiting (reads := reads) hplays (fun h => (typed_iff _ _).1 h hl)
                    simpa [scope, act, hr, ht, Res.unwinds] using this
                  | some k =>
                    have hy : Typed w reads := (typed_iff _ _).2 (by rw [hl]; simp)
                    cases hq : d.stop with
                    | throw e =>
                      have := History.stop (reads := reads) hplays hy hq
                      by_cases he : e = .cString <;> simpa [scope, act, hr, ht, hq, Res.unwinds, he] using this
                    | ub =>
                      have := History.undefined (reads := reads) (w := w) (o := .ok (.success, v))
                        (l := [.renderer, .flow, .interface s.backend (base s) s.interface, .callback, .started])
                        (Or.inr ⟨s, ha, ⟨_, rfl⟩⟩)
                      simpa [scope, act, hr, ht, hq, Res.unwinds] using this
                    | ok u5 =>
                      have := History.done (reads := reads) hplays hy hq
                      simpa [scope, act, hr, ht, hq, Res.unwinds] using this

/-! ## The application -/

theorem conclude_exit_zero {r : Res} : conclude r = .exit 0 ↔ r = .done ∨ r = .exit 0 := by
  cases r <;> simp [conclude]
  split_ifs <;> simp

theorem run_plays {w : World} {o : Outcome (Options.Result × Options.Vars)} {s : Settings} {d : Device}
    (h : Running w o s d) (reads : Nat) :
    withOptions w o reads = if loop w.console 0 reads = none then
        ([.renderer, .flow, .interface s.backend (base s) s.interface, .callback, .started], .waiting)
      else scope (.ok ()) .renderer .rendererGone fun _ => scope (.ok ()) .flow .flowGone fun _ =>
        scope (.ok ()) (.interface s.backend (base s) s.interface) .interfaceGone fun _ =>
        act (.ok ()) .callback <| act (.ok ()) .started <| act d.stop .stopped ([.unflush], .done) := by
  obtain ⟨⟨v, rfl, hs⟩, hb, hf, hc, hr, ht⟩ := h
  simp only [withOptions, withSettings, hs, render, hb, hf, hc]
  cases hl : loop w.console 0 reads with
  | none => simp [scope, act, hr, ht, Res.unwinds]
  | some k => cases hd : d.stop <;> simp [scope, act, hr, ht, hd, Res.unwinds]

/-- Opens a statement about `main`: the parsed options are replaced by a variable, so that no proof evaluates them. -/
theorem main_eq (w : World) (args : List Word) (reads : Nat) : ∃ l r,
    withOptions w (Options.parse Options.rendererOptions w.files args) reads = (l, r) ∧
    History w (Options.parse Options.rendererOptions w.files args) reads l r ∧
    (main w args reads).1 = .flush :: l ∧ (main w args reads).2 = conclude r :=
  ⟨_, _, rfl, history w _ reads, rfl, rfl⟩

/-- **C99.** The exit code is zero exactly if the help text or the version was asked for, or the renderer played until a
letter q was typed and the interface was stopped without a problem. -/
theorem exit_success (w : World) (args : List Word) (reads : Nat) :
    (main w args reads).2 = .exit 0 ↔
      Informs w args ∨ ∃ s d, Plays w args s d ∧ Typed w reads ∧ d.stop = .ok () := by
  obtain ⟨l, r, he, H, -, h2⟩ := main_eq w args reads
  rw [h2, conclude_exit_zero]
  unfold Informs Plays Accepted
  generalize Options.parse Options.rendererOptions w.files args = o at he H ⊢
  constructor
  · rintro (rfl | rfl)
    · cases H with
      | done a b c => exact Or.inr ⟨_, _, a, b, c⟩
    · cases H with
      | informs h => exact Or.inl h
  · rintro (⟨v, rfl | rfl⟩ | ⟨s, d, h1, h2, h3⟩)
    · cases he; exact Or.inr rfl
    · cases he; exact Or.inr rfl
    · rw [run_plays (s := s) (d := d) h1, if_neg ((typed_iff _ _).1 h2), h3] at he
      cases he
      exact Or.inl rfl

/-- **C99.** The application keeps playing as long as no letter q was typed, and only then. -/
theorem plays_until_q (w : World) (args : List Word) (reads : Nat) :
    (main w args reads).2 = .waiting ↔ ∃ s d, Plays w args s d ∧ ¬ Typed w reads := by
  obtain ⟨l, r, he, H, -, h2⟩ := main_eq w args reads
  rw [h2]
  unfold Plays Accepted
  generalize Options.parse Options.rendererOptions w.files args = o at he H ⊢
  constructor
  · intro h
    cases H with
    | waiting a b => exact ⟨_, _, a, b⟩
    | parse _ => simp only [conclude] at h; split_ifs at h
    | settings _ _ => simp only [conclude] at h; split_ifs at h
    | build _ _ => simp only [conclude] at h; split_ifs at h
    | flow _ _ _ => simp only [conclude] at h; split_ifs at h
    | create _ _ _ _ => simp only [conclude] at h; split_ifs at h
    | register _ _ _ _ _ => simp only [conclude] at h; split_ifs at h
    | start _ _ _ _ _ _ => simp only [conclude] at h; split_ifs at h
    | stop _ _ _ => simp only [conclude] at h; split_ifs at h
    | _ => cases h
  · rintro ⟨s, d, h1, h2⟩
    have hn : loop w.console 0 reads = none := by
      by_contra hn
      exact h2 ((typed_iff _ _).2 hn)
    rw [run_plays (s := s) (d := d) h1, if_pos hn] at he
    cases he
    rfl

/-- **C99.** Every other end has the exit code one, also after an exception. -/
theorem exit_codes {w : World} {args : List Word} {reads c : Nat} (h : (main w args reads).2 = .exit c) :
    c = 0 ∨ c = 1 := by
  obtain ⟨l, r, he, H, -, h2⟩ := main_eq w args reads
  rw [h2] at h
  generalize Options.parse Options.rendererOptions w.files args = o at he H
  clear he h2
  cases r with
  | done => cases h; exact Or.inl rfl
  | exit k =>
    cases h
    cases H with
    | informs _ => exact Or.inl rfl
    | refused _ => exact Or.inr rfl
  | thrown e =>
    simp only [conclude] at h
    split_ifs at h
    cases h; exact Or.inr rfl
  | waiting => cases h
  | undefined => cases h

theorem fine_scope {α : Type} {made : Outcome α} {b g : Event} {body : α → List Event × Res} (hm : Sound made)
    (h : ∀ a, made = .ok a → (body a).2 ≠ .undefined ∧ (body a).2 ≠ .thrown .cString) :
    (scope made b g body).2 ≠ .undefined ∧ (scope made b g body).2 ≠ .thrown .cString := by
  cases made with
  | ok a => exact h a rfl
  | throw e =>
    refine ⟨by simp [scope], ?_⟩
    intro he
    simp only [scope, Res.thrown.injEq] at he
    exact hm.2 (by rw [he])
  | ub => exact absurd rfl hm.1

theorem fine_act {o : Outcome Unit} {e : Event} {next : List Event × Res} (hm : Sound o)
    (h : next.2 ≠ .undefined ∧ next.2 ≠ .thrown .cString) :
    (act o e next).2 ≠ .undefined ∧ (act o e next).2 ≠ .thrown .cString := by
  cases o with
  | ok a => exact h
  | throw e =>
    refine ⟨by simp [act], ?_⟩
    intro he
    simp only [act, Res.thrown.injEq] at he
    exact hm.2 (by rw [he])
  | ub => exact absurd rfl hm.1

theorem fine_render {w : World} {s : Settings} {reads : Nat} (h1 : Sound (w.build s)) (h2 : Sound (w.flow s))
    (h3 : Sound (create w.interfaces s.backend (base s) s.interface))
    (h4 : ∀ d, create w.interfaces s.backend (base s) s.interface = .ok d →
      Sound d.register ∧ Sound d.start ∧ Sound d.stop) :
    (render w s reads).2 ≠ .undefined ∧ (render w s reads).2 ≠ .thrown .cString := by
  refine fine_scope h1 fun _ _ => fine_scope h2 fun _ _ => fine_scope h3 fun d hd => fine_act (h4 d hd).1
    (fine_act (h4 d hd).2.1 ?_)
  split
  · simp
  · exact fine_act (h4 d hd).2.2 (by simp)

/-- **C99.** If no part reaches undefined behaviour or throws something that is not a `std::exception`, no exception leaves
the application: it plays or ends with an exit code, whatever part fails. -/
theorem failures_reported {w : World} {args : List Word} (reads : Nat)
    (hp : Sound (Options.parse Options.rendererOptions w.files args))
    (hs : ∀ v, Sound (Options.settings v w.files w.arrays w.table))
    (h1 : ∀ s, Sound (w.build s)) (h2 : ∀ s, Sound (w.flow s))
    (h3 : ∀ n b spec, Sound (create w.interfaces n b spec))
    (h4 : ∀ n b spec d, create w.interfaces n b spec = .ok d → Sound d.register ∧ Sound d.start ∧ Sound d.stop) :
    (main w args reads).2 = .waiting ∨ (main w args reads).2 = .exit 0 ∨ (main w args reads).2 = .exit 1 := by
  have key : (main w args reads).2 ≠ .undefined ∧ (main w args reads).2 ≠ .aborted := by
    obtain ⟨l, r, he, -, -, h5⟩ := main_eq w args reads
    rw [h5]
    clear h5
    generalize Options.parse Options.rendererOptions w.files args = o at he hp
    have : r ≠ .undefined ∧ r ≠ .thrown .cString := by
      have hr : (withOptions w o reads).2 = r := by rw [he]
      rw [← hr]
      clear he hr
      cases o with
      | ub => exact absurd rfl hp.1
      | throw e =>
        refine ⟨by simp [withOptions], ?_⟩
        intro he
        simp only [withOptions, Res.thrown.injEq] at he
        exact hp.2 (by rw [he])
      | ok x =>
        obtain ⟨k, v⟩ := x
        cases k with
        | success =>
          have hs := hs v
          simp only [withOptions]
          generalize Options.settings v w.files w.arrays w.table = st at hs ⊢
          cases st with
          | ub => exact absurd rfl hs.1
          | throw e =>
            refine ⟨by simp [withSettings], ?_⟩
            intro he
            simp only [withSettings, Res.thrown.injEq] at he
            exact hs.2 (by rw [he])
          | ok s => exact fine_render (h1 s) (h2 s) (h3 _ _ _) (h4 _ _ _)
        | failure => simp [withOptions]
        | help => simp [withOptions]
        | version => simp [withOptions]
    constructor
    · intro h
      cases r with
      | undefined => exact this.1 rfl
      | thrown e => simp only [conclude] at h; split_ifs at h
      | _ => cases h
    · intro h
      cases r with
      | thrown e =>
        simp only [conclude] at h
        split_ifs at h with he
        exact this.2 (by rw [he])
      | _ => cases h
  cases hm : (main w args reads).2 with
  | waiting => exact Or.inl rfl
  | exit c =>
    rcases exit_codes hm with rfl | rfl
    · exact Or.inr (Or.inl rfl)
    · exact Or.inr (Or.inr rfl)
  | aborted => exact absurd hm key.2
  | undefined => exact absurd hm key.1

/-! ## The order of events -/

theorem after_nil (e b : Event) : After [] e b ↔ True := by
  simp [After]

theorem after_cons (x : Event) (t : List Event) (e b : Event) : After (x :: t) e b ↔ x ≠ e ∧ (x = b ∨ After t e b) := by
  constructor
  · intro h
    refine ⟨fun hx => ?_, ?_⟩
    · have := h [] t (by rw [hx]; rfl)
      cases this
    · by_cases hx : x = b
      · exact Or.inl hx
      · refine Or.inr fun l r ht => ?_
        have := h (x :: l) r (by rw [ht]; rfl)
        rcases List.mem_cons.1 this with rfl | h
        · exact absurd rfl hx
        · exact h
  · rintro ⟨h1, h2⟩ l r hl
    cases l with
    | nil =>
      simp only [List.nil_append, List.cons.injEq] at hl
      exact absurd hl.1 h1
    | cons y l =>
      simp only [List.cons_append, List.cons.injEq] at hl
      obtain ⟨rfl, hl⟩ := hl
      rcases h2 with rfl | h2
      · exact List.mem_cons_self
      · exact List.mem_cons_of_mem _ (h2 l r hl)

/-- The possible sequences of events. -/
inductive Shape : List Event → Prop
  | none : Shape []
  | renderer : Shape [.renderer]
  | rendererEnd : Shape [.renderer, .rendererGone]
  | flow : Shape [.renderer, .flow]
  | flowEnd : Shape [.renderer, .flow, .flowGone, .rendererGone]
  | interface (n b p) : Shape [.renderer, .flow, .interface n b p]
  | interfaceEnd (n b p) : Shape [.renderer, .flow, .interface n b p, .interfaceGone, .flowGone, .rendererGone]
  | callback (n b p) : Shape [.renderer, .flow, .interface n b p, .callback]
  | callbackEnd (n b p) : Shape [.renderer, .flow, .interface n b p, .callback, .interfaceGone, .flowGone, .rendererGone]
  | started (n b p) : Shape [.renderer, .flow, .interface n b p, .callback, .started]
  | startedEnd (n b p) :
      Shape [.renderer, .flow, .interface n b p, .callback, .started, .interfaceGone, .flowGone, .rendererGone]
  | stoppedEnd (n b p) : Shape [.renderer, .flow, .interface n b p, .callback, .started, .stopped, .unflush,
      .interfaceGone, .flowGone, .rendererGone]

theorem prefix_cases {l : List Event} {n : Word} {b : Base} {p : Word}
    (h : l <+: [.renderer, .flow, .interface n b p, .callback, .started]) : Shape l := by
  obtain ⟨t, ht⟩ := h
  match l, ht with
  | [], _ => exact .none
  | [a], ht => cases ht; exact .renderer
  | [a, c], ht => cases ht; exact .flow
  | [a, c, d], ht => cases ht; exact .interface _ _ _
  | [a, c, d, e], ht => cases ht; exact .callback _ _ _
  | [a, c, d, e, f], ht => cases ht; exact .started _ _ _
  | a :: c :: d :: e :: f :: g :: l, ht => simp at ht

theorem shape {w : World} {o : Outcome (Options.Result × Options.Vars)} {reads : Nat} {l : List Event} {r : Res}
    (h : History w o reads l r) : Shape l := by
  cases h with
  | informs _ => exact .none
  | refused _ => exact .none
  | parse _ => exact .none
  | settings _ _ => exact .none
  | build _ _ => exact .none
  | flow _ _ _ => split_ifs <;> constructor
  | create _ _ _ _ => split_ifs <;> constructor
  | register _ _ _ _ _ => split_ifs <;> constructor
  | start _ _ _ _ _ _ => split_ifs <;> constructor
  | waiting _ _ => constructor
  | stop _ _ _ => split_ifs <;> constructor
  | done _ _ _ => constructor
  | undefined h =>
    rcases h with ⟨t, ht⟩ | ⟨s, _, h⟩
    · exact prefix_cases (n := []) (b := ⟨0, 0, 0, 0⟩) (p := []) ⟨t ++ [.interface [] ⟨0, 0, 0, 0⟩ [], .callback, .started], by
        rw [← List.append_assoc, ht]; rfl⟩
    · exact prefix_cases h

/-- **C99.** Audio is only processed while the signal flow exists: the interface starts after the flow was registered as
its callback, it is stopped before the program ends normally, and in every case, also after an exception, it is destroyed
before the signal flow, which is destroyed before the renderer. -/
theorem flow_outlives_interface (w : World) (args : List Word) (reads : Nat) :
    After (main w args reads).1 .flow .renderer ∧ After (main w args reads).1 .callback .flow ∧
    After (main w args reads).1 .started .callback ∧ After (main w args reads).1 .stopped .started ∧
    (∀ n b p, After (main w args reads).1 (.interface n b p) .flow) ∧
    (∀ n b p, .interface n b p ∈ (main w args reads).1 → After (main w args reads).1 .flowGone .interfaceGone) ∧
    (.flow ∈ (main w args reads).1 → After (main w args reads).1 .rendererGone .flowGone) := by
  obtain ⟨l, r, -, H, h1, -⟩ := main_eq w args reads
  rw [h1]
  have := shape H
  clear H h1
  cases this <;> simp [after_cons, after_nil]

/-- **C99.** Nothing is left when the program ends: each created object is destroyed. -/
theorem all_released {w : World} {args : List Word} {reads c : Nat} (h : (main w args reads).2 = .exit c) :
    (.renderer ∈ (main w args reads).1 → .rendererGone ∈ (main w args reads).1) ∧
    (.flow ∈ (main w args reads).1 → .flowGone ∈ (main w args reads).1) ∧
    (∀ n b p, .interface n b p ∈ (main w args reads).1 → .interfaceGone ∈ (main w args reads).1) := by
  obtain ⟨l, r, -, H, h1, h2⟩ := main_eq w args reads
  rw [h1]
  rw [h2] at h
  generalize Options.parse Options.rendererOptions w.files args = o at H
  clear h1 h2
  cases H with
  | waiting _ _ => cases h
  | undefined _ => cases h
  | informs _ => simp
  | refused _ => simp
  | parse _ => simp
  | settings _ _ => simp
  | build _ _ => simp
  | done _ _ _ => simp
  | flow _ _ _ => simp only [conclude] at h; split_ifs at h with he; simp [he]
  | create _ _ _ _ => simp only [conclude] at h; split_ifs at h with he; simp [he]
  | register _ _ _ _ _ => simp only [conclude] at h; split_ifs at h with he; simp [he]
  | start _ _ _ _ _ _ => simp only [conclude] at h; split_ifs at h with he; simp [he]
  | stop _ _ _ => simp only [conclude] at h; split_ifs at h with he; simp [he]

theorem accepts_of {w : World} {o : Outcome (Options.Result × Options.Vars)} {reads : Nat} {l : List Event} {r : Res}
    (h : History w o reads l r) {n : Word} {b : Base} {p : Word} (hm : .interface n b p ∈ l) :
    ∃ s, Accepts w o s ∧ n = s.backend ∧ b = base s ∧ p = s.interface := by
  cases h with
  | informs _ => cases hm
  | refused _ => cases hm
  | parse _ => cases hm
  | settings _ _ => cases hm
  | build _ _ => cases hm
  | flow _ _ _ => split_ifs at hm <;> simp at hm
  | create _ _ _ _ => split_ifs at hm <;> simp at hm
  | register a _ _ _ _ => split_ifs at hm <;> simp at hm <;> exact ⟨_, a, hm⟩
  | start a _ _ _ _ _ => split_ifs at hm <;> simp at hm <;> exact ⟨_, a, hm⟩
  | waiting a _ => simp at hm; exact ⟨_, a.1, hm⟩
  | stop a _ _ => split_ifs at hm <;> simp at hm <;> exact ⟨_, a.1, hm⟩
  | done a _ _ => simp at hm; exact ⟨_, a.1, hm⟩
  | undefined a =>
    rcases a with h | ⟨s, a, h⟩
    · have := h.subset hm; simp at this
    · have := h.subset hm
      simp at this
      exact ⟨s, a, this⟩

/-- **C99.** The audio interface is created with the name, the channel numbers, the sampling frequency, the period and the
options that the user gave. -/
theorem interface_settings {w : World} {args : List Word} {reads : Nat} {n : Word} {b : Base} {p : Word}
    (h : .interface n b p ∈ (main w args reads).1) :
    ∃ s, Accepted w args s ∧ n = s.backend ∧ b = ⟨s.inputs, s.outputs, s.samplingRate, s.period⟩ ∧ p = s.interface := by
  obtain ⟨l, r, -, H, h1, -⟩ := main_eq w args reads
  rw [h1] at h
  simp only [List.mem_cons, reduceCtorEq, false_or] at h
  exact accepts_of H h

/-- **C99.** The option for the audio interface is mandatory, as documented: without it the program never plays, and it
fails unless it is asked for its help text or version. -/
theorem backend_mandatory {w : World} {args : List Word} (jack portaudio : Option Backend)
    (hw : w.interfaces = registerAll (builtin jack portaudio)) (hn : NoBackend w args) (reads : Nat) :
    (∀ s d, ¬ Plays w args s d) ∧ (main w args reads).2 ≠ .waiting ∧
    ((main w args reads).2 = .exit 0 → Informs w args) := by
  have key : ∀ s d, ¬ Plays w args s d := by
    rintro s d ⟨⟨v, hp, hs⟩, -, -, hc, -⟩
    obtain ⟨cmd, file, cfg, arr, hr, hf, -, -, -, -, -, -, -, -, hb, -⟩ := Options.renderer_settings hp hs
    have he := hn cmd file hr hf
    unfold Options.textSetting at hb
    rw [he] at hb
    have hb := Option.some.inj hb
    rw [hw, ← hb, interface_created] at hc
    have hf : (builtin jack portaudio).find? (fun r => r.1 = "default".toList) = none := by
      rw [List.find?_eq_none]
      intro r hr
      have : r.1 = "Jack".toList ∨ r.1 = "PortAudio".toList := by
        unfold builtin at hr
        rw [List.mem_append] at hr
        cases jack <;> cases portaudio <;>
          simp only [List.mem_singleton, List.not_mem_nil, or_false, false_or] at hr
        · exact Or.inr (by rw [hr])
        · exact Or.inl (by rw [hr])
        · rcases hr with hr | hr
          · exact Or.inl (by rw [hr])
          · exact Or.inr (by rw [hr])
      rcases this with h | h <;> rw [h] <;> decide +kernel
    rw [hf] at hc
    cases hc
  refine ⟨key, fun h => ?_, fun h => ?_⟩
  · obtain ⟨s, d, h1, -⟩ := (plays_until_q w args reads).1 h
    exact key s d h1
  · rcases (exit_success w args reads).1 h with h | ⟨s, d, h1, -⟩
    · exact h
    · exact absurd h1 (key s d)

/-! ## What does not hold -/

/-- **C99 (negation, end of input).** A program whose standard input ends does not end: it reads the end of the file again
and again, and never stops if no letter q came before. -/
theorem end_of_input_ignored {w : World} {args : List Word} {s : Settings} {d : Device} (h : Plays w args s d) {n : Nat}
    (h1 : ∀ k < n, w.console k ≠ some 113) (h2 : ∀ k, n ≤ k → w.console k = none) (reads : Nat) :
    (main w args reads).2 = .waiting := by
  rw [plays_until_q]
  refine ⟨s, d, h, ?_⟩
  rintro ⟨k, -, hk⟩
  by_cases hkn : k < n
  · exact h1 k hkn hk
  · rw [h2 k (by omega)] at hk
    cases hk

/-- **C99 (negation, unknown interfaces).** An unknown audio interface is only noticed when the whole renderer exists and
occupies its network ports. -/
theorem unknown_interface_late {w : World} {args : List Word} {s : Settings} (ha : Accepted w args s)
    (hb : w.build s = .ok ()) (hf : w.flow s = .ok ()) (regs : List (Word × Backend)) (hw : w.interfaces = registerAll regs)
    (hn : ∀ b, (s.backend, b) ∉ regs) (reads : Nat) :
    main w args reads = ([.flush, .renderer, .flow, .flowGone, .rendererGone], .exit 1) := by
  have hc : create w.interfaces s.backend (base s) s.interface = .throw .invalidArgument := by
    rw [hw, interface_created]
    have : regs.find? (fun r => r.1 = s.backend) = none := by
      rw [List.find?_eq_none]
      intro r hr he
      exact hn r.2 (by rw [← of_decide_eq_true he]; exact hr)
    rw [this]
  obtain ⟨v, hp, hs⟩ := ha
  unfold main
  generalize Options.parse Options.rendererOptions w.files args = o at hp ⊢
  subst hp
  simp [withOptions, withSettings, hs, render, scope, hb, hf, hc, Res.unwinds, conclude]

/-- **C99 (negation, floating-point mode).** The handling of denormalised numbers is only restored after a run that ended
without a failure. -/
theorem mode_restored_partial (w : World) (args : List Word) (reads : Nat) :
    .unflush ∈ (main w args reads).1 ↔ ∃ s d, Plays w args s d ∧ Typed w reads ∧ d.stop = .ok () := by
  obtain ⟨l, r, he, H, h1, -⟩ := main_eq w args reads
  rw [h1]
  unfold Plays Accepted
  generalize Options.parse Options.rendererOptions w.files args = o at he H
  simp only [List.mem_cons, reduceCtorEq, false_or]
  constructor
  · intro hm
    cases H with
    | done a b c => exact ⟨_, _, a, b, c⟩
    | undefined a =>
      rcases a with h | ⟨s, a, h⟩
      · have := h.subset hm; simp at this
      · have := h.subset hm; simp at this
    | flow _ _ _ => split_ifs at hm <;> simp at hm
    | create _ _ _ _ => split_ifs at hm <;> simp at hm
    | register a _ _ _ _ => split_ifs at hm <;> simp at hm
    | start a _ _ _ _ _ => split_ifs at hm <;> simp at hm
    | waiting a _ => simp at hm
    | stop a _ _ => split_ifs at hm <;> simp at hm
    | _ => cases hm
  · rintro ⟨s, d, h1, h2, h3⟩
    rw [run_plays (s := s) (d := d) h1, if_neg ((typed_iff _ _).1 h2), h3] at he
    cases he
    simp [scope, act, Res.unwinds]

/-! ## Examples -/

/-- An interface without problems that knows one other name, in a program with PortAudio support. -/
def demo (stopped : Outcome Unit) (console : Nat → Option UInt8) : World where
  files := Options.demoFiles
  arrays := Options.demoArrays
  table := List.replicate 64 [1]
  build s := if s.inputs = 7 then .throw .runtimeError else .ok ()
  flow s := if s.inputs = 8 then .throw .logicError else .ok ()
  interfaces := registerAll (builtin none (some fun b _ =>
    if b.period = 0 then .throw .runtimeError else .ok ⟨.ok (), .ok (), stopped⟩))
  console := console

/-- The words of a command line. -/
def line (l : List String) : List Word := l.map String.toList

/-- "a", "q", and the end of the input. -/
def typing (k : Nat) : Option UInt8 := [97, 113][k]?

/-- The usual command line. -/
def usual : List Word := line ["-c", "a.xml", "-i", "2", "-D", "PortAudio"]

example : (main (demo (.ok ()) typing) usual 1).2 = .waiting := by decide +kernel
example : main (demo (.ok ()) typing) usual 2 =
    ([.flush, .renderer, .flow, .interface "PortAudio".toList ⟨2, 2, 44100, 1024⟩ [], .callback, .started, .stopped, .unflush,
      .interfaceGone, .flowGone, .rendererGone], .exit 0) := by decide +kernel
-- failures of each part
example : main (demo (.throw .runtimeError) typing) usual 2 =
    ([.flush, .renderer, .flow, .interface "PortAudio".toList ⟨2, 2, 44100, 1024⟩ [], .callback, .started, .interfaceGone,
      .flowGone, .rendererGone], .exit 1) := by decide +kernel
example : main (demo (.ok ()) typing) (line ["-c", "a.xml", "-i", "7", "-D", "PortAudio"]) 2 = ([.flush], .exit 1) := by
  decide +kernel
example : main (demo (.ok ()) typing) (line ["-c", "a.xml", "-i", "8", "-D", "PortAudio"]) 2 =
    ([.flush, .renderer, .rendererGone], .exit 1) := by decide +kernel
example : main (demo (.ok ()) typing) (line ["-c", "a.xml", "-i", "2", "-p", "0", "-D", "PortAudio"]) 2 =
    ([.flush, .renderer, .flow, .flowGone, .rendererGone], .exit 1) := by decide +kernel
-- names are compared with their case
example : main (demo (.ok ()) typing) (line ["-c", "a.xml", "-i", "2", "-D", "portaudio"]) 2 =
    ([.flush, .renderer, .flow, .flowGone, .rendererGone], .exit 1) := by decide +kernel
example : (main (demo (.ok ()) typing) (line ["--help"]) 0).2 = .exit 0 := by decide +kernel
example : (main (demo (.throw .cString) typing) usual 2).2 = .aborted := by decide +kernel
example : names (registerAll (builtin (some fun _ _ => .ub) (some fun _ _ => .ub))) =
    ["Jack".toList, "PortAudio".toList] := by decide +kernel
-- the hypotheses of the theorems
example : ∃ s d, Plays (demo (.ok ()) typing) usual s d ∧ ¬ Typed (demo (.ok ()) typing) 1 :=
  (plays_until_q _ _ _).1 (by decide +kernel)
example : ∃ s d, Plays (demo (.ok ()) fun _ => none) usual s d ∧ ∀ reads,
    (main (demo (.ok ()) fun _ => none) usual reads).2 = .waiting := by
  obtain ⟨s, d, h, -⟩ := (plays_until_q (demo (.ok ()) fun _ => none) usual 0).1 (by decide +kernel)
  exact ⟨s, d, h, end_of_input_ignored h (n := 0) (by omega) (fun _ _ => rfl)⟩
/-- A command line without an audio interface. -/
def silent : List Word := line ["-c", "a.xml", "-i", "2"]
example : NoBackend (demo (.ok ()) typing) silent := by
  intro cmd file hr hf
  have : Options.readWords Options.rendererOptions true silent =
      .ok [⟨"array-config".toList, ["a.xml".toList]⟩, ⟨"input-channels".toList, ["2".toList]⟩] := by decide +kernel
  rw [this] at hr
  have hr := (Outcome.ok.inj hr).symm
  subst hr
  have hg : Options.given [⟨"array-config".toList, ["a.xml".toList]⟩, ⟨"input-channels".toList, ["2".toList]⟩]
      Options.optionFile = none := by decide +kernel
  unfold Options.FileOptions at hf
  rw [hg] at hf
  have hf : file = [] := hf
  subst hf
  decide +kernel
example : main (demo (.ok ()) typing) silent 5 = ([.flush, .renderer, .flow, .flowGone, .rendererGone], .exit 1) := by
  decide +kernel

end Visr.Application
