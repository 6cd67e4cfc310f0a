import Verif.PyLock.Model
import Mathlib.Tactic.SplitIfs

/-!
# C104: Python objects are only used with the interpreter lock
-/

namespace Visr.PyLock

/-! ## Specification -/

/-- The actions before the interpreter is initialised do not use it; afterwards, constructors of wrappers that fail are
within a guard of the application, unless they fail before they own a Python object. `up`: the thread has initialised the
interpreter; `held`: a guard exists. -/
inductive Sensible : Bool → Bool → List Action → Prop
  | nil {up held} : Sensible up held []
  | initialise {up held as} : Sensible true held as → Sensible up held (.initialise :: as)
  | construct {held as} : Sensible true held as → Sensible true held (.construct none :: as)
  | early {held as} : Sensible true held as → Sensible true held (.construct (some .load) :: as)
  | failing {f as} : Sensible true true as → Sensible true true (.construct (some f) :: as)
  | destroy {held as} : Sensible true held as → Sensible true held (.destroy :: as)
  | call {held as} : Sensible true held as → Sensible true held (.call :: as)
  | guarded {held body as} : Sensible true true body → Sensible true held as → Sensible true held (.guarded body :: as)

/-- All threads are at their end. -/
def Finished (s : State) : Prop := ∀ t, s.rest t = []

/-- The thread gets on with its work. -/
def CanGoOn (s : State) (t : Nat) : Prop := ∃ s', step s t = .ok s' ∧ (s'.rest t).length < (s.rest t).length

/-! ## Proof -/

/-- Executing the steps is fine for a thread which holds the lock `d` times. -/
def Fine : Bool → Nat → List Instr → Prop
  | _, d, [] => d = 0
  | _, d, .initialise :: l => Fine true d l
  | up, d, .acquire :: l => up = true ∧ Fine up (d + 1) l
  | up, d, .release :: l => 0 < d ∧ Fine up (d - 1) l
  | up, d, .touch :: l => 0 < d ∧ Fine up d l

/-- How often a thread holds the lock. -/
def depth (s : State) (t : Nat) : Nat :=
  match s.owner with
  | some (u, d) => if u = t then d else 0
  | none => 0

theorem fine_touches {up : Bool} {d : Nat} {l : List Instr} (hd : 0 < d) (h : Fine up d l) :
    ∀ n, Fine up d (List.replicate n .touch ++ l)
  | 0 => h
  | n + 1 => ⟨hd, fine_touches hd h n⟩

theorem fine_mono {l : List Instr} : ∀ {up : Bool} {d : Nat}, Fine up d l → Fine true d l := by
  induction l with
  | nil => intro up d h; exact h
  | cons i l ih =>
    intro up d h
    cases i with
    | initialise => exact h
    | acquire => exact ⟨rfl, ih h.2⟩
    | release => exact ⟨h.1, ih h.2⟩
    | touch => exact ⟨h.1, ih h.2⟩

theorem fine_program {up held : Bool} {as : List Action} (h : Sensible up held as) :
    ∀ (d : Nat) (l : List Instr), (held = true → 0 < d) → Fine true d l → (up = true ∨ Fine up d l) →
      Fine up d (program as ++ l) := by
  induction h with
  | @nil up held =>
    intro d l _ h1 h2
    simp only [program, List.nil_append]
    rcases h2 with rfl | h2
    · exact h1
    · exact h2
  | initialise h ih =>
    intro d l hd h1 _
    simp only [program, steps, List.cons_append, List.nil_append, Fine]
    exact ih d l hd h1 (Or.inl rfl)
  | construct h ih =>
    intro d l hd h1 _
    simpa [program, steps, construct, Fine] using ih d l hd h1 (Or.inl rfl)
  | early h ih =>
    intro d l hd h1 _
    simpa [program, steps, construct, members, Fine] using ih d l hd h1 (Or.inl rfl)
  | @failing f as h ih =>
    intro d l hd h1 _
    have := fine_touches (hd rfl) (ih d l hd h1 (Or.inl rfl)) (members f)
    simpa [program, steps, construct, Fine] using this
  | destroy h ih =>
    intro d l hd h1 _
    simpa [program, steps, destroy, Fine] using ih d l hd h1 (Or.inl rfl)
  | call h ih =>
    intro d l hd h1 _
    simpa [program, steps, Fine] using ih d l hd h1 (Or.inl rfl)
  | @guarded held body as hb h ihb ih =>
    intro d l hd h1 _
    have h2 := ih d l hd h1 (Or.inl rfl)
    have h3 := ihb (d + 1) (.release :: (program as ++ l)) (fun _ => by omega)
      ⟨by omega, by simpa using h2⟩ (Or.inl rfl)
    simp only [program, steps, List.append_assoc, List.cons_append, List.nil_append, Fine]
    exact ⟨trivial, h3⟩

/-- The invariant: each thread can go on with what it holds, and an owner holds the lock at least once. -/
structure Inv (s : State) : Prop where
  fine : ∀ t, Fine s.initialised (depth s t) (s.rest t)
  owner : ∀ u d, s.owner = some (u, d) → 0 < d
  fresh : s.initialised = false → s.owner = none

theorem start_inv {threads : Nat → List Action} (h : ∀ t, Sensible false false (threads t)) : Inv (start threads) := by
  refine ⟨fun t => ?_, by simp [start], fun _ => rfl⟩
  have := fine_program (h t) 0 [] (by simp) rfl (Or.inr rfl)
  simpa [start, depth] using this

theorem step_inv {s : State} (h : Inv s) (t : Nat) : ∃ s', step s t = .ok s' ∧ Inv s' ∧ (∀ u, u ≠ t → s'.rest u = s.rest u) := by
  have ht := h.fine t
  unfold step
  cases hr : s.rest t with
  | nil => exact ⟨s, rfl, h, fun _ _ => rfl⟩
  | cons i l =>
    rw [hr] at ht
    have hadv : ∀ u, u ≠ t → s.advance t l u = s.rest u := fun u hu => by simp [State.advance, hu]
    have hself : s.advance t l t = l := by simp [State.advance]
    cases i with
    | initialise =>
      dsimp only
      have e : (if s.initialised = true then Outcome.ok (⟨true, s.owner, s.advance t l⟩ : State)
          else .ok ⟨true, saveThread (some (t, 1)), s.advance t l⟩) = .ok ⟨true, s.owner, s.advance t l⟩ := by
        split_ifs with hi
        · rfl
        · rw [h.fresh (by simpa using hi)]; rfl
      rw [e]
      refine ⟨_, rfl, ⟨fun u => ?_, h.owner, by simp⟩, hadv⟩
      by_cases hu : u = t
      · subst hu
        simp only [hself]
        exact ht
      · simp only [hadv u hu]
        exact fine_mono (h.fine u)
    | acquire =>
      dsimp only
      rw [if_pos ht.1]
      cases ho : s.owner with
      | none =>
        refine ⟨_, rfl, ⟨fun u => ?_, ?_, by simp [ht.1]⟩, hadv⟩
        · by_cases hu : u = t
          · subst hu
            simpa [hself, depth, ho] using ht.2
          · have := h.fine u
            simpa [hadv u hu, depth, ho, Ne.symm hu] using this
        · intro u d e
          cases e
          omega
      | some x =>
        obtain ⟨u0, d⟩ := x
        dsimp only
        by_cases hu0 : u0 = t
        · subst hu0
          rw [if_pos rfl]
          refine ⟨_, rfl, ⟨fun u => ?_, ?_, by simp [ht.1]⟩, hadv⟩
          · by_cases hu : u = u0
            · subst hu
              simpa [hself, depth, ho] using ht.2
            · have := h.fine u
              simpa [hadv u hu, depth, ho, Ne.symm hu] using this
          · intro u d' e
            cases e
            omega
        · rw [if_neg hu0]
          exact ⟨s, rfl, h, fun _ _ => rfl⟩
    | release =>
      dsimp only
      cases ho : s.owner with
      | none => simp [Fine, depth, ho] at ht
      | some x =>
        obtain ⟨u0, d⟩ := x
        dsimp only
        by_cases hu0 : u0 = t
        · subst hu0
          rw [if_pos rfl]
          have hd := h.owner _ _ ho
          refine ⟨_, rfl, ⟨fun u => ?_, ?_, fun hi => by rw [h.fresh hi] at ho; cases ho⟩, hadv⟩
          · by_cases hu : u = u0
            · subst hu
              have h2 := ht.2
              simp only [depth, ho, if_true] at h2
              simp only [hself]
              by_cases hd1 : d ≤ 1
              · have : d - 1 = 0 := by omega
                rw [this] at h2
                simpa [depth, hd1] using h2
              · simpa [depth, hd1] using h2
            · have := h.fine u
              simp only [hadv u hu]
              by_cases hd1 : d ≤ 1 <;> simpa [depth, ho, Ne.symm hu, hd1] using this
          · intro u d' e
            dsimp only at e
            split_ifs at e
            cases e
            omega
        · simp [Fine, depth, ho, hu0] at ht
    | touch =>
      dsimp only
      cases ho : s.owner with
      | none => simp [Fine, depth, ho] at ht
      | some x =>
        obtain ⟨u0, d⟩ := x
        dsimp only
        by_cases hu0 : u0 = t
        · subst hu0
          rw [if_pos rfl]
          refine ⟨_, rfl, ⟨fun u => ?_, fun u d' e => h.owner u d' (by rw [ho]; exact e),
            fun hi => by rw [h.fresh hi] at ho; cases ho⟩, hadv⟩
          by_cases hu : u = u0
          · subst hu
            simpa [hself, depth, ho] using ht.2
          · have := h.fine u
            simpa [hadv u hu, depth, ho] using this
        · simp [Fine, depth, ho, hu0] at ht

theorem run_inv {s : State} (h : Inv s) : ∀ ts, ∃ s', run s ts = .ok s' ∧ Inv s'
  | [] => ⟨s, rfl, h⟩
  | t :: ts => by
    obtain ⟨s', h1, h2, -⟩ := step_inv h t
    obtain ⟨s'', h3, h4⟩ := run_inv h2 ts
    exact ⟨s'', by simp only [run, h1, h3], h4⟩

/-- **C104.** Whatever the threads do and in which order they run, Python objects are only used by the thread that holds the
interpreter lock, and the interpreter is only used after it was initialised. The code only guarantees this if constructors
of wrappers that fail are called within a guard of the application (or fail before the module is loaded). -/
theorem lock_held_partial {threads : Nat → List Action} (h : ∀ t, Sensible false false (threads t)) (order : List Nat) :
    ∃ s, run (start threads) order = .ok s := by
  obtain ⟨s, hs, -⟩ := run_inv (start_inv h) order
  exact ⟨s, hs⟩

/-- **C104.** The threads do not block each other for ever: as long as one of them has something to do, one can go on. -/
theorem no_deadlock {threads : Nat → List Action} (h : ∀ t, Sensible false false (threads t)) {order : List Nat} {s : State}
    (hs : run (start threads) order = .ok s) (hn : ¬ Finished s) : ∃ t, CanGoOn s t := by
  obtain ⟨s', hs', hi⟩ := run_inv (start_inv h) order
  rw [hs] at hs'
  cases hs'
  have go : ∀ t, s.rest t ≠ [] → (∀ u d, s.owner = some (u, d) → u = t) → CanGoOn s t := by
    intro t ht ho
    obtain ⟨s', h1, -, -⟩ := step_inv hi t
    refine ⟨s', h1, ?_⟩
    have hf := hi.fine t
    unfold step at h1
    cases hr : s.rest t with
    | nil => exact absurd hr ht
    | cons i l =>
      rw [hr] at h1 hf
      have hself : s.advance t l t = l := by simp [State.advance]
      cases i with
      | initialise => dsimp only at h1; split_ifs at h1 <;> cases h1 <;> simp [hself]
      | acquire =>
        dsimp only at h1
        rw [if_pos hf.1] at h1
        cases hw : s.owner with
        | none => rw [hw] at h1; cases h1; simp [hself]
        | some x =>
          obtain ⟨u, d⟩ := x
          have := ho u d hw
          subst this
          rw [hw] at h1
          dsimp only at h1
          rw [if_pos rfl] at h1
          cases h1; simp [hself]
      | release =>
        dsimp only at h1
        cases hw : s.owner with
        | none => rw [hw] at h1; cases h1
        | some x =>
          obtain ⟨u, d⟩ := x
          have := ho u d hw
          subst this
          rw [hw] at h1
          dsimp only at h1
          rw [if_pos rfl] at h1
          cases h1; simp [hself]
      | touch =>
        dsimp only at h1
        cases hw : s.owner with
        | none => rw [hw] at h1; cases h1
        | some x =>
          obtain ⟨u, d⟩ := x
          have := ho u d hw
          subst this
          rw [hw] at h1
          dsimp only at h1
          rw [if_pos rfl] at h1
          cases h1; simp [hself]
  cases ho : s.owner with
  | none =>
    unfold Finished at hn
    obtain ⟨t, ht⟩ := Classical.not_forall.1 hn
    exact ⟨t, go t ht (by simp [ho])⟩
  | some x =>
    obtain ⟨u, d⟩ := x
    refine ⟨u, go u ?_ (by intro u' d' e; rw [ho] at e; cases e; rfl)⟩
    intro he
    have hf := hi.fine u
    rw [he] at hf
    have hd := hi.owner u d ho
    simp [Fine, depth, ho] at hf
    omega

/-- **C104.** When all threads have finished, the lock is free. A thread that has finished does not hold it. -/
theorem lock_returned {threads : Nat → List Action} (h : ∀ t, Sensible false false (threads t)) {order : List Nat} {s : State}
    (hs : run (start threads) order = .ok s) {t : Nat} (ht : s.rest t = []) (d : Nat) : s.owner ≠ some (t, d) := by
  obtain ⟨s', hs', hi⟩ := run_inv (start_inv h) order
  rw [hs] at hs'
  cases hs'
  intro ho
  have hf := hi.fine t
  rw [ht] at hf
  have := hi.owner t d ho
  simp [Fine, depth, ho] at hf
  omega

/-- **C104.** The initialisation returns with the lock free, other than a comment in the Python runner says: any other
thread can take it. -/
theorem initialise_leaves_lock_free {threads : Nat → List Action} {t u : Nat} (hu : u ≠ t) {as : List Action}
    (ht : threads t = .initialise :: as) {l : List Instr} (hl : program (threads u) = .acquire :: l) :
    ∃ s s', run (start threads) [t] = .ok s ∧ s.owner = none ∧ s.initialised = true ∧
      run (start threads) [t, u] = .ok s' ∧ s'.owner = some (u, 1) := by
  have e1 : step (start threads) t = .ok ⟨true, none, (start threads).advance t (program as)⟩ := by
    simp [step, start, ht, program, steps, saveThread]
  have e2 : (start threads).advance t (program as) u = .acquire :: l := by
    simp only [State.advance, if_neg hu, start]
    exact hl
  refine ⟨⟨true, none, (start threads).advance t (program as)⟩,
    ⟨true, some (u, 1), (⟨true, none, (start threads).advance t (program as)⟩ : State).advance u l⟩, ?_, rfl, rfl, ?_, rfl⟩
  · simp only [run, e1]
  · simp only [run, e1]
    simp only [step, e2, if_true]

/-! ## What does not hold -/

/-- **C104 (negation).** A wrapper whose construction fails after its module was loaded, for example because the class does
not exist, releases its Python objects after its guard is gone: without a guard of the application, as in the Python
runner, a thread that reaches the end of the failing constructor has used Python objects without the lock. -/
theorem failed_construction_undefined {threads : Nat → List Action} {t : Nat} {f : Stage} (hf : f ≠ .load) {as : List Action}
    (ht : threads t = .initialise :: .construct (some f) :: as) :
    run (start threads) (List.replicate 6 t) = .ub := by
  have hm : ∃ n, members f = n + 1 := by
    cases f with
    | load => exact absurd rfl hf
    | lookup => exact ⟨_, rfl⟩
    | arguments => exact ⟨_, rfl⟩
    | instantiate => exact ⟨_, rfl⟩
    | cast => exact ⟨_, rfl⟩
    | connect => exact ⟨_, rfl⟩
  obtain ⟨n, hn⟩ := hm
  simp [List.replicate, run, step, start, ht, program, steps, construct, hn, State.advance, saveThread]

/-! ## Examples -/

/-- The renderer's way: initialise, construct with a guard, which may fail; another thread calls the component. -/
def demo (t : Nat) : List Action :=
  match t with
  | 0 => [.initialise, .guarded [.construct none, .construct (some .lookup)], .destroy]
  | 1 => [.initialise, .call, .call]
  | _ => []

theorem demo_sensible (t : Nat) : Sensible false false (demo t) := by
  unfold demo
  split
  · exact .initialise (.guarded (.construct (.failing .nil)) (.destroy .nil))
  · exact .initialise (.call (.call .nil))
  · exact .nil

example : ¬ Finished (start demo) := fun h => by
  have := h 1
  simp [start, demo, program, steps] at this
-- a thread waits while another one holds the lock
example : (match run (start demo) [0, 0, 1, 1, 0, 1] with
    | .ok s => (s.owner, (s.rest 0).length, (s.rest 1).length)
    | _ => (none, 0, 0)) = (some (0, 2), 14, 6) := by decide
-- the Python runner with a wrong class name, whatever other threads do
example : run (start fun t => if t = 0 then [.initialise, .construct (some .lookup)] else [.call]) [0, 0, 0, 0, 0, 0] = .ub :=
  failed_construction_undefined (t := 0) (f := .lookup) (by decide) (as := []) rfl
example : ∃ s s', run (start fun t => if t = 0 then [.initialise] else [.call]) [0] = .ok s ∧ s.owner = none ∧
    s.initialised = true ∧ run (start fun t => if t = 0 then [.initialise] else [.call]) [0, 1] = .ok s' ∧
    s'.owner = some (1, 1) :=
  initialise_leaves_lock_free (t := 0) (u := 1) (by decide) (as := []) rfl (l := [.touch, .release]) (by decide)
-- a component that is called before the interpreter is initialised
example : (match run (start fun _ => [.call]) [0] with
    | .ub => true
    | _ => false) = true := by decide

end Visr.PyLock
