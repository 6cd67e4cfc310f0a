import Verif.Rotation.Model

/-!
# Compensation of the listener position

Models `/repo/src/librcl/listener_compensation.cpp`.  Distances are real numbers, a
quotient with denominator 0 is `none` (NaN).
-/

namespace Visr.Compensation

open Visr Visr.Rotation

/-- `rad` (`listener_compensation.cpp:113, 144`). -/
noncomputable def distance (l p : Vec ℝ) : ℝ :=
  Real.sqrt ((l.x - p.x) ^ 2 + (l.y - p.y) ^ 2 + (l.z - p.z) ^ 2)

/-- The first loop of `calcGainComp` and `calcDelayComp` from index `i`
(`listener_compensation.cpp:109-119, 140-150`), with the vector and `max_rad`.  The vector
is accessed without a range check. -/
noncomputable def radLoop (p : Vec ℝ) : List (Vec ℝ) → Nat → List (Option ℝ) → ℝ → Outcome (List (Option ℝ) × ℝ)
  | [], _, v, m => .ok (v, m)
  | l :: ls, i, v, m =>
    if i < v.length then
      radLoop p ls (i + 1) (v.set i (some (distance l p))) (if distance l p > m then distance l p else m)
    else .ub

/-- The second loop (`listener_compensation.cpp:121-124, 152-155`): `n` iterations from
index `i`, which replace the elements by their images under `f`. -/
noncomputable def mapLoop (f : ℝ → Option ℝ) : Nat → Nat → List (Option ℝ) → Outcome (List (Option ℝ))
  | 0, _, v => .ok v
  | n + 1, i, v =>
    match v[i]? with
    | some x => mapLoop f n (i + 1) (v.set i (x.bind f))
    | none => .ub

/-- `calcGainComp` (`listener_compensation.cpp:99-126`). -/
noncomputable def calcGainComp (ls : List (Vec ℝ)) (p : Vec ℝ) (v : List (Option ℝ)) : Outcome (List (Option ℝ)) :=
  match radLoop p ls 0 v 0 with
  | .ok (v, m) => mapLoop (fun r => fdiv r m) ls.length 0 v
  | .throw e => .throw e
  | .ub => .ub

/-- The speed of sound `c_0` (`listener_compensation.cpp:37`). -/
def c0 : ℝ := 344

/-- `calcDelayComp` (`listener_compensation.cpp:129-157`). -/
noncomputable def calcDelayComp (ls : List (Vec ℝ)) (p : Vec ℝ) (v : List (Option ℝ)) : Outcome (List (Option ℝ)) :=
  match radLoop p ls 0 v 0 with
  | .ok (v, m) => mapLoop (fun r => some (|r - m| / c0)) ls.length 0 v
  | .throw e => .throw e
  | .ub => .ub

/-- The component with the two buffers of each of its double-buffered outputs; the index
of `buf` is the same for both outputs, because they are always swapped together.
`regular` is `mNumberOfLoudspeakers`, `speakers` are the positions of all loudspeakers,
the virtual ones last. -/
structure Comp where
  speakers : List (Vec ℝ)
  regular : Nat
  gains : Bool → List (Option ℝ)
  delays : Bool → List (Option ℝ)
  front : Bool

/-- The constructor (`listener_compensation.cpp:44-60`): the vectors have one zero for every
regular loudspeaker. -/
def Comp.create (speakers : List (Vec ℝ)) (regular : Nat) : Comp :=
  ⟨speakers, regular, fun _ => List.replicate regular (some 0), fun _ => List.replicate regular (some 0), false⟩

/-- The vectors which the receivers see. -/
def Comp.seenGains (c : Comp) : List (Option ℝ) := c.gains (!c.front)

@[inherit_doc Comp.seenGains]
def Comp.seenDelays (c : Comp) : List (Option ℝ) := c.delays (!c.front)

/-- `process()` (`listener_compensation.cpp:62-97`) with the new listener position, if it
has changed. -/
noncomputable def Comp.process (c : Comp) : Option (Vec ℝ) → Comp × Outcome Unit
  | none => (c, .ok ())
  | some p =>
    if (c.gains c.front).length ≠ c.regular ∨ (c.delays c.front).length ≠ c.regular then
      (c, .throw .invalidArgument)
    else
      match calcGainComp c.speakers p (c.gains c.front), calcDelayComp c.speakers p (c.delays c.front) with
      | .ok g, .ok d =>
        ({ c with gains := Function.update c.gains c.front g
                  delays := Function.update c.delays c.front d
                  front := !c.front }, .ok ())
      | _, _ => (c, .ub)

end Visr.Compensation
