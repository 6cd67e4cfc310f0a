import Verif.Run

/-!
# Model of `rbbl::InterpolationParameter`

`/repo/src/librbbl/interpolation_parameter.{hpp,cpp}` and the configuration object of the parameter type
`/repo/src/libpml/interpolation_parameter.cpp`.  Weights are values of an abstract type `W`.
-/

namespace Visr.InterpParam

/-- Data members (interpolation_parameter.hpp:74-77). -/
structure Param (W : Type) where
  id : Nat
  indices : List Nat
  weights : List W
deriving DecidableEq

/-- `cInvalidIndex` is the largest `std::size_t` (interpolation_parameter.hpp:49). -/
def cInvalidIndex : Nat := 18446744073709551615

/-- Constructor from a number of interpolants (interpolation_parameter.cpp:23-28). -/
def ofNumber {W : Type} (zero : W) (id n : Nat) : Param W :=
  ⟨id, List.replicate n cInvalidIndex, List.replicate n zero⟩

/-- Constructors from two containers (interpolation_parameter.cpp:30-41 and :43-54). -/
def ofLists {W : Type} (id : Nat) (indices : List Nat) (weights : List W) : Outcome (Param W) :=
  if indices.length ≠ weights.length then .throw .invalidArgument else .ok ⟨id, indices, weights⟩

/-- `numberOfInterpolants()` (interpolation_parameter.cpp:68-71). -/
def numberOfInterpolants {W : Type} (p : Param W) : Nat := p.weights.length

/-- `std::vector::at`. -/
def vecAt {α : Type} (l : List α) (i : Nat) : Outcome α :=
  match l[i]? with
  | some a => .ok a
  | none => .throw .outOfRange

/-- `index()` (interpolation_parameter.cpp:73-76). -/
def index {W : Type} (p : Param W) (i : Nat) : Outcome Nat := vecAt p.indices i

/-- `weight()` (interpolation_parameter.cpp:88-91). -/
def weight {W : Type} (p : Param W) (i : Nat) : Outcome W := vecAt p.weights i

/-- The setters.  The overloads for containers and initialiser lists do the same
(interpolation_parameter.cpp:98-114, :121-137). -/
inductive Op (W : Type) where
  | setId (newId : Nat)
  | setIndex (idx newIndex : Nat)
  | setIndices (newIndices : List Nat)
  | setWeight (idx : Nat) (weight : W)
  | setWeights (newWeights : List W)

/-- One call of a setter: the object afterwards and the outcome of the call
(interpolation_parameter.cpp:61-64, :93-137). -/
def step {W : Type} (p : Param W) : Op W → Param W × Outcome Unit
  | .setId newId => ({ p with id := newId }, .ok ())
  | .setIndex idx newIndex =>
    if idx < p.indices.length then ({ p with indices := p.indices.set idx newIndex }, .ok ())
    else (p, .throw .outOfRange)
  | .setIndices newIndices =>
    if newIndices.length ≠ numberOfInterpolants p then (p, .throw .invalidArgument)
    else ({ p with indices := newIndices }, .ok ())
  | .setWeight idx w =>
    if idx < p.weights.length then ({ p with weights := p.weights.set idx w }, .ok ())
    else (p, .throw .outOfRange)
  | .setWeights newWeights =>
    if newWeights.length ≠ numberOfInterpolants p then (p, .throw .invalidArgument)
    else ({ p with weights := newWeights }, .ok ())

/-! ## Configurations of the parameter type -/

/-- `pml::InterpolationParameterConfig`: the number of interpolants
(libpml/interpolation_parameter.cpp:16-19). -/
structure Config where
  numberOfInterpolants : Nat

/-- `compare( InterpolationParameterConfig const & )` (libpml/interpolation_parameter.cpp:41-44). -/
def Config.compareTyped (c rhs : Config) : Bool := rhs.numberOfInterpolants == c.numberOfInterpolants

/-- `compare( ParameterConfigBase const & )`, the overload that the runtime calls when two parameter ports
are connected (libpml/interpolation_parameter.cpp:28-39): the call of the typed comparison is commented
out. -/
def Config.compare (_c _rhs : Config) : Bool := true

/-- The parameter created for a port with a given configuration
(libpml/interpolation_parameter.cpp:46-54). -/
def ofConfig {W : Type} (zero : W) (c : Config) : Param W := ofNumber zero cInvalidIndex c.numberOfInterpolants

end Visr.InterpParam
