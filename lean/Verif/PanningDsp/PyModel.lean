import Verif.PanningDsp.Model

/-!
# Panning messages in Python

Models `/repo/src/python/panningdsp/panning_matrix_parameter.cpp` and
`/repo/src/python/libpythonbindinghelpers/matrix_from_ndarray.hpp`. NumPy arrays arrive with the element type of the
function (`pybind11::array_t` converts them), so that the checks of the element type are not modelled. Alignments are
not modelled.
-/

namespace Visr.PanningDsp

/-- A NumPy array: the numbers of elements in each dimension, and the elements by index. -/
structure NdArray (α : Type*) where
  shape : List Nat
  el : List Nat → α

variable {K : Type*} [Field K]

/-- `matrixFromNdArray` (`matrix_from_ndarray.hpp:24-46`): the numbers of rows and columns and the rows. -/
def matrixFromNdArray (a : NdArray K) : Outcome (Nat × Nat × List (List K)) :=
  match a.shape with
  | [r, c] => .ok (r, c, (List.range r).map fun i => (List.range c).map fun j => a.el [i, j])
  | _ => .throw .invalidArgument

/-- `arrayFromNdArray` (`python/panningdsp/panning_matrix_parameter.cpp:34-52`). -/
def arrayFromNdArray (a : NdArray Nat) : Outcome (List Nat) :=
  match a.shape with
  | [n] => .ok ((List.range n).map fun i => a.el [i])
  | _ => .throw .invalidArgument

/-- `copy` (`python/panningdsp/panning_matrix_parameter.cpp:63-70`), which checks the sizes. -/
def pyCopy (src dest : List Nat) : Outcome (List Nat) :=
  if src.length ≠ dest.length then .throw .invalidArgument else .ok src

/-- Constructor from three arrays (`python/panningdsp/panning_matrix_parameter.cpp:84-98`). -/
def pyConstruct (gains : NdArray K) (timeStamps transitionTimes : NdArray Nat) : Outcome (Param K) :=
  match matrixFromNdArray gains with
  | .ok (r, c, g) =>
    match arrayFromNdArray timeStamps with
    | .ok ts =>
      match arrayFromNdArray transitionTimes with
      | .ok tt => Param.ofArrays r c g ts tt
      | .throw e => .throw e
      | .ub => .ub
    | .throw e => .throw e
    | .ub => .ub
  | .throw e => .throw e
  | .ub => .ub

/-- Assignments to the properties of a message. -/
inductive PySet (K : Type*) where
  | gains (a : NdArray K)
  | timeStamps (a : NdArray Nat)
  | transitionTimes (a : NdArray Nat)

/-- The setters (`python/panningdsp/panning_matrix_parameter.cpp:105-110`, `:116-120` and `:126-130`): the message afterwards
and how the call ended. -/
def pySet (p : Param K) : PySet K → Param K × Outcome Unit
  | .gains a =>
    match matrixFromNdArray a with
    | .ok (r, c, g) => p.copyGains ⟨r, c, g, [], []⟩
    | .throw e => (p, .throw e)
    | .ub => (p, .ub)
  | .timeStamps a =>
    match arrayFromNdArray a with
    | .ok v =>
      match pyCopy v p.timeStamps with
      | .ok v => ({ p with timeStamps := v }, .ok ())
      | .throw e => (p, .throw e)
      | .ub => (p, .ub)
    | .throw e => (p, .throw e)
    | .ub => (p, .ub)
  | .transitionTimes a =>
    match arrayFromNdArray a with
    | .ok v =>
      match pyCopy v p.transitionTimes with
      | .ok v => ({ p with transitionTimes := v }, .ok ())
      | .throw e => (p, .throw e)
      | .ub => (p, .ub)
    | .throw e => (p, .throw e)
    | .ub => (p, .ub)

/-- A program that sets properties and goes on after exceptions. -/
def pyRun (p : Param K) (calls : List (PySet K)) : Param K := calls.foldl (fun p c => (pySet p c).1) p

end Visr.PanningDsp
