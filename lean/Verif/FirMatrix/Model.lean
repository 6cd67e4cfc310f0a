import Verif.Crossfade.Model

/-!
# Control inputs of the FIR filter matrices

Models `process()` of `/repo/src/librcl/fir_filter_matrix.cpp` and
`/repo/src/librcl/crossfading_fir_filter_matrix.cpp` on top of the convolvers of
`Verif/Convolver` and `Verif/Crossfade`.

`Component::status( StatusMessage::Error, … )` throws `std::runtime_error`
(`/repo/src/libvisr/impl/component_implementation.cpp:73-82`).
-/

namespace Visr.FirMatrix

open Visr Visr.Convolver

variable {K F : Type*} [Field K] [Field F] [Algebra K F]

/-- A message of the filter input: `IndexedValueParameter` with a filter index and an
impulse response. -/
structure FilterMsg (K : Type*) where
  index : Nat
  value : List K

/-- The loop over the filter messages (`fir_filter_matrix.cpp:76-95`,
`crossfading_fir_filter_matrix.cpp:79-101`, `interpolating_fir_filter_matrix.cpp:92-115`).
The message is removed after the call of `setFilter`; if that throws, the handler throws
again from `status` and the message stays.  `&value()[0]` is undefined for an empty
vector. -/
def filterLoop {S : Type*} (set : S → List K → Nat → Outcome S) : List (FilterMsg K) → S →
    Outcome Unit × List (FilterMsg K) × S
  | [], s => (.ok (), [], s)
  | m :: q, s =>
    if m.value = [] then (.ub, m :: q, s)
    else
      match set s m.value m.index with
      | .ok s' => filterLoop set q s'
      | .throw .cString => (.throw .cString, m :: q, s)
      | .throw _ => (.throw .runtimeError, m :: q, s)
      | .ub => (.ub, m :: q, s)

/-- The loop over the single routing messages (`fir_filter_matrix.cpp:112-126`): the
handler throws again from `status`, so that `pop()` is not reached. -/
def routingLoop : List (Entry K) → Routes K → Outcome Unit × List (Entry K) × Routes K
  | [], r => (.ok (), [], r)
  | e :: q, r =>
    match r.set e with
    | (r', .ok _) => routingLoop q r'
    | (r', .throw _) => (.throw .runtimeError, e :: q, r')
    | (r', .ub) => (.ub, e :: q, r')

/-- `setRoutings` (`fir_filter_matrix.cpp`): clear, then add one by one. -/
def setRoutings (es : List (Entry K)) (r : Routes K) : Routes K × Outcome Unit := r.clear.setAll es

/-- A `FirFilterMatrix` with its pending control messages. -/
structure Fir (K F : Type*) where
  conv : Multi K F
  filters : List (FilterMsg K)
  all : List (Entry K)
  changed : Bool
  singles : List (Entry K)

/-- The convolver call of the filter loop. -/
def setMulti (s : Multi K F) (ir : List K) (idx : Nat) : Outcome (Multi K F) :=
  match s.core.setImpulseResponse ir idx with
  | .ok c => .ok { s with core := c }
  | .throw e => .throw e
  | .ub => .ub

/-- `FirFilterMatrix::process()` (`fir_filter_matrix.cpp:74-132`): the outcome with the
output signals, and the component afterwards. -/
def Fir.process (s : Fir K F) (input : Nat → Nat → K) : Fir K F × Outcome (Res K) :=
  match filterLoop setMulti s.filters s.conv with
  | (.throw e, q, c) => ({ s with filters := q, conv := c }, .throw e)
  | (.ub, q, c) => ({ s with filters := q, conv := c }, .ub)
  | (.ok _, q, c) =>
    let s1 : Fir K F := { s with filters := q, conv := c }
    let r := if s1.changed then setRoutings s1.all c.routes else (c.routes, .ok ())
    match r with
    | (r, .throw _) => ({ s1 with conv := { c with routes := r } }, .throw .runtimeError)
    | (r, .ub) => ({ s1 with conv := { c with routes := r } }, .ub)
    | (r, .ok _) =>
      let s2 : Fir K F := { s1 with conv := { c with routes := r }, changed := false }
      match routingLoop s2.singles r with
      | (.throw e, q, r') => ({ s2 with singles := q, conv := { c with routes := r' } }, .throw e)
      | (.ub, q, r') => ({ s2 with singles := q, conv := { c with routes := r' } }, .ub)
      | (.ok _, q, r') =>
        let res := Multi.step { c with routes := r' } (.process input)
        ({ s2 with singles := q, conv := res.1 }, res.2)

/-- Messages that arrive between two calls of `process()`. -/
structure Arrivals (K : Type*) where
  filters : List (FilterMsg K)
  all : Option (List (Entry K))
  singles : List (Entry K)

/-- The messages are queued; a new routing list replaces the previous one. -/
def Fir.receive (s : Fir K F) (a : Arrivals K) : Fir K F :=
  { s with filters := s.filters ++ a.filters
           all := a.all.getD s.all
           changed := s.changed || a.all.isSome
           singles := s.singles ++ a.singles }

/-- One period. -/
def Fir.period (s : Fir K F) (a : Arrivals K) (input : Nat → Nat → K) : Fir K F × Outcome (Res K) :=
  (s.receive a).process input

/-- A `CrossfadingFirFilterMatrix` with its pending filter messages. -/
structure XFir (K F : Type*) where
  conv : Crossfade.Xf K F
  filters : List (FilterMsg K)

/-- `CrossfadingFirFilterMatrix::process()` (`crossfading_fir_filter_matrix.cpp:77-107`). -/
def XFir.process (s : XFir K F) (input : Nat → Nat → K) : XFir K F × Outcome (Res K) :=
  match filterLoop (fun c ir idx => c.setImpulseResponse ir idx true) s.filters s.conv with
  | (.throw e, q, c) => ({ s with filters := q, conv := c }, .throw e)
  | (.ub, q, c) => ({ s with filters := q, conv := c }, .ub)
  | (.ok _, q, c) =>
    let res := c.step (.process input)
    ({ s with filters := q, conv := res.1 }, res.2)

end Visr.FirMatrix
