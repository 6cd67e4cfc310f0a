import Verif.CircularBuffer.Model
import Verif.Efl.Aligned
import Verif.Run
import Mathlib.Algebra.Field.Defs
import Mathlib.Algebra.Algebra.Defs
import Mathlib.Tactic.TypeStar

/-!
# Partitioned convolution

Models `src/librbbl/core_convolver_uniform.{hpp,cpp}` and `src/librbbl/multichannel_convolver_uniform.{hpp,cpp}`.

`K` is the sample type and `F` the type of the frequency-domain values. The FFT library is a parameter, see
`Verif.Convolver.Dft` for what is assumed of it. Rows of the matrices are functions from the column to the value.
Not modelled: rounding; the scratch vectors (`mTimeDomainTransformBuffer`, `mFrequencyDomainAccumulator`,
`mFrequencyDomainOutput`), whose used elements are always overwritten before they are read; alignment errors.
-/

namespace Visr.Convolver
open Visr Visr.CircularBuffer

variable {K F : Type*} [Field K] [Field F] [Algebra K F]

/-- `FftWrapperBase` (`fft_wrapper_base.hpp:17-33`): `fwd` is `forwardTransform`, `inv` is `inverseTransform`, `fs` and `is`
are `forwardScalingFactor` and `inverseScalingFactor`. -/
structure Fft (K F : Type*) where
  fwd : (Nat → K) → Nat → F
  inv : (Nat → F) → Nat → K
  fs : K
  is : K

/-- Data members of `CoreConvolverUniform` (`core_convolver_uniform.hpp:213-266`). -/
structure Core (K F : Type*) where
  inputs : Nat
  outputs : Nat
  block : Nat
  maxLen : Nat
  parts : Nat
  dft : Nat
  padded : Nat
  entries : Nat
  fft : Fft K F
  scale : K
  buf : CB K
  fdl : Nat → Nat → F
  offset : Nat
  filt : Nat → Nat → F

/-- `calculateNumberOfPartitions` (`core_convolver_uniform.cpp:135-140`). Simplification: the quotient is computed exactly,
whereas the code divides in double precision. -/
def calculateNumberOfPartitions (filterLength blockLength : Nat) : Nat := (filterLength + blockLength - 1) / blockLength

/-- `calculateDftSize` (`core_convolver_uniform.cpp:142-147`). -/
def calculateDftSize (blockLength : Nat) : Nat := 2 * blockLength

/-- `calculateDftRepresentationSize` and `calculateDftRepresentationSizePadded` (`core_convolver_uniform.cpp:149-166`). The
exception for odd DFT sizes cannot happen. -/
def calculateDftRepresentationSizePadded (blockLength alignment : Nat) : Nat :=
  Efl.nextAlignedSize (calculateDftSize blockLength / 2 + 1) alignment

/-- `calculateFilterScalingFactor` (`core_convolver_uniform.cpp:168-179`). -/
def calculateFilterScalingFactor (fft : Fft K F) (dftSize : Nat) : K := 1 / (fft.fs * fft.is * (dftSize : K))

/-- `forwardTransform( in, out )` where `out` points to column `col` of a matrix row: overwrites `dftSize/2+1` elements. -/
def fwdInto (fft : Fft K F) (dftSize : Nat) (x : Nat → K) (row : Nat → F) (col : Nat) : Nat → F :=
  fun c => if col ≤ c ∧ c ≤ col + dftSize / 2 then fft.fwd x (c - col) else row c

/-- `clearFilters` (`core_convolver_uniform.cpp:187-191`). -/
def Core.clearFilters (c : Core K F) : Core K F := { c with filt := fun _ _ => 0 }

/-- The loop over the partitions in `transformImpulseResponse` (`core_convolver_uniform.cpp:230-247`), partitions
`0, …, n-1`. -/
def transformLoop (c : Core K F) (ir : List K) (result : Nat → F) : Nat → Nat → F
  | 0 => result
  | p + 1 =>
    let startIdx := p * c.block
    let endIdx := min ((p + 1) * c.block) ir.length
    let time : Nat → K := fun i => if i < endIdx - startIdx then c.scale * ir.getD (startIdx + i) 0 else 0
    fwdInto c.fft c.dft time (transformLoop c ir result p) (p * c.padded)

/-- `transformImpulseResponse` (`core_convolver_uniform.cpp:222-248`). `result` is the previous content of the result. -/
def Core.transformImpulseResponse (c : Core K F) (ir : List K) (result : Nat → F) : Outcome (Nat → F) :=
  if ir.length > c.maxLen then .throw .invalidArgument
  else .ok (transformLoop c ir result c.parts)

/-- `setImpulseResponse` (`core_convolver_uniform.cpp:250-261`). -/
def Core.setImpulseResponse (c : Core K F) (ir : List K) (idx : Nat) : Outcome (Core K F) :=
  if idx ≥ c.entries then .throw .invalidArgument
  else
    match c.transformImpulseResponse ir (c.filt idx) with
    | .ok r => .ok { c with filt := fun f => if f = idx then r else c.filt f }
    | .throw e => .throw e
    | .ub => .ub

/-- `setFilter` (`core_convolver_uniform.cpp:263-273`): copies a complete row of `padded * parts` elements. -/
def Core.setFilter (c : Core K F) (transformed : Nat → F) (idx : Nat) : Outcome (Core K F) :=
  if idx ≥ c.entries then .throw .invalidArgument
  else .ok { c with filt := fun f => if f = idx then fun k => if k < c.padded * c.parts then transformed k else c.filt f k
                                     else c.filt f }

/-- The first loop of `initFilters` (`core_convolver_uniform.cpp:207-210`), filters `0, …, n-1`. `m` is the matrix of
filters, with `cols` columns. -/
def initLoop (c : Core K F) (cols : Nat) (m : Nat → Nat → K) : Nat → Outcome (Core K F)
  | 0 => .ok c
  | n + 1 =>
    match initLoop c cols m n with
    | .ok c' => c'.setImpulseResponse ((List.range cols).map (m n)) n
    | .throw e => .throw e
    | .ub => .ub

/-- `initFilters` (`core_convolver_uniform.cpp:193-220`); returns the state also if it throws, because the filters have
been cleared already. -/
def Core.initFilters (c : Core K F) (rows cols : Nat) (m : Nat → Nat → K) : Core K F × Outcome Unit :=
  let c0 := c.clearFilters
  if rows > c.entries then (c0, .throw .invalidArgument)
  else if cols > c.maxLen then (c0, .throw .invalidArgument)
  else
    match initLoop c0 cols m rows with
    | .ok c' => ({ c' with filt := fun f => if rows ≤ f ∧ f < c.entries then fun _ => 0 else c'.filt f }, .ok ())
    | .throw e => (c0, .throw e)
    | .ub => (c0, .ub)

/-- Constructor (`core_convolver_uniform.cpp:14-45`). A block length of zero divides by zero and converts the result to an
integer, which is undefined. -/
def Core.create (inputs outputs block maxLen entries rows cols : Nat) (m : Nat → Nat → K) (align : Nat) (fft : Fft K F) :
    Outcome (Core K F) :=
  if block = 0 then .ub
  else
    let dft := calculateDftSize block
    let c : Core K F :=
      { inputs, outputs, block, maxLen, entries, fft, dft
        parts := calculateNumberOfPartitions maxLen block
        padded := calculateDftRepresentationSizePadded block (align / 2)
        scale := calculateFilterScalingFactor fft dft
        buf := CB.init inputs dft align
        fdl := fun _ _ => 0
        offset := 0
        filt := fun _ _ => 0 }
    match c.initFilters rows cols m with
    | (c', .ok _) => .ok c'
    | (_, .throw e) => .throw e
    | (_, .ub) => .ub

/-- Column of `getFdlBlock` (`core_convolver_uniform.hpp:269-287`). -/
def Core.fdlColumn (c : Core K F) (blockIdx : Nat) : Nat := ((c.offset + blockIdx) % c.parts) * c.padded

/-- The loop over the inputs in `processInputs` (`core_convolver_uniform.cpp:56-59`), inputs `0, …, n-1`. -/
def transformInputs (c : Core K F) : Nat → Outcome (Nat → Nat → F)
  | 0 => .ok c.fdl
  | ch + 1 =>
    match transformInputs c ch with
    | .ok fdl =>
      match c.buf.read ch c.dft c.dft with
      | .ok xs => .ok (fun i => if i = ch then fwdInto c.fft c.dft (fun j => xs.getD j 0) (fdl ch) (c.fdlColumn 0) else fdl i)
      | .throw e => .throw e
      | .ub => .ub
    | .throw e => .throw e
    | .ub => .ub

/-- `advanceFDL` (`core_convolver_uniform.cpp:181-185`): undefined without partitions. -/
def Core.advanceFDL (c : Core K F) : Outcome (Core K F) :=
  if c.parts = 0 then .ub else .ok { c with offset := (c.offset + c.parts - 1) % c.parts }

/-- `processInputs` (`core_convolver_uniform.cpp:50-60`); `data ch i` is the `i`-th sample of input `ch`. -/
def Core.processInputs (c : Core K F) (data : Nat → Nat → K) : Outcome (Core K F) :=
  match c.buf.write data c.inputs c.block with
  | .ok buf =>
    match Core.advanceFDL { c with buf := buf } with
    | .ok c1 =>
      match transformInputs c1 c1.inputs with
      | .ok fdl => .ok { c1 with fdl := fdl }
      | .throw e => .throw e
      | .ub => .ub
    | .throw e => .throw e
    | .ub => .ub
  | .throw e => .throw e
  | .ub => .ub

/-- The accumulation over the partitions `0, …, p` in `processFilter` (`core_convolver_uniform.cpp:66-84`). -/
def accLoop (c : Core K F) (input filter : Nat) : Nat → Nat → F
  | 0 => fun k => c.fdl input (c.fdlColumn 0 + k) * c.filt filter (0 * c.padded + k)
  | p + 1 => fun k => accLoop c input filter p k +
      c.fdl input (c.fdlColumn (p + 1) + k) * c.filt filter ((p + 1) * c.padded + k)

/-- `processFilter` (`core_convolver_uniform.cpp:62-121`); `result` is the previous content of the result. Indices outside
the matrices are undefined behaviour. -/
def Core.processFilter (c : Core K F) (input filter : Nat) (gain : K) (result : Nat → F) (add : Bool) : Outcome (Nat → F) :=
  if input ≥ c.inputs ∨ filter ≥ c.entries ∨ c.parts = 0 then .ub
  else
    let acc := accLoop c input filter (c.parts - 1)
    .ok fun k =>
      if k < c.padded then
        if add then result k + algebraMap K F gain * acc k else algebraMap K F gain * acc k
      else result k

/-- `transformOutput` (`core_convolver_uniform.cpp:123-133`). -/
def Core.transformOutput (c : Core K F) (fdBlock : Nat → F) : List K :=
  (List.range (c.dft - c.block)).map fun i => c.fft.inv fdBlock (c.block + i)

/-- `RoutingEntry` (`multichannel_convolver_uniform.hpp:148-158`), also used by the crossfading convolver. -/
structure Entry (K : Type*) where
  input : Nat
  output : Nat
  filter : Nat
  gain : K

/-- `CompareRoutings` (`multichannel_convolver_uniform.hpp:164-177`). -/
def Entry.lt (a b : Entry K) : Bool :=
  if a.output = b.output then decide (a.input < b.input) else decide (a.output < b.output)

/-- Equivalence of entries under `CompareRoutings`. -/
def Entry.equiv (a b : Entry K) : Bool := !a.lt b && !b.lt a

/-- `std::multiset::insert`: insertion before the first greater element. -/
def insertEntry (e : Entry K) : List (Entry K) → List (Entry K)
  | [] => [e]
  | x :: xs => if e.lt x then e :: x :: xs else x :: insertEntry e xs

/-- `find` followed by `erase` of the found element, if any. -/
def eraseEntry (e : Entry K) : List (Entry K) → List (Entry K)
  | [] => []
  | x :: xs => if x.equiv e then xs else x :: eraseEntry e xs

/-- The routing table of a convolver: the multiset in its order, and its capacity. -/
structure Routes (K : Type*) where
  inputs : Nat
  outputs : Nat
  filters : Nat
  capacity : Nat
  table : List (Entry K)

/-- `setRoutingEntry` (`multichannel_convolver_uniform.cpp:93-124`, `crossfading_convolver_uniform.cpp:214-254`). Returns the
table also if it throws. -/
def Routes.set (r : Routes K) (e : Entry K) : Routes K × Outcome Unit :=
  if e.input ≥ r.inputs then (r, .throw .invalidArgument)
  else if e.output ≥ r.outputs then (r, .throw .invalidArgument)
  else if e.filter ≥ r.filters then (r, .throw .invalidArgument)
  else
    let t := eraseEntry e r.table
    if t.length ≥ r.capacity then ({ r with table := t }, .throw .invalidArgument)
    else ({ r with table := insertEntry e t }, .ok ())

/-- `clearRoutingTable` (`multichannel_convolver_uniform.cpp:66-70`). -/
def Routes.clear (r : Routes K) : Routes K := { r with table := [] }

/-- The loop of `initRoutingTable` (`multichannel_convolver_uniform.cpp:80-83`). -/
def Routes.setAll (r : Routes K) : List (Entry K) → Routes K × Outcome Unit
  | [] => (r, .ok ())
  | e :: es =>
    match r.set e with
    | (r', .ok _) => r'.setAll es
    | (r', .throw x) => (r', .throw x)
    | (r', .ub) => (r', .ub)

/-- `initRoutingTable` (`multichannel_convolver_uniform.cpp:72-85`). -/
def Routes.initTable (r : Routes K) (es : List (Entry K)) : Routes K × Outcome Unit :=
  let r0 := r.clear
  if es.length > r.capacity then (r0, .throw .invalidArgument) else r0.setAll es

/-- `removeRoutingEntry` (`multichannel_convolver_uniform.cpp:126-133`). Line 132 compares the iterator to the beginning of
the erased range with `end()`: this is undefined behaviour if an element was erased. Otherwise the iterator points to the
first greater element. -/
def Routes.remove (r : Routes K) (input output : Nat) (filter : Nat) (gain : K) : Routes K × Outcome Bool :=
  let key : Entry K := ⟨input, output, filter, gain⟩
  let rest := r.table.filter fun x => !x.equiv key
  ({ r with table := rest },
    if rest.length < r.table.length then .ub else .ok (r.table.any fun x => key.lt x))

/-- Data members of `MultichannelConvolverUniform` (`multichannel_convolver_uniform.hpp:146-189`). -/
structure Multi (K F : Type*) where
  core : Core K F
  routes : Routes K

/-- Constructor (`multichannel_convolver_uniform.cpp:14-32`). -/
def Multi.create (inputs outputs block maxLen maxRoutings entries : Nat) (routings : List (Entry K)) (rows cols : Nat)
    (m : Nat → Nat → K) (align : Nat) (fft : Fft K F) : Outcome (Multi K F) :=
  match Core.create inputs outputs block maxLen entries rows cols m align fft with
  | .ok c =>
    match Routes.initTable ⟨inputs, outputs, entries, maxRoutings, []⟩ routings with
    | (r, .ok _) => .ok ⟨c, r⟩
    | (_, .throw e) => .throw e
    | (_, .ub) => .ub
  | .throw e => .throw e
  | .ub => .ub

/-- The loop over the routings in `processOutputs` (`multichannel_convolver_uniform.cpp:53-56`); `out` are the rows of
`mFrequencyDomainOutput`. -/
def routeLoop (c : Core K F) (out : Nat → Nat → F) : List (Entry K) → Outcome (Nat → Nat → F)
  | [] => .ok out
  | e :: es =>
    match c.processFilter e.input e.filter e.gain (out e.output) true with
    | .ok r => routeLoop c (fun o => if o = e.output then r else out o) es
    | .throw x => .throw x
    | .ub => .ub

/-- `processOutputs` (`multichannel_convolver_uniform.cpp:47-61`): one list of samples per output. -/
def Multi.processOutputs (s : Multi K F) : Outcome (List (List K)) :=
  match routeLoop s.core (fun _ _ => 0) s.routes.table with
  | .ok out => .ok ((List.range s.core.outputs).map fun o => s.core.transformOutput (out o))
  | .throw e => .throw e
  | .ub => .ub

/-- The calls a client can make. -/
inductive Op (K : Type*) where
  | setImpulseResponse (ir : List K) (idx : Nat)
  | initFilters (rows cols : Nat) (m : Nat → Nat → K)
  | clearFilters
  | setRouting (e : Entry K)
  | removeRouting (input output : Nat)
  | clearRoutings
  | initRoutings (es : List (Entry K))
  | process (input : Nat → Nat → K)

/-- Result of a call: nothing, a flag, or the output signals. -/
inductive Res (K : Type*) where
  | unit
  | flag (b : Bool)
  | signals (out : List (List K))

/-- One call (`multichannel_convolver_uniform.cpp:37-151`). If a call throws before it has changed anything, the state is
kept. -/
def Multi.step (s : Multi K F) : Op K → Multi K F × Outcome (Res K)
  | .setImpulseResponse ir idx =>
    match s.core.setImpulseResponse ir idx with
    | .ok c => ({ s with core := c }, .ok .unit)
    | .throw e => (s, .throw e)
    | .ub => (s, .ub)
  | .initFilters rows cols m =>
    let r := s.core.initFilters rows cols m
    ({ s with core := r.1 }, r.2.map fun _ => .unit)
  | .clearFilters => ({ s with core := s.core.clearFilters }, .ok .unit)
  | .setRouting e =>
    let r := s.routes.set e
    ({ s with routes := r.1 }, r.2.map fun _ => .unit)
  | .removeRouting i o =>
    let r := s.routes.remove i o 0 0
    ({ s with routes := r.1 }, r.2.map .flag)
  | .clearRoutings => ({ s with routes := s.routes.clear }, .ok .unit)
  | .initRoutings es =>
    let r := s.routes.initTable es
    ({ s with routes := r.1 }, r.2.map fun _ => .unit)
  | .process data =>
    match s.core.processInputs data with
    | .ok c =>
      let s' : Multi K F := { s with core := c }
      (s', s'.processOutputs.map .signals)
    | .throw e => (s, .throw e)
    | .ub => (s, .ub)

end Visr.Convolver
