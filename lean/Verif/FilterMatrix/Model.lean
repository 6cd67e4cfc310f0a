import Verif.Outcome

/-!
# The filter matrix of the matrix convolver

`/repo/src/apps/matrix_convolver/init_filter_matrix.cpp` lines 27-168 (the copy in
`/repo/src/maxmspexternals/matrix_convolver/init_filter_matrix.cpp` differs only in includes and namespace).

Simplifications: the file system is a function from names to contents that does not change between the two readings of a
file; relative names are not made absolute; alignment of memory is not modelled (rows of both matrices have the alignment
that the copy asks for); the program is built with libsndfile.  The special value `numeric_limits<size_t>::max()` of the
two limits is `none`.
-/

namespace Visr.FilterMatrix

/-- The content of an audio file as `MatrixParameter::fromAudioFile` returns it
(`/repo/src/libpml/matrix_parameter.cpp` lines 267-316): one row per channel, all of the length of the file. -/
structure Impulses (K : Type) where
  length : Nat
  rows : List (List K)
  deriving DecidableEq

/-- What is found under a file name. A file that exists but cannot be read makes `fromAudioFile` throw
(`/repo/src/libpml/matrix_parameter.cpp` lines 275-279). -/
inductive File (K : Type) where
  | missing
  | unreadable
  | audio (a : Impulses K)

/-- The files that are reachable by name. -/
abbrev Disk (K : Type) := List Char → File K

/-- `boost::split` with `is_any_of( "," )`: `init_filter_matrix.cpp` line 37. -/
def split : List Char → List (List Char)
  | [] => [[]]
  | c :: s =>
    if c = ',' then [] :: split s
    else
      match split s with
      | [] => [[c]]
      | p :: ps => (c :: p) :: ps

/-- `boost::algorithm::trim_if` with `is_any_of( "\" " )`: `init_filter_matrix.cpp` line 42. -/
def trimmed (c : Char) : Bool := c = '"' || c = ' '

/-- `init_filter_matrix.cpp` lines 41-42. -/
def trim (s : List Char) : List Char := ((s.dropWhile trimmed).reverse.dropWhile trimmed).reverse

/-- `stringListToVec`: `init_filter_matrix.cpp` lines 30-45. -/
def stringListToVec (s : List Char) : List (List Char) := if s = [] then [] else (split s).map trim

/-- The first run over the files: start index and content of each one. `init_filter_matrix.cpp` lines 83-111. The index of
the file is `i`, the end index of its predecessor `e`. -/
def gather {K : Type} (disk : Disk K) (offsets : List Nat) : Nat → Nat → List (List Char) → Outcome (List (Nat × Impulses K))
  | _, _, [] => .ok []
  | i, e, n :: ns =>
    match disk n with
    | .missing => .throw .invalidArgument
    | .unreadable => .throw .invalidArgument
    | .audio a => do
      let start := if offsets.length > 0 then offsets.getD i 0 else e
      let rest ← gather disk offsets (i + 1) (start + a.rows.length) ns
      .ok ((start, a) :: rest)

/-- One past the last index of a file: `init_filter_matrix.cpp` line 107. -/
def endOf {K : Type} (x : Nat × Impulses K) : Nat := x.1 + x.2.rows.length

/-- `std::sort` of the file indices with the comparison of start indices (`init_filter_matrix.cpp` lines 129-133): any
permutation of the indices in which no later one has a smaller start index. The order of equal ones is unspecified. -/
structure StdSort where
  order : List Nat → List Nat
  perm : ∀ starts, (order starts).Perm (List.range starts.length)
  sorted : ∀ starts, (order starts).Pairwise fun a b => ¬ starts.getD b 0 < starts.getD a 0

/-- The test of one run of the loop: `init_filter_matrix.cpp` line 136. The expression
`startIndex[orderByStartIndex[runIdx] - 1]` accesses the vector at `SIZE_MAX` for the first file. -/
def checkOne (starts ends : List Nat) (k : Nat) : Outcome Unit :=
  if k = 0 then .ub
  else if starts.getD (k - 1) 0 > ends.getD k 0 then .throw .invalidArgument
  else .ok ()

/-- The loop over the sorted indices: `init_filter_matrix.cpp` lines 134-140. -/
def checkAll (starts ends : List Nat) : List Nat → Outcome Unit
  | [] => .ok ()
  | k :: ks => do
    checkOne starts ends k
    checkAll starts ends ks

/-- `std::max_element` of the lengths: `init_filter_matrix.cpp` lines 114-116. -/
def longest {K : Type} : List (Nat × Impulses K) → Nat
  | [] => 0
  | x :: xs => max x.2.length (longest xs)

/-- `vectorCopy` of an impulse response to the beginning of a row of the matrix: `init_filter_matrix.cpp` lines 162-163. The
remainder of the row keeps its content. -/
def overlay {K : Type} (new old : List K) : List K := new ++ old.drop new.length

/-- The loop over the channels of a file: `init_filter_matrix.cpp` lines 159-167. A row outside the matrix is memory outside
the array (`/repo/src/libefl/basic_matrix.hpp` line 211). -/
def setRows {K : Type} (start : Nat) : List (List K) → List (List K) → Outcome (List (List K))
  | [], m => .ok m
  | r :: rs, m =>
    match m[start]? with
    | none => .ub
    | some old => setRows (start + 1) rs (m.set start (overlay r old))

/-- The second run over the files: `init_filter_matrix.cpp` lines 152-172. -/
def setFiles {K : Type} : List (Nat × Impulses K) → List (List K) → Outcome (List (List K))
  | [], m => .ok m
  | x :: xs, m => do
    let m' ← setRows x.1 x.2.rows m
    setFiles xs m'

/-- A matrix of filters. -/
structure Filters (K : Type) where
  length : Nat
  rows : List (List K)
  deriving DecidableEq

/-- `BasicMatrix::resize`: `/repo/src/libefl/basic_matrix.hpp` lines 89-105. -/
def zeros {K : Type} [Zero K] (n len : Nat) : List (List K) := List.replicate n (List.replicate len 0)

/-- `initFilterMatrix`: `init_filter_matrix.cpp` lines 49-174. -/
def initFilterMatrix {K : Type} [Zero K] (S : StdSort) (disk : Disk K) (filterList : List Char) (maxLength maxEntries : Option Nat)
    (offsets : List Nat) : Outcome (Filters K) := do
  let names := stringListToVec filterList
  if offsets.length > 0 ∧ offsets.length ≠ names.length then .throw .invalidArgument
  else if names.length = 0 then
    match maxLength, maxEntries with
    | some l, some n => .ok ⟨l, zeros n l⟩
    | _, _ => .throw .invalidArgument
  else
    let files ← gather disk offsets 0 0 names
    let len := maxLength.getD (longest files)
    if longest files > len then .throw .invalidArgument
    else
      let starts := files.map (·.1)
      let ends := files.map endOf
      checkAll starts ends (S.order starts).tail
      let used := ends.getLastD 0
      let n := maxEntries.getD used
      if used > n then .throw .invalidArgument
      else
        let m ← setFiles files (zeros n len)
        .ok ⟨len, m⟩

end Visr.FilterMatrix
