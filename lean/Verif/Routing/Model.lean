import Verif.Run

/-!
# Model of the routing lists

`/repo/src/librbbl/filter_routing.{hpp,cpp}`, `/repo/src/librbbl/sparse_gain_routing.{hpp,cpp}`.

`std::set` is modelled by a list in the order of the comparison function; gains are values of an
abstract type `G`.  Reading JSON text and the conversion of sequence texts (property C45) are not
modelled here: a JSON array is a list of nodes with the converted sequences.
-/

namespace Visr.Routing

/-! ## `std::set` with a comparison function -/

section set
variable {α : Type u}

/-- Two elements are equivalent for a `std::set` if neither is less than the other. -/
def equiv (lt : α → α → Bool) (a b : α) : Bool := !lt a b && !lt b a

/-- `std::set::find`. -/
def find (lt : α → α → Bool) (l : List α) (x : α) : Option α := l.find? (fun e => equiv lt e x)

/-- `std::set::insert`: the new set, and whether the element was inserted. -/
def insert (lt : α → α → Bool) : List α → α → List α × Bool
  | [], x => ([x], true)
  | y :: ys, x =>
    if lt x y then (x :: y :: ys, true)
    else if lt y x then
      let r := insert lt ys x
      (y :: r.1, r.2)
    else (y :: ys, false)

/-- `std::set::erase` of the element found by `find`. -/
def erase (lt : α → α → Bool) (l : List α) (x : α) : List α := l.eraseP (fun e => equiv lt e x)

/-- The loop of the constructors from an initialiser list. -/
def insertAll (lt : α → α → Bool) : List α → List α → Outcome (List α)
  | [], l => .ok l
  | e :: es, l =>
    let r := insert lt l e
    if r.2 then insertAll lt es r.1 else .throw .invalidArgument

/-- Constructors from an initialiser list (filter_routing.cpp:31-42, sparse_gain_routing.cpp:24-35). -/
def ofList (lt : α → α → Bool) (entries : List α) : Outcome (List α) := insertAll lt entries []

/-- `addRouting` (filter_routing.cpp:123-136, sparse_gain_routing.cpp:123-136). -/
def addRouting (lt : α → α → Bool) (l : List α) (e : α) : Outcome (List α) :=
  let l' := match find lt l e with
    | some _ => erase lt l e
    | none => l
  let r := insert lt l' e
  if r.2 then .ok r.1 else .throw .logicError

/-- `removeRouting` (filter_routing.cpp:138-147, sparse_gain_routing.cpp:138-147): new contents and
result. -/
def removeRouting (lt : α → α → Bool) (l : List α) (e : α) : List α × Bool :=
  match find lt l e with
  | some _ => (erase lt l e, true)
  | none => (l, false)

end set

/-! ## Filter routings -/

/-- `FilterRouting` (filter_routing.hpp:24-77). -/
structure FilterRouting (G : Type) where
  inputIndex : Nat
  outputIndex : Nat
  filterIndex : Nat
  gainLinear : G
deriving DecidableEq

/-- `FilterRoutingList::CompareEntries` (filter_routing.hpp:116-134). -/
def filterLt {G : Type} (lhs rhs : FilterRouting G) : Bool :=
  if lhs.inputIndex < rhs.inputIndex then true
  else if lhs.inputIndex > rhs.inputIndex then false
  else lhs.outputIndex < rhs.outputIndex

/-- `cInvalidIndex` is `UINT_MAX` (filter_routing.hpp:59). -/
def cInvalidIndex : Nat := 4294967295

/-- `getEntry` (filter_routing.hpp:222-227); `none` is the reference to the static invalid entry.
The gain of the search key is irrelevant, `one` stands for the default gain. -/
def filterGetEntry {G : Type} (one : G) (l : List (FilterRouting G)) (i o : Nat) :
    Option (FilterRouting G) :=
  find filterLt l ⟨i, o, cInvalidIndex, one⟩

/-- `removeRouting( inputIdx, outputIdx )` (filter_routing.cpp:149-158). -/
def filterRemove {G : Type} (one : G) (l : List (FilterRouting G)) (i o : Nat) :
    List (FilterRouting G) × Bool :=
  removeRouting filterLt l ⟨i, o, cInvalidIndex, one⟩

/-- An element of the JSON array, with converted sequences. -/
structure FilterNode (G : Type) where
  input : List Nat
  output : List Nat
  filter : List Nat
  gain : List G

/-- `seq.size() == 1 ? seq[0] : seq[idx]`; access behind the end of a vector is undefined. -/
def pick {α : Type} (seq : List α) (idx : Nat) : Outcome α :=
  match (if seq.length = 1 then seq[0]? else seq[idx]?) with
  | some a => .ok a
  | none => .ub

/-- The routing entry number `k` of a node (filter_routing.cpp:107-113). -/
def filterRow {G : Type} (n : FilterNode G) (k : Nat) : Outcome (FilterRouting G) := do
  let i ← pick n.input k
  let o ← pick n.output k
  let f ← pick n.filter k
  let g ← pick n.gain k
  return ⟨i, o, f, g⟩

/-- The number of routing entries of a node, with all checks (filter_routing.cpp:78-105). -/
def filterCount {G : Type} (n : FilterNode G) : Outcome Nat :=
  let numEntries := n.input.length
  let afterOutput : Outcome Nat :=
    if n.output.length ≠ numEntries then
      if numEntries = 1 then .ok n.output.length
      else if n.output.length ≠ 1 then .throw .invalidArgument
      else .ok numEntries
    else .ok numEntries
  match afterOutput with
  | .ok numEntries =>
    if n.filter.length ≠ numEntries ∧ numEntries = 1 ∧ n.filter.length ≠ 1 then
      .throw .invalidArgument
    else if n.gain.length ≠ 1 ∧ n.gain.length ≠ numEntries then .throw .invalidArgument
    else .ok numEntries
  | .throw e => .throw e
  | .ub => .ub

/-- The loop over the entries of one node (filter_routing.cpp:106-114). -/
def filterRows {G : Type} (n : FilterNode G) (l : List (FilterRouting G)) :
    List Nat → Outcome (List (FilterRouting G))
  | [] => .ok l
  | k :: ks =>
    match filterRow n k with
    | .ok e =>
      match addRouting filterLt l e with
      | .ok l' => filterRows n l' ks
      | .throw x => .throw x
      | .ub => .ub
    | .throw x => .throw x
    | .ub => .ub

/-- The loop of `FilterRoutingList::fromJson` over the array (filter_routing.cpp:66-115). -/
def filterNodes {G : Type} : List (FilterNode G) → List (FilterRouting G) →
    Outcome (List (FilterRouting G))
  | [], l => .ok l
  | n :: ns, l =>
    match filterCount n with
    | .ok c =>
      match filterRows n l (List.range c) with
      | .ok l' => filterNodes ns l'
      | .throw x => .throw x
      | .ub => .ub
    | .throw x => .throw x
    | .ub => .ub

/-- `FilterRoutingList::fromJson` (filter_routing.cpp:50-117). -/
def filterFromJson {G : Type} (ns : List (FilterNode G)) : Outcome (List (FilterRouting G)) :=
  filterNodes ns []

/-- The calls that change a filter routing list. -/
inductive FilterOp (G : Type) where
  | add (e : FilterRouting G)
  | removeEntry (e : FilterRouting G)
  | remove (input output : Nat)
  | parseJson (nodes : List (FilterNode G))

/-- One call: new contents and outcome (with the Boolean result of removals; `true` for the other
operations).  `parseJson` (filter_routing.cpp:160-170) replaces the contents only after success. -/
def filterStep {G : Type} (one : G) (l : List (FilterRouting G)) :
    FilterOp G → List (FilterRouting G) × Outcome Bool
  | .add e =>
    match addRouting filterLt l e with
    | .ok l' => (l', .ok true)
    | .throw x => (l, .throw x)
    | .ub => (l, .ub)
  | .removeEntry e => ((removeRouting filterLt l e).1, .ok (removeRouting filterLt l e).2)
  | .remove i o => ((filterRemove one l i o).1, .ok (filterRemove one l i o).2)
  | .parseJson ns =>
    match filterFromJson ns with
    | .ok l' => (l', .ok true)
    | .throw x => (l, .throw x)
    | .ub => (l, .ub)

/-- Contents of a filter routing list after a history of calls. -/
def filterAfter {G : Type} (one : G) (ops : List (FilterOp G)) : List (FilterRouting G) :=
  final (filterStep one) [] ops

/-! ## Sparse gain routings -/

/-- `SparseGainRouting` (sparse_gain_routing.hpp:23-77). -/
structure GainRouting (G : Type) where
  entryIndex : Nat
  rowIndex : Nat
  columnIndex : Nat
  gain : G
deriving DecidableEq

/-- `SparseGainRoutingList::CompareEntries` (sparse_gain_routing.hpp:122-129). -/
def gainLt {G : Type} (lhs rhs : GainRouting G) : Bool := lhs.entryIndex < rhs.entryIndex

/-- `getEntry` (sparse_gain_routing.hpp:225-230). -/
def gainGetEntry {G : Type} (one : G) (l : List (GainRouting G)) (idx : Nat) :
    Option (GainRouting G) :=
  find gainLt l ⟨idx, cInvalidIndex, cInvalidIndex, one⟩

/-- `removeRouting( inputIdx, outputIdx )` (sparse_gain_routing.cpp:149-158): the search key is
built from the two indices as entry index and row index. -/
def gainRemove {G : Type} (one : G) (l : List (GainRouting G)) (i o : Nat) :
    List (GainRouting G) × Bool :=
  removeRouting gainLt l ⟨i, o, cInvalidIndex, one⟩

/-- An element of the JSON array, with converted sequences. -/
structure GainNode (G : Type) where
  index : List Nat
  row : List Nat
  column : List Nat
  gain : List G

/-- `entryIndices[entryIdx]`, without the special case for scalars. -/
def pickExact {α : Type} (seq : List α) (idx : Nat) : Outcome α :=
  match seq[idx]? with
  | some a => .ok a
  | none => .ub

/-- The routing entry number `k` of a node (sparse_gain_routing.cpp:107-113). -/
def gainRow {G : Type} (n : GainNode G) (k : Nat) : Outcome (GainRouting G) := do
  let i ← pickExact n.index k
  let r ← pick n.row k
  let c ← pick n.column k
  let g ← pick n.gain k
  return ⟨i, r, c, g⟩

/-- The number of routing entries of a node, with all checks (sparse_gain_routing.cpp:78-105).
In the case of a single index, the number of entries is assigned from itself (:83-86). -/
def gainCount {G : Type} (n : GainNode G) : Outcome Nat :=
  let numEntries := n.index.length
  let afterRow : Outcome Nat :=
    if n.row.length ≠ numEntries then
      if numEntries = 1 then .ok n.index.length
      else if n.row.length ≠ 1 then .throw .invalidArgument
      else .ok numEntries
    else .ok numEntries
  match afterRow with
  | .ok numEntries =>
    if n.column.length ≠ numEntries ∧ numEntries = 1 ∧ n.column.length ≠ 1 then
      .throw .invalidArgument
    else if n.gain.length ≠ 1 ∧ n.gain.length ≠ numEntries then .throw .invalidArgument
    else .ok numEntries
  | .throw e => .throw e
  | .ub => .ub

/-- The loop over the entries of one node (sparse_gain_routing.cpp:106-113). -/
def gainRows {G : Type} (n : GainNode G) (l : List (GainRouting G)) :
    List Nat → Outcome (List (GainRouting G))
  | [] => .ok l
  | k :: ks =>
    match gainRow n k with
    | .ok e =>
      match addRouting gainLt l e with
      | .ok l' => gainRows n l' ks
      | .throw x => .throw x
      | .ub => .ub
    | .throw x => .throw x
    | .ub => .ub

/-- The loop of `SparseGainRoutingList::fromJson` over the array (sparse_gain_routing.cpp:66-115). -/
def gainNodes {G : Type} : List (GainNode G) → List (GainRouting G) →
    Outcome (List (GainRouting G))
  | [], l => .ok l
  | n :: ns, l =>
    match gainCount n with
    | .ok c =>
      match gainRows n l (List.range c) with
      | .ok l' => gainNodes ns l'
      | .throw x => .throw x
      | .ub => .ub
    | .throw x => .throw x
    | .ub => .ub

/-- `SparseGainRoutingList::fromJson` (sparse_gain_routing.cpp:48-117). -/
def gainFromJson {G : Type} (ns : List (GainNode G)) : Outcome (List (GainRouting G)) :=
  gainNodes ns []

/-- The calls that change a sparse gain routing list. -/
inductive GainOp (G : Type) where
  | add (e : GainRouting G)
  | removeEntry (e : GainRouting G)
  | remove (input output : Nat)
  | clear
  | parseJson (nodes : List (GainNode G))

/-- One call: new contents and outcome. -/
def gainStep {G : Type} (one : G) (l : List (GainRouting G)) :
    GainOp G → List (GainRouting G) × Outcome Bool
  | .add e =>
    match addRouting gainLt l e with
    | .ok l' => (l', .ok true)
    | .throw x => (l, .throw x)
    | .ub => (l, .ub)
  | .removeEntry e => ((removeRouting gainLt l e).1, .ok (removeRouting gainLt l e).2)
  | .remove i o => ((gainRemove one l i o).1, .ok (gainRemove one l i o).2)
  | .clear => ([], .ok true)
  | .parseJson ns =>
    match gainFromJson ns with
    | .ok l' => (l', .ok true)
    | .throw x => (l, .throw x)
    | .ub => (l, .ub)

/-- Contents of a sparse gain routing list after a history of calls. -/
def gainAfter {G : Type} (one : G) (ops : List (GainOp G)) : List (GainRouting G) :=
  final (gainStep one) [] ops

end Visr.Routing
