import Verif.FilterMatrix.Model
import Mathlib.Data.List.Forall2

/-!
# What the filter matrix should contain
-/

namespace Visr.FilterMatrix

/-- A file name in a list, possibly surrounded by quotation marks and spaces. -/
structure Written (name text : List Char) : Prop where
  pads : ∃ before after, text = before ++ name ++ after ∧ (∀ c ∈ before, c = '"' ∨ c = ' ') ∧ (∀ c ∈ after, c = '"' ∨ c = ' ')
  nocomma : ',' ∉ name
  nonempty : name ≠ []
  first : ∀ c ∈ name.head?, c ≠ '"' ∧ c ≠ ' '
  last : ∀ c ∈ name.getLast?, c ≠ '"' ∧ c ≠ ' '

/-- A comma-separated list of file names. -/
inductive ListOf : List (List Char) → List Char → Prop
  | one (n s) : Written n s → ListOf [n] s
  | cons (n s ns t) : Written n s → ListOf ns t → ListOf (n :: ns) (s ++ ',' :: t)

/-- Impulse responses of one file have the same length. -/
def Impulses.Ok {K : Type} (a : Impulses K) : Prop := 0 < a.rows.length ∧ ∀ r ∈ a.rows, r.length = a.length

/-- The files can be read, and have these contents. -/
def Loaded {K : Type} (disk : Disk K) (names : List (List Char)) (contents : List (Impulses K)) : Prop :=
  List.Forall₂ (fun n a => disk n = .audio a ∧ a.Ok) names contents

/-- The files one after the other. -/
def consecutive {K : Type} : Nat → List (Impulses K) → List (Nat × Impulses K)
  | _, [] => []
  | e, a :: as => (e, a) :: consecutive (e + a.rows.length) as

/-- The places of the files: at the given offsets, or one after the other if there are no offsets. -/
def places {K : Type} (offsets : List Nat) (contents : List (Impulses K)) : List (Nat × Impulses K) :=
  if offsets = [] then consecutive 0 contents else offsets.zip contents

/-- The length of the filters: the given one, or that of the longest file. -/
def IsLength {K : Type} (maxLength : Option Nat) (contents : List (Impulses K)) (len : Nat) : Prop :=
  match maxLength with
  | some l => len = l
  | none => (∃ a ∈ contents, a.length = len) ∧ ∀ a ∈ contents, a.length ≤ len

/-- The number of filters: the given one, or one past the highest index that is used. -/
def IsCount {K : Type} (maxEntries : Option Nat) (files : List (Nat × Impulses K)) (n : Nat) : Prop :=
  match maxEntries with
  | some k => n = k
  | none => (∃ x ∈ files, x.1 + x.2.rows.length = n) ∧ ∀ x ∈ files, x.1 + x.2.rows.length ≤ n

/-- The files fit into a matrix of `n` filters of length `len`. -/
def Fits {K : Type} (files : List (Nat × Impulses K)) (n len : Nat) : Prop :=
  ∀ x ∈ files, x.2.length ≤ len ∧ x.1 + x.2.rows.length ≤ n

/-- The files are placed in ascending order without overlap. -/
def Ascending {K : Type} (files : List (Nat × Impulses K)) : Prop :=
  files.Pairwise fun x y => x.1 + x.2.rows.length ≤ y.1

/-- A response followed by zeros. -/
def padded {K : Type} [Zero K] (len : Nat) (r : List K) : List K := r ++ List.replicate (len - r.length) 0

/-- The matrix contains the impulse responses of the files at their places, padded by zeros, and zeros elsewhere. -/
structure Holds {K : Type} [Zero K] (files : List (Nat × Impulses K)) (n len : Nat) (m : Filters K) : Prop where
  length : m.length = len
  count : m.rows.length = n
  placed : ∀ x ∈ files, ∀ (i : Nat) (r : List K), x.2.rows[i]? = some r → m.rows[x.1 + i]? = some (padded len r)
  free : ∀ q < n, (∀ x ∈ files, ¬ (x.1 ≤ q ∧ q < x.1 + x.2.rows.length)) → m.rows[q]? = some (List.replicate len 0)

end Visr.FilterMatrix
