import Verif.Outcome
import Mathlib.Tactic.TypeStar

/-!
# Entries of a property tree

Reading values from a `boost::property_tree::ptree`, as used by the JSON parsers of
the repository.  The text of numbers is replaced by the numbers.
-/

namespace Visr

/-- The value stored under one key of a property tree: absent, present but not
readable as the requested type, or a value.  Simplification: the text of a number
is replaced by the number, so that formatting and reading of digits are outside
the model. -/
inductive Entry (α : Type*) where
  | missing
  | malformed
  | val (a : α)
  deriving DecidableEq

/-- `ptree::count( key ) > 0`. -/
def Entry.present {α : Type*} : Entry α → Bool
  | .missing => false
  | _ => true

/-- `ptree::get< T >( key, default )`: the default also replaces an unreadable
value. -/
def Entry.getD {α : Type*} (e : Entry α) (d : α) : α :=
  match e with
  | .val a => a
  | _ => d

/-- `ptree::get_optional< T >( key )`. -/
def Entry.get? {α : Type*} (e : Entry α) : Option α :=
  match e with
  | .val a => some a
  | _ => none

/-- `ptree::get< T >( key )`: `ptree_bad_path`/`ptree_bad_data`, both derived from
`std::runtime_error`. -/
def Entry.get {α : Type*} : Entry α → Outcome α
  | .val a => .ok a
  | _ => .throw .runtimeError

end Visr
