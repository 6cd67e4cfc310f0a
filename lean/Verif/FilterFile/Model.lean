import Verif.Outcome
import Verif.PTree
import Verif.Biquad.Model
import Verif.Encode.Model
import Mathlib.Algebra.Order.Ring.Abs
import Mathlib.Algebra.Order.Ring.Rat
import Mathlib.Algebra.Field.Rat

/-!
# Filter specifications in JSON and XML

Models `/repo/src/librbbl/biquad_coefficient.{hpp,cpp}` and
`/repo/src/librbbl/parametric_iir_coefficient.{hpp,cpp}`: reading and writing of biquad sections, lists and matrices
of them, and of parametric equaliser settings.

Simplifications.
* A text is represented by the property tree which `read_json` or `read_xml` makes of it, or `none` if it is not a
  document of that kind (the empty text, for example).  `write_json` followed by `read_json` is taken to reproduce the
  tree.
* The text of a number is replaced by the number (`ptree::put` prints enough digits to reproduce it).
* Assertions are disabled, as in a release build: `assert( false )` does nothing.
-/

namespace Visr.FilterFile

open Visr Visr.Biquad Visr.Encode

/-! ### Property trees (`boost::property_tree::ptree`) -/

/-- The data of a node: nothing, the text of a number, or another text. -/
inductive Datum (K : Type) where
  | empty
  | num (k : K)
  | text (s : String)
  deriving DecidableEq

/-- A property tree: its data and its children, in order, with their keys. -/
inductive Node (K : Type) where
  | mk (data : Datum K) (children : List (String × Node K))

variable {K : Type}

/-- `ptree::data()`. -/
def Node.data : Node K → Datum K
  | .mk d _ => d

/-- The children of a node in order. -/
def Node.children : Node K → List (String × Node K)
  | .mk _ c => c

/-- A default-constructed tree. -/
def Node.nil : Node K := .mk .empty []

/-- The first child with the given key (`ptree::get_child`). -/
def Node.child? (t : Node K) (k : String) : Option (Node K) :=
  (t.children.find? fun c => c.1 = k).map fun c => c.2

/-- All children with the given key in order (`ptree::equal_range`). -/
def Node.named (t : Node K) (k : String) : List (Node K) :=
  (t.children.filter fun c => c.1 = k).map fun c => c.2

/-- The node at the path `<xmlattr>.k`. -/
def Node.attr? (t : Node K) (k : String) : Option (Node K) :=
  (t.child? "<xmlattr>").bind fun a => a.child? k

/-- The data of a node read as a number. -/
def numOf : Option (Node K) → Entry K
  | none => .missing
  | some n =>
    match n.data with
    | .num k => .val k
    | _ => .malformed

/-- The data of a node read as `std::string`, which always succeeds.  The digits of a number are represented by the
text "0": no digits name a filter type. -/
def textOf : Option (Node K) → Entry String
  | none => .missing
  | some n =>
    match n.data with
    | .empty => .val ""
    | .num _ => .val "0"
    | .text s => .val s

/-- Apply a function to the first child with the given key, which is appended if there is none. -/
def onChild (k : String) (f : Node K → Node K) : List (String × Node K) → List (String × Node K)
  | [] => [(k, f Node.nil)]
  | c :: cs => if c.1 = k then (k, f c.2) :: cs else c :: onChild k f cs

/-- `ptree::put( k, d )` for a path with one component. -/
def Node.put (t : Node K) (k : String) (d : Datum K) : Node K :=
  .mk t.data (onChild k (fun n => .mk d n.children) t.children)

/-- `ptree::put( "<xmlattr>.k", d )`. -/
def Node.putAttr (t : Node K) (k : String) (d : Datum K) : Node K :=
  .mk t.data (onChild "<xmlattr>" (fun n => n.put k d) t.children)

/-- `ptree::push_back( { k, c } )` and `ptree::add_child( k, c )` for a path with at most one component. -/
def Node.push (t : Node K) (k : String) (c : Node K) : Node K :=
  .mk t.data (t.children ++ [(k, c)])

/-- A document, or `none` for a text that is not one. -/
abbrev Text (K : Type) := Option (Node K)

/-- What a loading function leaves behind: the object and the way the call ends. -/
abbrev Loaded (σ : Type) := σ × Outcome Unit

/-- The loading functions for streams and strings: `read_json` or `read_xml`, whose failure becomes
`std::invalid_argument`, then the function for trees (e.g. `biquad_coefficient.cpp:89-109`, `:133-154`, `:270-291`,
`:313-334`, `:554-575`; `parametric_iir_coefficient.cpp:214-233`, `:251-264`, `:357-376`, `:393-412`). -/
def ofText {σ : Type} (load : σ → Node K → Loaded σ) (old : σ) : Text K → Loaded σ
  | none => (old, .throw .invalidArgument)
  | some t => load old t

/-! ### Biquad sections -/

section Biquads
variable [Field K]

/-- The assignments of `BiquadCoefficient::loadJson`: one after the other, until one fails. -/
def assignFrom (t : Node K) (a0 : K) : List (String × (Coef K → K → Coef K)) → Coef K → Loaded (Coef K)
  | [], c => (c, .ok ())
  | (k, set) :: r, c =>
    match (numOf (t.child? k)).get with
    | .ok v => assignFrom t a0 r (set c (v / a0))
    | .throw e => (c, .throw e)
    | .ub => (c, .ub)

/-- `BiquadCoefficient::loadJson( tree )` (`biquad_coefficient.cpp:76-87`).  Simplification: division by a zero `a0`
yields zero instead of infinite or undefined values. -/
def loadJson (old : Coef K) (t : Node K) : Loaded (Coef K) :=
  assignFrom t ((numOf (t.child? "a0")).getD 1)
    [("b0", fun c v => { c with b0 := v }), ("b1", fun c v => { c with b1 := v }),
      ("b2", fun c v => { c with b2 := v }), ("a1", fun c v => { c with a1 := v }),
      ("a2", fun c v => { c with a2 := v })] old

/-- The values read by `BiquadCoefficient::loadXml` (`biquad_coefficient.cpp:113-130`). -/
def readXml (t : Node K) : Outcome (Coef K) := do
  let bt := (t.child? "biquad").getD t
  let a0 := (numOf (bt.attr? "a0")).getD 1
  let a1 ← (numOf (bt.attr? "a1")).get
  let a2 ← (numOf (bt.attr? "a2")).get
  let b0 ← (numOf (bt.attr? "b0")).get
  let b1 ← (numOf (bt.attr? "b1")).get
  let b2 ← (numOf (bt.attr? "b2")).get
  .ok ⟨b0 / a0, b1 / a0, b2 / a0, a1 / a0, a2 / a0⟩

/-- An object which is replaced by the value read, or kept if reading fails. -/
def replaceBy {σ : Type} (old : σ) : Outcome σ → Loaded σ
  | .ok c => (c, .ok ())
  | .throw e => (old, .throw e)
  | .ub => (old, .ub)

/-- `BiquadCoefficient::loadXml( tree )` (`biquad_coefficient.cpp:110-131`): all values are read before the first
assignment. -/
def loadXml (old : Coef K) (t : Node K) : Loaded (Coef K) := replaceBy old (readXml t)

/-- `BiquadCoefficient::writeJson( tree )` (`biquad_coefficient.cpp:156-164`). -/
def writeJson (c : Coef K) (t : Node K) : Node K :=
  ((((t.put "b0" (.num c.b0)).put "b1" (.num c.b1)).put "b2" (.num c.b2)).put "a1" (.num c.a1)).put "a2" (.num c.a2)

/-- `BiquadCoefficient::writeJson( stream )` and `writeJson( string )` (`biquad_coefficient.cpp:166-187`). -/
def writeJsonText (c : Coef K) : Text K := some (writeJson c Node.nil)

/-- `BiquadCoefficient::writeXml( tree )` (`biquad_coefficient.cpp:189-194`): not implemented. -/
def writeXml (_c : Coef K) (t : Node K) : Node K := t

/-- `BiquadCoefficient::writeXml( stream )` and `writeXml( string )` (`biquad_coefficient.cpp:196-207`): nothing is
written. -/
def writeXmlText (_c : Coef K) : Text K := none

/-! ### Lists of biquad sections -/

/-- `BiquadCoefficientList::resize` (`biquad_coefficient.hpp`): existing sections are kept, new ones are flat. -/
def resizeList (l : List (Coef K)) (n : Nat) : List (Coef K) :=
  l.take n ++ List.replicate (n - l.length) Coef.flat

/-- The loop over the nodes in `BiquadCoefficientList::loadJson` and `loadXml`. -/
def loadEach (load : Coef K → Node K → Loaded (Coef K)) :
    List (Coef K) → List (Node K) → Loaded (List (Coef K))
  | c :: cs, t :: ts =>
    match load c t with
    | (c', .ok _) => (c' :: (loadEach load cs ts).1, (loadEach load cs ts).2)
    | (c', .throw e) => (c' :: cs, .throw e)
    | (c', .ub) => (c' :: cs, .ub)
  | cs, _ => (cs, .ok ())

/-- `BiquadCoefficientList::loadJson( tree )` (`biquad_coefficient.cpp:255-268`). -/
def loadJsonList (old : List (Coef K)) (t : Node K) : Loaded (List (Coef K)) :=
  loadEach loadJson (resizeList old (t.named "").length) (t.named "")

/-- `BiquadCoefficientList::loadXml( tree )` (`biquad_coefficient.cpp:293-311`). -/
def loadXmlList (old : List (Coef K)) (t : Node K) : Loaded (List (Coef K)) :=
  let spec := (t.child? "filterSpec").getD t
  loadEach loadXml (resizeList old (spec.named "biquad").length) (spec.named "biquad")

/-- `BiquadCoefficientList::writeJson( tree )` (`biquad_coefficient.cpp:340-349`). -/
def writeJsonList (l : List (Coef K)) (t : Node K) : Node K :=
  l.foldl (fun t c => t.push "" (writeJson c Node.nil)) t

/-- `BiquadCoefficientList::writeJson( stream )` and `writeJson( string )` (`biquad_coefficient.cpp:351-372`). -/
def writeJsonListText (l : List (Coef K)) : Text K := some (writeJsonList l Node.nil)

/-- `BiquadCoefficientList::writeXml( tree )` (`biquad_coefficient.cpp:374-379`): not implemented. -/
def writeXmlList (_l : List (Coef K)) (t : Node K) : Node K := t

/-- `BiquadCoefficientList::operator=` (`biquad_coefficient.hpp`): the exception for a differing size is constructed,
but not thrown. -/
def assignList (_old new : List (Coef K)) : Loaded (List (Coef K)) := (new, .ok ())

/-! ### Matrices of biquad sections -/

/-- `BiquadCoefficientMatrix::resize` (`biquad_coefficient.cpp:446-453`): all sections become flat. -/
def resizeMatrix (n s : Nat) : List (List (Coef K)) := List.replicate n (List.replicate s Coef.flat)

/-- `BiquadCoefficientMatrix::numberOfSections()` (`biquad_coefficient.hpp`). -/
def sections : List (List (Coef K)) → Nat
  | [] => 0
  | r :: _ => r.length

/-- `BiquadCoefficientMatrix::setFilter` (`biquad_coefficient.cpp:455-471`).  The expressions `&newFilter[0]` and
`&row[0]` index vectors that may be empty. -/
def setFilter (m : List (List (Coef K))) (i : Nat) (f : List (Coef K)) : Loaded (List (List (Coef K))) :=
  if i ≥ m.length then (m, .throw .outOfRange)
  else if f.length > sections m then (m, .throw .invalidArgument)
  else if f.isEmpty || (m[i]?).any List.isEmpty then (m, .ub)
  else (m.set i (f ++ List.replicate (sections m - f.length) Coef.flat), .ok ())

/-- The rows checked and copied by the constructor of `BiquadCoefficientMatrix` from nested initialiser lists
(`biquad_coefficient.cpp:418-443`). -/
def matrixOf : List (List (Coef K)) → Outcome (List (List (Coef K)))
  | [] => .ok []
  | r :: rs => if rs.all fun q => q.length = r.length then .ok (r :: rs) else .throw .invalidArgument

/-- The loop of `BiquadCoefficientMatrix::loadJson` from row `i` on. -/
def loadRows (n : Nat) : Nat → List (Node K) → List (List (Coef K)) → Loaded (List (List (Coef K)))
  | _, [], m => (m, .ok ())
  | i, t :: ts, m =>
    match loadJsonList [] t with
    | (_, .throw e) => (m, .throw e)
    | (_, .ub) => (m, .ub)
    | (row, .ok _) =>
      let m := if i = 0 then resizeMatrix n row.length else m
      match setFilter m i row with
      | (m', .ok _) => loadRows n (i + 1) ts m'
      | r => r

/-- `BiquadCoefficientMatrix::loadJson( tree )` (`biquad_coefficient.cpp:525-552`): the exception for rows of differing
sizes is constructed, but not thrown. -/
def loadJsonMatrix (old : List (List (Coef K))) (t : Node K) : Loaded (List (List (Coef K))) :=
  loadRows (t.named "").length 0 (t.named "")
    (if (t.named "").length = 0 then resizeMatrix 0 0 else old)

/-- `BiquadCoefficientMatrix::loadXml( tree )` (`biquad_coefficient.cpp:577-595`): the body is disabled. -/
def loadXmlMatrix (old : List (List (Coef K))) (_t : Node K) : Loaded (List (List (Coef K))) := (old, .ok ())

/-- `BiquadCoefficientMatrix::writeJson( tree )` (`biquad_coefficient.cpp:619-630`): the body is disabled. -/
def writeJsonMatrix (_m : List (List (Coef K))) (t : Node K) : Node K := t

end Biquads

/-! ### Parametric equaliser settings -/

/-- `TypeIdTranslator::mFwdMap` (`parametric_iir_coefficient.cpp:59-64`). -/
def typeNames : List (EqType × String) :=
  [(.lowpass, "lowpass"), (.highpass, "highpass"), (.bandpass, "bandpass"), (.bandstop, "bandstop"),
    (.peak, "peak"), (.lowshelf, "lowshelf"), (.highshelf, "highshelf"), (.allpass, "allpass")]

/-- `ParametricIirCoefficientBase::typeIdToString` (`parametric_iir_coefficient.cpp:47-56`, `:80-84`). -/
def typeToText (ty : EqType) : Outcome String :=
  match typeNames.find? fun p => p.1 = ty with
  | some p => .ok p.2
  | none => .throw .invalidArgument

/-- `ParametricIirCoefficientBase::stringToTypeId` (`parametric_iir_coefficient.cpp:37-45`, `:86-90`). -/
def textToType (s : String) : Outcome EqType :=
  match typeNames.find? fun p => p.2 = s with
  | some p => .ok p.1
  | none => .throw .invalidArgument

section Parametric
variable [Field K] [LinearOrder K]

/-- The values read by `ParametricIirCoefficient::loadJson( tree )` (`parametric_iir_coefficient.cpp:200-212`). -/
def readSectionJson (t : Node K) : Outcome (Section K) := do
  let ty ← (textOf (t.child? "type")).get
  let f ← (numOf (t.child? "f")).get
  let q ← (numOf (t.child? "q")).get
  let ty ← textToType ty
  .ok ⟨ty, f, q, (numOf (t.child? "gain")).getD 0⟩

/-- The values read by `ParametricIirCoefficient::loadXml( tree )` (`parametric_iir_coefficient.cpp:235-249`).  The copy
of the tree printed to standard output is not modelled. -/
def readSectionXml (t : Node K) : Outcome (Section K) := do
  let ty ← (textOf (t.attr? "type")).get
  let ty ← textToType ty
  let f ← (numOf (t.attr? "f")).get
  let q ← (numOf (t.attr? "q")).get
  .ok ⟨ty, f, q, (numOf (t.attr? "gain")).getD 0⟩

/-- `ParametricIirCoefficient::loadJson( tree )`: all values are read before the first one is set. -/
def loadSectionJson (old : Section K) (t : Node K) : Loaded (Section K) := replaceBy old (readSectionJson t)

/-- `ParametricIirCoefficient::loadXml( tree )`: all values are read before the first one is set. -/
def loadSectionXml (old : Section K) (t : Node K) : Loaded (Section K) := replaceBy old (readSectionXml t)

/-- `ParametricIirCoefficient::loadXml( string )` (`parametric_iir_coefficient.cpp:266-279`): the overload of `read_xml`
for strings takes the name of a file.  `files` yields the document in the file whose name is the text. -/
def loadSectionXmlString (files : Text K → Text K) (old : Section K) (text : Text K) : Loaded (Section K) :=
  ofText loadSectionXml old (files text)

/-- `ParametricIirCoefficient::writeJson( tree )` (`parametric_iir_coefficient.cpp:282-291`).  `eps` is
`std::numeric_limits< CoefficientType >::epsilon()`. -/
def writeSectionJson (eps : K) (s : Section K) (t : Node K) : Outcome (Node K) := do
  let ty ← typeToText s.typ
  let t := ((t.put "type" (.text ty)).put "f" (.num s.f)).put "q" (.num s.q)
  .ok (if eps ≤ |s.gain| then t.put "gain" (.num s.gain) else t)

/-- `ParametricIirCoefficient::writeJson( stream )` and `writeJson( string )` (`parametric_iir_coefficient.cpp:293-306`):
the tree is made, but not written. -/
def writeSectionJsonText (_eps : K) (_s : Section K) : Text K := none

/-- `ParametricIirCoefficient::writeXml( tree )` (`parametric_iir_coefficient.cpp:308-318`). -/
def writeSectionXml (eps : K) (s : Section K) (t : Node K) : Outcome (Node K) := do
  let ty ← typeToText s.typ
  let t := ((t.putAttr "type" (.text ty)).putAttr "f" (.num s.f)).putAttr "q" (.num s.q)
  .ok (if eps ≤ |s.gain| then t.putAttr "gain" (.num s.gain) else t)

/-- The sections read from nodes in order. -/
def readEach (read : Node K → Outcome (Section K)) : List (Node K) → Outcome (List (Section K))
  | [] => .ok []
  | t :: ts => do
    let s ← read t
    let ss ← readEach read ts
    .ok (s :: ss)

/-- `ParametricIirCoefficientList::loadJson( tree )` (`parametric_iir_coefficient.cpp:344-355`): all children, whatever
their key. -/
def loadSectionsJson (old : List (Section K)) (t : Node K) : Loaded (List (Section K)) :=
  replaceBy old (readEach readSectionJson (t.children.map fun c => c.2))

/-- `ParametricIirCoefficientList::loadXml( tree )` (`parametric_iir_coefficient.cpp:378-391`). -/
def loadSectionsXml (old : List (Section K)) (t : Node K) : Loaded (List (Section K)) :=
  replaceBy old (readEach readSectionXml (t.named "eq"))

/-- The loop of `ParametricIirCoefficientList::writeJson` and `writeXml`. -/
def writeEach (eps : K) (key : String) : List (Section K) → Node K → Outcome (Node K)
  | [], t => .ok t
  | s :: ss, t => do
    let c ← writeSectionJson eps s Node.nil
    writeEach eps key ss (t.push key c)

/-- `ParametricIirCoefficientList::writeJson( tree )` (`parametric_iir_coefficient.cpp:414-423`). -/
def writeSectionsJson (eps : K) (l : List (Section K)) (t : Node K) : Outcome (Node K) := writeEach eps "" l t

/-- `ParametricIirCoefficientList::writeXml( tree )` (`parametric_iir_coefficient.cpp:448-457`): the children are written
by `writeJson`. -/
def writeSectionsXml (eps : K) (l : List (Section K)) (t : Node K) : Outcome (Node K) := writeEach eps "eq" l t

end Parametric

end Visr.FilterFile
