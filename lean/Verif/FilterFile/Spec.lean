import Verif.FilterFile.Model

/-!
# Filter specifications in JSON and XML: specification

What it means that a document describes a filter, independently of the functions that read documents.
-/

namespace Visr.FilterFile

open Visr Visr.Biquad Visr.Encode

variable {K : Type}

/-- The node `n` is the first child of `t` with the key `k`. -/
def First (t : Node K) (k : String) (n : Node K) : Prop :=
  ∃ pre post, t.children = pre ++ (k, n) :: post ∧ ∀ c ∈ pre, c.1 ≠ k

/-- `t` has no child with the key `k`. -/
def Absent (t : Node K) (k : String) : Prop := ∀ c ∈ t.children, c.1 ≠ k

/-- The JSON object `t` has the value `d` under the key `k`. -/
def Value (t : Node K) (k : String) (d : Datum K) : Prop := ∃ n, First t k n ∧ n.data = d

/-- The XML element `t` has an attribute `k` with the value `d`. -/
def Attribute (t : Node K) (k : String) (d : Datum K) : Prop := ∃ a, First t "<xmlattr>" a ∧ Value a k d

/-- The XML element `t` has no attribute `k`. -/
def NoAttribute (t : Node K) (k : String) : Prop := ∀ a, First t "<xmlattr>" a → Absent a k

/-- `t` is the array of the nodes `ns`. -/
def IsArray (t : Node K) (ns : List (Node K)) : Prop := t.children = ns.map fun n => ("", n)

/-- The child elements of `t` with the name `k` in order. -/
def elements (t : Node K) (k : String) : List (Node K) :=
  t.children.filterMap fun c => if c.1 = k then some c.2 else none

section
variable [Field K]

/-- A section is described by the numbers `b0`, `b1`, `b2`, `a1`, `a2` and optionally `a0`: it has the transfer function
`(b0 + b1/z + b2/z²) / (a0 + a1/z + a2/z²)`, where `a0` is 1 if it is not given. -/
def Describes (value : String → K → Prop) (absent : String → Prop) (c : Coef K) : Prop :=
  ∃ a0, a0 ≠ 0 ∧ (value "a0" a0 ∨ (absent "a0" ∧ a0 = 1)) ∧
    value "b0" (a0 * c.b0) ∧ value "b1" (a0 * c.b1) ∧ value "b2" (a0 * c.b2) ∧
    value "a1" (a0 * c.a1) ∧ value "a2" (a0 * c.a2)

/-- The JSON object `t` describes the section `c`. -/
def JsonBiquad (t : Node K) (c : Coef K) : Prop := Describes (fun k v => Value t k (.num v)) (Absent t) c

/-- The attributes of the XML element `t` describe the section `c`. -/
def ElementBiquad (t : Node K) (c : Coef K) : Prop := Describes (fun k v => Attribute t k (.num v)) (NoAttribute t) c

/-- `t` is an element that describes the section `c` and does not contain a "biquad" element, or a document with such an
element as its (first) "biquad" element. -/
def XmlBiquad (t : Node K) (c : Coef K) : Prop :=
  (Absent t "biquad" ∧ ElementBiquad t c) ∨ ∃ n, First t "biquad" n ∧ ElementBiquad n c

/-- The JSON array `t` describes the sections `cs`. -/
def JsonBiquads (t : Node K) (cs : List (Coef K)) : Prop :=
  ∃ ns, IsArray t ns ∧ List.Forall₂ JsonBiquad ns cs

/-- `t` is an element with "biquad" elements for the sections `cs`, or a document with such an element as its (first)
"filterSpec" element. -/
def XmlBiquads (t : Node K) (cs : List (Coef K)) : Prop :=
  (Absent t "filterSpec" ∧ List.Forall₂ XmlBiquad (elements t "biquad") cs) ∨
    ∃ n, First t "filterSpec" n ∧ List.Forall₂ XmlBiquad (elements n "biquad") cs

/-- The JSON array of arrays `t` describes the filters `m`. -/
def JsonBiquadRows (t : Node K) (m : List (List (Coef K))) : Prop :=
  ∃ ns, IsArray t ns ∧ List.Forall₂ JsonBiquads ns m

end

/-- The name of each type of a parametric section. -/
def nameOf : EqType → String
  | .lowpass => "lowpass"
  | .highpass => "highpass"
  | .bandpass => "bandpass"
  | .bandstop => "bandstop"
  | .peak => "peak"
  | .lowshelf => "lowshelf"
  | .highshelf => "highshelf"
  | .allpass => "allpass"

section
variable [Field K]

/-- A parametric section is described by its type, frequency, quality and, unless it is zero, its gain. -/
def DescribesSection (value : String → Datum K → Prop) (absent : String → Prop) (s : Section K) : Prop :=
  value "type" (.text (nameOf s.typ)) ∧ value "f" (.num s.f) ∧ value "q" (.num s.q) ∧
    (value "gain" (.num s.gain) ∨ (absent "gain" ∧ s.gain = 0))

/-- The JSON object `t` describes the parametric section `s`. -/
def JsonSection (t : Node K) (s : Section K) : Prop := DescribesSection (Value t) (Absent t) s

/-- The attributes of the XML element `t` describe the parametric section `s`. -/
def XmlSection (t : Node K) (s : Section K) : Prop := DescribesSection (Attribute t) (NoAttribute t) s

end

end Visr.FilterFile
