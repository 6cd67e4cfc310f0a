import Verif.FilterFile.Lemmas
import Mathlib.Tactic.NormNum

/-!
# Filter specifications in JSON and XML: properties (C76)

A filter specification that is read from a document is the one the document describes, one that has been written can be
read back, and a document that describes none is rejected and leaves the object alone.

This holds of the classes for parametric sections up to gains below the rounding unit, and of reading biquad sections.
It is false of writing XML, of matrices and of several text interfaces; see the theorems at the end.
-/

set_option linter.unusedSectionVars false

namespace Visr.FilterFile

open Visr Visr.Biquad Visr.Encode

variable {K : Type}

/-! ### Biquad sections -/

section Biquads
variable [Field K]

/-- Reading a JSON object that describes a section yields that section. -/
theorem biquad_json_is_read (old c : Coef K) (t : Node K) (h : JsonBiquad t c) : loadJson old t = (c, .ok ()) :=
  loadJson_described old c t h

/-- A JSON object is accepted if and only if it has the five numbers; otherwise an exception is thrown. -/
theorem biquad_json_is_accepted_iff (old : Coef K) (t : Node K) :
    ((loadJson old t).2 = .ok () ↔ ∀ k ∈ ["b0", "b1", "b2", "a1", "a2"], ∃ v, Value t k (.num v)) ∧
      ((loadJson old t).2 ≠ .ok () → (loadJson old t).2 = .throw .runtimeError) := by
  rcases loadJson_cases old t with ⟨h1, h2⟩ | ⟨h1, h2⟩
  · exact ⟨⟨fun _ => h2, fun _ => h1⟩, fun h => absurd h1 h⟩
  · refine ⟨⟨fun h => ?_, fun h => absurd h h2⟩, fun _ => h1⟩
    rw [h1] at h
    cases h

/-- A section written into a tree that has no value "a0" is read back unchanged, both from the tree and from text. -/
theorem biquad_json_round_trip (old c : Coef K) (t : Node K) (h : Absent t "a0") :
    loadJson old (writeJson c t) = (c, .ok ()) ∧ ofText loadJson old (writeJsonText c) = (c, .ok ()) :=
  ⟨loadJson_described old c _ (writeJson_described c t h),
    loadJson_described old c _ (writeJson_described c _ (absent_nil _))⟩

/-- Reading an XML element that describes a section, or a document with such an element, yields that section. -/
theorem biquad_xml_is_read (old c : Coef K) (t : Node K) (h : XmlBiquad t c) : loadXml old t = (c, .ok ()) :=
  loadXml_described old c t h

/-- If reading a section from XML fails, an exception reports it and the section is unchanged. -/
theorem failed_xml_load_keeps_section (old : Coef K) (t : Node K) (h : (loadXml old t).2 ≠ .ok ()) :
    loadXml old t = (old, .throw .runtimeError) := by
  unfold loadXml readXml at h ⊢
  simp only at h ⊢
  generalize (t.child? "biquad").getD t = bt at h ⊢
  cases h1 : numOf (bt.attr? "a1") <;> cases h2 : numOf (bt.attr? "a2") <;> cases h3 : numOf (bt.attr? "b0") <;>
    cases h4 : numOf (bt.attr? "b1") <;> cases h5 : numOf (bt.attr? "b2") <;>
    simp [h1, h2, h3, h4, h5, Entry.get, replaceBy] at h ⊢

/-- An XML element is accepted if and only if it, or its first "biquad" element if there is one, has the five numbers as
attributes. -/
theorem biquad_xml_is_accepted_iff (old : Coef K) (t : Node K) :
    (loadXml old t).2 = .ok () ↔ ∃ e, (First t "biquad" e ∨ (Absent t "biquad" ∧ e = t)) ∧
      ∀ k ∈ ["b0", "b1", "b2", "a1", "a2"], ∃ v, Attribute e k (.num v) := by
  have hbt : ∀ e, (First t "biquad" e ∨ (Absent t "biquad" ∧ e = t)) ↔ (t.child? "biquad").getD t = e := by
    intro e
    cases hc : t.child? "biquad" with
    | none =>
      have ha := (child?_eq_none t _).1 hc
      constructor
      · rintro (h | ⟨_, h⟩)
        · rw [(child?_eq_some t _ e).2 h] at hc; cases hc
        · exact h.symm
      · intro h; exact Or.inr ⟨ha, h.symm⟩
    | some n =>
      constructor
      · rintro (h | ⟨h, _⟩)
        · rw [(child?_eq_some t _ e).2 h] at hc; injection hc with hc; exact hc.symm
        · rw [(child?_eq_none t _).2 h] at hc; cases hc
      · intro h
        simp only [Option.getD_some] at h
        subst h
        exact Or.inl ((child?_eq_some t _ _).1 hc)
  simp only [hbt, exists_eq_left']
  simp only [← attr_val]
  unfold loadXml readXml
  simp only
  generalize (t.child? "biquad").getD t = bt
  cases h1 : numOf (bt.attr? "a1") <;> cases h2 : numOf (bt.attr? "a2") <;> cases h3 : numOf (bt.attr? "b0") <;>
    cases h4 : numOf (bt.attr? "b1") <;> cases h5 : numOf (bt.attr? "b2") <;>
    simp [h1, h2, h3, h4, h5, Entry.get, replaceBy]

/-! ### Lists of biquad sections -/

/-- Reading a JSON array of descriptions yields the sections in order, whatever the list contained before. -/
theorem biquads_json_are_read (old cs : List (Coef K)) (t : Node K) (h : JsonBiquads t cs) :
    loadJsonList old t = (cs, .ok ()) :=
  loadJsonList_described old cs t h

/-- An array is accepted if and only if every element has the five numbers. -/
theorem biquads_json_are_accepted_iff (old : List (Coef K)) (t : Node K) (ns : List (Node K)) (ha : IsArray t ns) :
    ((loadJsonList old t).2 = .ok () ↔
        ∀ n ∈ ns, ∀ k ∈ ["b0", "b1", "b2", "a1", "a2"], ∃ v, Value n k (.num v)) ∧
      ((loadJsonList old t).2 ≠ .ok () → (loadJsonList old t).2 = .throw .runtimeError) := by
  unfold loadJsonList
  rw [named_array t ns ha]
  rcases loadEach_cases (load := loadJson)
    (Ok := fun n => ∀ k ∈ ["b0", "b1", "b2", "a1", "a2"], ∃ v, Value n k (.num v))
    (fun old t => loadJson_cases old t) (resizeList old ns.length) ns (length_resizeList _ _)
    with ⟨h1, h2⟩ | ⟨h1, h2⟩
  · exact ⟨⟨fun _ => h2, fun _ => h1⟩, fun h => absurd h1 h⟩
  · refine ⟨⟨fun h => ?_, fun h => absurd h h2⟩, fun _ => h1⟩
    rw [h1] at h
    cases h

/-- A list written into a tree that has no unnamed children is read back unchanged, both from the tree and from text. -/
theorem biquads_json_round_trip (old l : List (Coef K)) (t : Node K) (h : Absent t "") :
    loadJsonList old (writeJsonList l t) = (l, .ok ()) ∧
      ofText loadJsonList old (writeJsonListText l) = (l, .ok ()) := by
  refine ⟨loadJsonList_nodes old l _ ?_, loadJsonList_nodes old l _ ?_⟩
  · rw [named_written l t h]; exact written_nodes l
  · rw [named_written l _ (absent_nil _)]; exact written_nodes l

/-- Reading an XML element with "biquad" elements, or a document with such a "filterSpec" element, yields the sections
in order. -/
theorem biquads_xml_are_read (old cs : List (Coef K)) (t : Node K) (h : XmlBiquads t cs) :
    loadXmlList old t = (cs, .ok ()) := by
  have key : ∀ n, (t.child? "filterSpec").getD t = n → List.Forall₂ XmlBiquad (elements n "biquad") cs →
      loadXmlList old t = (cs, .ok ()) := by
    intro n hn h
    unfold loadXmlList
    simp only [hn]
    rw [named_eq]
    exact loadEach_described (fun old t c => loadXml_described old c t) _ _ _ (length_resizeList _ _) h
  rcases h with ⟨ha, h⟩ | ⟨n, hn, h⟩
  · refine key t ?_ h
    rw [(child?_eq_none t _).2 ha]; rfl
  · refine key n ?_ h
    rw [(child?_eq_some t _ n).2 hn]; rfl

/-- A list of "biquad" elements is accepted if and only if each of them is; otherwise an exception is thrown. -/
theorem biquads_xml_are_accepted_iff (old : List (Coef K)) (t e : Node K)
    (he : First t "filterSpec" e ∨ (Absent t "filterSpec" ∧ e = t)) :
    ((loadXmlList old t).2 = .ok () ↔ ∀ n ∈ elements e "biquad", ∃ b, (First n "biquad" b ∨ (Absent n "biquad" ∧ b = n)) ∧
        ∀ k ∈ ["b0", "b1", "b2", "a1", "a2"], ∃ v, Attribute b k (.num v)) ∧
      ((loadXmlList old t).2 ≠ .ok () → (loadXmlList old t).2 = .throw .runtimeError) := by
  have hn : (t.child? "filterSpec").getD t = e := by
    rcases he with h | ⟨h, rfl⟩
    · rw [(child?_eq_some t _ e).2 h]; rfl
    · rw [(child?_eq_none e _).2 h]; rfl
  have hl : ∀ (old : Coef K) (n : Node K),
      ((loadXml old n).2 = .ok () ∧ ∃ b, (First n "biquad" b ∨ (Absent n "biquad" ∧ b = n)) ∧
        ∀ k ∈ ["b0", "b1", "b2", "a1", "a2"], ∃ v, Attribute b k (.num v)) ∨
      ((loadXml old n).2 = .throw .runtimeError ∧ ¬ ∃ b, (First n "biquad" b ∨ (Absent n "biquad" ∧ b = n)) ∧
        ∀ k ∈ ["b0", "b1", "b2", "a1", "a2"], ∃ v, Attribute b k (.num v)) := by
    intro old n
    by_cases h : (loadXml old n).2 = .ok ()
    · exact Or.inl ⟨h, (biquad_xml_is_accepted_iff old n).1 h⟩
    · exact Or.inr ⟨by rw [failed_xml_load_keeps_section old n h], fun hc => h ((biquad_xml_is_accepted_iff old n).2 hc)⟩
  unfold loadXmlList
  simp only [hn]
  rw [named_eq]
  rcases loadEach_cases (load := loadXml) hl (resizeList old (elements e "biquad").length) _ (length_resizeList _ _)
    with ⟨h1, h2⟩ | ⟨h1, h2⟩
  · exact ⟨⟨fun _ => h2, fun _ => h1⟩, fun h => absurd h1 h⟩
  · refine ⟨⟨fun h => ?_, fun h => absurd h h2⟩, fun _ => h1⟩
    rw [h1] at h
    cases h

/-! ### Matrices of biquad sections -/

/-- Reading an array of arrays with the same positive number of sections yields the filters they describe, whatever the
matrix contained before.  Rows of differing length are missing: see `shorter_rows_are_accepted`. -/
theorem matrix_json_is_read_partial (old m : List (List (Coef K))) (t : Node K) (s : Nat) (hs : 0 < s)
    (hm : ∀ r ∈ m, r.length = s) (h : JsonBiquadRows t m) : loadJsonMatrix old t = (m, .ok ()) := by
  cases m with
  | nil =>
    obtain ⟨ns, ha, h⟩ := h
    cases h
    unfold loadJsonMatrix
    rw [named_array t [] ha]
    rfl
  | cons row rows =>
    have h0 := hm row (by simp)
    rw [loadJsonMatrix_rows old t row rows h (by omega)
      (fun r hr => by have := hm r (List.mem_cons_of_mem _ hr); omega)]
    congr 1
    have : ∀ r ∈ row :: rows, (r ++ List.replicate (row.length - r.length) (Coef.flat : Coef K)) = r := by
      intro r hr
      rw [hm r hr, h0]
      simp
    exact (List.map_congr_left this).trans (List.map_id _)

/-- Constructing a matrix from rows succeeds if and only if they have the same length, and yields these rows. -/
theorem matrix_of_rows (m : List (List (Coef K))) :
    ((∃ s, ∀ r ∈ m, r.length = s) → matrixOf m = .ok m) ∧
      ((¬ ∃ s, ∀ r ∈ m, r.length = s) → matrixOf m = .throw .invalidArgument) := by
  cases m with
  | nil => exact ⟨fun _ => rfl, fun h => absurd ⟨0, by simp⟩ h⟩
  | cons r rs =>
    simp only [matrixOf]
    constructor
    · rintro ⟨s, h⟩
      rw [if_pos]
      rw [List.all_eq_true]
      intro q hq
      simp [h q (List.mem_cons_of_mem _ hq), h r (by simp)]
    · intro h
      rw [if_neg]
      rw [List.all_eq_true]
      intro hall
      apply h
      refine ⟨r.length, ?_⟩
      intro q hq
      rcases List.mem_cons.1 hq with rfl | hq
      · rfl
      · simpa using hall q hq

/-- Setting a row of a matrix replaces it by the filter, followed by flat sections, and leaves the other rows alone. -/
theorem set_filter_replaces_row_partial (m : List (List (Coef K))) (s i : Nat) (f : List (Coef K))
    (hm : ∀ r ∈ m, r.length = s) (hi : i < m.length) (hf : 0 < f.length) (hfs : f.length ≤ s) :
    ∃ m', setFilter m i f = (m', .ok ()) ∧ m'.length = m.length ∧
      m'[i]? = some (f ++ List.replicate (s - f.length) ⟨1, 0, 0, 0, 0⟩) ∧ ∀ j : Nat, j ≠ i → m'[j]? = m[j]? := by
  refine ⟨_, setFilter_ok m i s f (by omega) hm hi hf hfs, by simp, ?_, ?_⟩
  · rw [List.getElem?_set_self hi]
    rfl
  · intro j hj
    rw [List.getElem?_set_ne (by omega)]

/-- A filter that is too long, or the number of a row that does not exist, is rejected and the matrix is unchanged. -/
theorem set_filter_rejects (m : List (List (Coef K))) (s i : Nat) (f : List (Coef K))
    (hm : ∀ r ∈ m, r.length = s) (h : m.length ≤ i ∨ s < f.length) :
    ∃ e, setFilter m i f = (m, .throw e) := by
  by_cases hi : i ≥ m.length
  · exact ⟨.outOfRange, by unfold setFilter; rw [if_pos hi]⟩
  · refine ⟨.invalidArgument, ?_⟩
    have hsec : sections m = s := by
      cases m with
      | nil => simp at hi
      | cons r rs => exact hm r (by simp)
    unfold setFilter
    rw [if_neg hi, if_pos (by omega)]

end Biquads

/-! ### Parametric sections -/

/-- Every type has a name, different types have different names, every name is recognised as its type and every other
text is rejected. -/
theorem type_names :
    (∀ ty, typeToText ty = .ok (nameOf ty)) ∧ Function.Injective nameOf ∧
      (∀ ty, textToType (nameOf ty) = .ok ty) ∧
      ∀ s, (∀ ty, nameOf ty ≠ s) → textToType s = .throw .invalidArgument := by
  refine ⟨typeToText_eq, ?_, textToType_nameOf, ?_⟩
  · intro a b h
    have := textToType_nameOf a
    rw [h, textToType_nameOf] at this
    cases this
    rfl
  · intro s hs
    rcases textToType_cases s with ⟨ty, h, _⟩ | ⟨_, h⟩
    · exact absurd h (hs ty)
    · exact h

section Parametric
variable [Field K] [LinearOrder K]

/-- Reading a JSON object or an XML element that describes a parametric section yields that section. -/
theorem section_is_read (old s : Section K) (t : Node K) :
    (JsonSection t s → loadSectionJson old t = (s, .ok ())) ∧
      (XmlSection t s → loadSectionXml old t = (s, .ok ())) := by
  constructor
  · intro h
    unfold loadSectionJson
    rw [readSectionJson_described t s h]
    rfl
  · intro h
    unfold loadSectionXml
    rw [readSectionXml_described t s h]
    rfl

/-- What is read from an accepted JSON object is what it says: its type, frequency, quality, and its gain if that is a
number. -/
theorem accepted_section_json (old s : Section K) (t : Node K) (h : loadSectionJson old t = (s, .ok ())) :
    Value t "type" (.text (nameOf s.typ)) ∧ Value t "f" (.num s.f) ∧ Value t "q" (.num s.q) ∧
      (Value t "gain" (.num s.gain) ∨ (¬ ∃ v, Value t "gain" (.num v)) ∧ s.gain = 0) := by
  unfold loadSectionJson readSectionJson at h
  cases h1 : textOf (t.child? "type") with
  | missing => simp [h1, Entry.get, replaceBy] at h
  | malformed => simp [h1, Entry.get, replaceBy] at h
  | val ty =>
  cases h2 : numOf (t.child? "f") with
  | missing => simp [h1, h2, Entry.get, replaceBy] at h
  | malformed => simp [h1, h2, Entry.get, replaceBy] at h
  | val f =>
  cases h3 : numOf (t.child? "q") with
  | missing => simp [h1, h2, h3, Entry.get, replaceBy] at h
  | malformed => simp [h1, h2, h3, Entry.get, replaceBy] at h
  | val q =>
  rcases textToType_cases ty with ⟨ty', hty, ht⟩ | ⟨_, ht⟩
  · simp only [h1, h2, h3, ht, Entry.get, Outcome.ok_bind, replaceBy] at h
    injection h with h _
    subst h
    obtain ⟨n, hn, hd⟩ := textOf_name _ _ _ h1 hty
    refine ⟨⟨n, (child?_eq_some _ _ _).1 hn, by rw [hd, ← hty]⟩, (numOf_val _ _ _).1 h2, (numOf_val _ _ _).1 h3, ?_⟩
    cases hg : numOf (t.child? "gain") with
    | val g => left; exact (numOf_val _ _ _).1 hg
    | missing =>
      right
      refine ⟨?_, rfl⟩
      rintro ⟨v, hv⟩
      rw [(numOf_val _ _ _).2 hv] at hg
      cases hg
    | malformed =>
      right
      refine ⟨?_, rfl⟩
      rintro ⟨v, hv⟩
      rw [(numOf_val _ _ _).2 hv] at hg
      cases hg
  · simp [h1, h2, h3, ht, Entry.get, replaceBy] at h

/-- What is read from an accepted XML element is what its attributes say. -/
theorem accepted_section_xml (old s : Section K) (t : Node K) (h : loadSectionXml old t = (s, .ok ())) :
    Attribute t "type" (.text (nameOf s.typ)) ∧ Attribute t "f" (.num s.f) ∧ Attribute t "q" (.num s.q) ∧
      (Attribute t "gain" (.num s.gain) ∨ (¬ ∃ v, Attribute t "gain" (.num v)) ∧ s.gain = 0) := by
  unfold loadSectionXml readSectionXml at h
  cases h1 : textOf (t.attr? "type") with
  | missing => simp [h1, Entry.get, replaceBy] at h
  | malformed => simp [h1, Entry.get, replaceBy] at h
  | val ty =>
  rcases textToType_cases ty with ⟨ty', hty, ht⟩ | ⟨_, ht⟩
  · cases h2 : numOf (t.attr? "f") with
    | missing => simp [h1, h2, ht, Entry.get, replaceBy] at h
    | malformed => simp [h1, h2, ht, Entry.get, replaceBy] at h
    | val f =>
    cases h3 : numOf (t.attr? "q") with
    | missing => simp [h1, h2, h3, ht, Entry.get, replaceBy] at h
    | malformed => simp [h1, h2, h3, ht, Entry.get, replaceBy] at h
    | val q =>
    simp only [h1, h2, h3, ht, Entry.get, Outcome.ok_bind, replaceBy] at h
    injection h with h _
    subst h
    refine ⟨?_, (attr_val _ _ _).1 h2, (attr_val _ _ _).1 h3, ?_⟩
    · unfold Node.attr? at h1
      cases hc : t.child? "<xmlattr>" with
      | none => rw [hc] at h1; simp [textOf] at h1
      | some a =>
        rw [hc] at h1
        obtain ⟨n, hn, hd⟩ := textOf_name _ _ _ h1 hty
        exact ⟨a, (child?_eq_some t _ a).1 hc, n, (child?_eq_some _ _ _).1 hn, by rw [hd, ← hty]⟩
    · cases hg : numOf (t.attr? "gain") with
      | val g => left; exact (attr_val _ _ _).1 hg
      | missing =>
        right
        refine ⟨?_, rfl⟩
        rintro ⟨v, hv⟩
        rw [(attr_val _ _ _).2 hv] at hg
        cases hg
      | malformed =>
        right
        refine ⟨?_, rfl⟩
        rintro ⟨v, hv⟩
        rw [(attr_val _ _ _).2 hv] at hg
        cases hg
  · simp [h1, ht, Entry.get, replaceBy] at h

/-- Every section of an accepted list is read from an element that is accepted, in order. -/
theorem accepted_sections (old l : List (Section K)) (t : Node K) :
    (loadSectionsJson old t = (l, .ok ()) →
      List.Forall₂ (fun n s => loadSectionJson s n = (s, .ok ())) (t.children.map fun c => c.2) l) ∧
    (loadSectionsXml old t = (l, .ok ()) →
      List.Forall₂ (fun n s => loadSectionXml s n = (s, .ok ())) (elements t "eq") l) := by
  have hr : ∀ (read : Node K → Outcome (Section K)) (ns : List (Node K)) (l : List (Section K)),
      readEach read ns = .ok l → List.Forall₂ (fun n s => read n = .ok s) ns l := by
    intro read ns
    induction ns with
    | nil => intro l h; cases h; exact .nil
    | cons n ns ih =>
      intro l h
      rw [readEach] at h
      cases h1 : read n with
      | throw e => rw [h1] at h; cases h
      | ub => rw [h1] at h; cases h
      | ok s =>
        rw [h1, Outcome.ok_bind] at h
        cases h2 : readEach read ns with
        | throw e => rw [h2] at h; cases h
        | ub => rw [h2] at h; cases h
        | ok ss =>
          rw [h2, Outcome.ok_bind] at h
          cases h
          exact .cons h1 (ih ss h2)
  have hrep : ∀ (o : Outcome (List (Section K))), replaceBy old o = (l, .ok ()) → o = .ok l := by
    intro o h
    cases o with
    | ok x => simp only [replaceBy] at h; injection h with h _; rw [h]
    | throw e => simp only [replaceBy] at h; injection h with _ h; cases h
    | ub => simp only [replaceBy] at h; injection h with _ h; cases h
  constructor
  · intro h
    refine (hr _ _ _ (hrep _ h)).imp fun n s hs => ?_
    unfold loadSectionJson
    rw [hs]
    rfl
  · intro h
    unfold loadSectionsXml at h
    rw [named_eq] at h
    refine (hr _ _ _ (hrep _ h)).imp fun n s hs => ?_
    unfold loadSectionXml
    rw [hs]
    rfl

/-- If reading a parametric section or a list of them fails, from a tree or from text, the object is unchanged. -/
theorem failed_load_keeps_sections (old : Section K) (olds : List (Section K)) (t : Node K) (d : Text K) :
    ((loadSectionJson old t).2 ≠ .ok () → (loadSectionJson old t).1 = old) ∧
    ((loadSectionXml old t).2 ≠ .ok () → (loadSectionXml old t).1 = old) ∧
    ((loadSectionsJson olds t).2 ≠ .ok () → (loadSectionsJson olds t).1 = olds) ∧
    ((loadSectionsXml olds t).2 ≠ .ok () → (loadSectionsXml olds t).1 = olds) ∧
    ((ofText loadSectionsJson olds d).2 ≠ .ok () → (ofText loadSectionsJson olds d).1 = olds) ∧
    ((ofText loadSectionsXml olds d).2 ≠ .ok () → (ofText loadSectionsXml olds d).1 = olds) := by
  refine ⟨replaceBy_failed _ _, replaceBy_failed _ _, replaceBy_failed _ _, replaceBy_failed _ _, ?_, ?_⟩
  · cases d with
    | none => intro _; rfl
    | some t => exact replaceBy_failed _ _
  · cases d with
    | none => intro _; rfl
    | some t => exact replaceBy_failed _ _

/-- A parametric section written to a tree is read back unchanged, in JSON and in XML.  Gains different from zero whose
magnitude is below `eps` are missing: see `tiny_gain_is_lost`. -/
theorem section_round_trip_partial (eps : K) (old s : Section K) (t : Node K)
    (hg : s.gain = 0 ∨ eps ≤ |s.gain|) :
    (Absent t "gain" → ∃ n, writeSectionJson eps s t = .ok n ∧ loadSectionJson old n = (s, .ok ())) ∧
      (NoAttribute t "gain" → ∃ n, writeSectionXml eps s t = .ok n ∧ loadSectionXml old n = (s, .ok ())) := by
  constructor
  · intro h
    obtain ⟨n, hn, hs⟩ := writeSectionJson_described eps s t h hg
    exact ⟨n, hn, (section_is_read old s n).1 hs⟩
  · intro h
    obtain ⟨n, hn, hs⟩ := writeSectionXml_described eps s t h hg
    exact ⟨n, hn, (section_is_read old s n).2 hs⟩

/-- Reading an array of descriptions yields the parametric sections in order. -/
theorem sections_are_read (old l : List (Section K)) (t : Node K) :
    (∀ ns, IsArray t ns → List.Forall₂ JsonSection ns l → loadSectionsJson old t = (l, .ok ())) ∧
      (List.Forall₂ XmlSection (elements t "eq") l → loadSectionsXml old t = (l, .ok ())) := by
  constructor
  · intro ns ha h
    unfold loadSectionsJson
    rw [ha, List.map_map]
    have : ((fun c : String × Node K => c.2) ∘ fun n => ("", n)) = id := rfl
    rw [this, List.map_id, readEach_described (fun t s => readSectionJson_described t s) ns l h]
    rfl
  · intro h
    unfold loadSectionsXml
    rw [named_eq, readEach_described (fun t s => readSectionXml_described t s) _ l h]
    rfl

/-- A list of parametric sections written to JSON is read back unchanged.  Gains different from zero whose magnitude is
below `eps` are missing. -/
theorem sections_round_trip_partial (eps : K) (old l : List (Section K))
    (hg : ∀ s ∈ l, s.gain = 0 ∨ eps ≤ |s.gain|) :
    ∃ n, writeSectionsJson eps l Node.nil = .ok n ∧ loadSectionsJson old n = (l, .ok ()) := by
  obtain ⟨n, ns, hn, hc, hf⟩ := writeEach_described eps "" l Node.nil hg
  refine ⟨n, hn, (sections_are_read old l n).1 ns ?_ hf⟩
  unfold IsArray
  rw [hc]
  simp [Node.nil, Node.children]

/-! ### Where the property is false -/

/-- A gain whose magnitude is positive, but below `eps`, is read back as zero. -/
theorem tiny_gain_is_lost (eps : K) (old s : Section K) (hg : |s.gain| < eps) :
    ∃ n, writeSectionJson eps s Node.nil = .ok n ∧ loadSectionJson old n = ({ s with gain := 0 }, .ok ()) := by
  have hw : writeSectionJson eps s Node.nil
      = .ok (((Node.nil.put "type" (.text (nameOf s.typ))).put "f" (.num s.f)).put "q" (.num s.q)) := by
    unfold writeSectionJson
    rw [typeToText_eq]
    simp only [Outcome.ok_bind]
    rw [if_neg (not_le.2 hg)]
  refine ⟨_, hw, ?_⟩
  apply (section_is_read old { s with gain := 0 } _).1
  refine ⟨?_, ?_, ?_, Or.inr ⟨?_, rfl⟩⟩
  · exact value_put_of_ne _ _ _ _ _ (by decide) (value_put_of_ne _ _ _ _ _ (by decide) (value_put_self _ _ _))
  · exact value_put_of_ne _ _ _ _ _ (by decide) (value_put_self _ _ _)
  · exact value_put_self _ _ _
  · exact absent_put_of_ne _ _ _ _ (by decide) (absent_put_of_ne _ _ _ _ (by decide)
      (absent_put_of_ne _ _ _ _ (by decide) (absent_nil _)))

/-- A parametric section written to a JSON text cannot be read back: nothing is written. -/
theorem section_text_is_empty (eps : K) (old s : Section K) :
    ofText loadSectionJson old (writeSectionJsonText eps s) = (old, .throw .invalidArgument) := rfl

/-- A parametric section is not read from a string with XML text, but from the file with this name: if there is none,
any text is rejected. -/
theorem xml_string_is_a_file_name (files : Text K → Text K) (old : Section K) (text : Text K) (h : files text = none) :
    loadSectionXmlString files old text = (old, .throw .invalidArgument) := by
  unfold loadSectionXmlString
  rw [h]
  rfl

/-- A list of parametric sections that has been written to XML cannot be read back unless it is empty. -/
theorem sections_xml_are_not_read_back (eps : K) (old l : List (Section K)) (s : Section K) :
    ∃ n, writeSectionsXml eps (s :: l) Node.nil = .ok n ∧ loadSectionsXml old n = (old, .throw .runtimeError) := by
  obtain ⟨c, hc, ha⟩ := no_attributes_written eps s
  obtain ⟨n, cs, hn, hch⟩ := writeEach_prefix eps "eq" l (Node.nil.push "eq" c)
  refine ⟨n, ?_, ?_⟩
  · unfold writeSectionsXml writeEach
    rw [hc]
    exact hn
  · have hnamed : ∃ r, n.named "eq" = c :: r := by
      refine ⟨((cs.filter fun c => decide (c.1 = "eq")).map fun c => c.2), ?_⟩
      unfold Node.named
      rw [hch]
      simp [Node.push, Node.children, Node.nil]
    obtain ⟨r, hr⟩ := hnamed
    unfold loadSectionsXml
    rw [hr]
    have : readSectionXml c = .throw .runtimeError := by
      unfold readSectionXml Node.attr?
      rw [ha]
      rfl
    unfold readEach
    rw [this]
    rfl

end Parametric

section
variable [Field K]

/-- A section that has been written to XML cannot be read back: nothing is written. -/
theorem biquad_xml_is_not_read_back (old c : Coef K) :
    loadXml old (writeXml c Node.nil) = (old, .throw .runtimeError) ∧
      ofText loadXml old (writeXmlText c) = (old, .throw .invalidArgument) := ⟨rfl, rfl⟩

/-- A list that has been written to XML is read back as the empty list. -/
theorem biquads_xml_are_not_read_back (old l : List (Coef K)) :
    loadXmlList old (writeXmlList l Node.nil) = ([], .ok ()) := by
  unfold loadXmlList writeXmlList
  simp [Node.nil, Node.child?, Node.children, Node.named, resizeList, loadEach]

/-- A matrix that has been written to JSON is read back as the empty matrix. -/
theorem matrix_json_is_not_read_back (old m : List (List (Coef K))) :
    loadJsonMatrix old (writeJsonMatrix m Node.nil) = ([], .ok ()) := rfl

/-- Reading a matrix from XML does nothing, and reports nothing, whatever the document says. -/
theorem matrix_xml_is_ignored (old : List (List (Coef K))) (t : Node K) : loadXmlMatrix old t = (old, .ok ()) := rfl

/-- Rows that are shorter than the first one are accepted and completed by flat sections, although the code means to
reject them. -/
theorem shorter_rows_are_accepted (old : List (List (Coef K))) (t : Node K) (a b c : Coef K)
    (h : JsonBiquadRows t [[a, b], [c]]) : loadJsonMatrix old t = ([[a, b], [c, ⟨1, 0, 0, 0, 0⟩]], .ok ()) := by
  rw [loadJsonMatrix_rows old t [a, b] [[c]] h (by simp) (by simp)]
  rfl

/-- The assignment of a list of another size is not rejected. -/
theorem list_of_other_size_is_assigned (old new : List (Coef K)) : assignList old new = (new, .ok ()) := rfl

/-- Setting a row to the empty filter, which the documentation allows, indexes an empty vector. -/
theorem empty_filter_is_undefined (m : List (List (Coef K))) (i : Nat) (hi : i < m.length) :
    setFilter m i [] = (m, .ub) := by
  unfold setFilter
  rw [if_neg (by omega)]
  simp

end

/-! ### Examples -/

namespace Demo

/-- A JSON object with the given numbers. -/
def obj (l : List (String × ℚ)) : Node ℚ := .mk .empty (l.map fun p => (p.1, .mk (.num p.2) []))

/-- A JSON array. -/
def arr (l : List (Node ℚ)) : Node ℚ := .mk .empty (l.map fun n => ("", n))

/-- An XML element with the given attributes. -/
def elem (l : List (String × ℚ)) : Node ℚ := .mk .empty [("<xmlattr>", obj l)]

/-- A section with `a0 = 2`, its coefficients in another order than they are read. -/
def t1 : Node ℚ := obj [("a1", 4), ("a0", 2), ("b0", 2), ("b1", 6), ("b2", 8), ("a2", 10)]

def c1 : Coef ℚ := ⟨1, 3, 4, 2, 5⟩

/-- A section without `a0`. -/
def t2 : Node ℚ := obj [("b0", 1), ("b1", 2), ("b2", 3), ("a1", 4), ("a2", 5)]

def c2 : Coef ℚ := ⟨1, 2, 3, 4, 5⟩

/-- A section whose last coefficient is missing. -/
def t3 : Node ℚ := obj [("b0", 7), ("b1", 7), ("b2", 7), ("a1", 7)]

theorem value_obj (l : List (String × ℚ)) (k : String) (v : ℚ) (h : (l.find? fun p => p.1 = k) = some (k, v)) :
    Value (obj l) k (.num v) := by
  rw [← numOf_val]
  unfold Node.child? obj Node.children
  rw [List.find?_map]
  have : ((fun c : String × Node ℚ => decide (c.1 = k)) ∘ fun p : String × ℚ => (p.1, Node.mk (Datum.num p.2) []))
      = fun p => decide (p.1 = k) := rfl
  rw [this, h]
  rfl

theorem d1 : JsonBiquad t1 c1 :=
  ⟨2, by norm_num, Or.inl (value_obj _ _ _ (by decide)), value_obj _ _ _ (by decide +kernel),
    value_obj _ _ _ (by decide +kernel), value_obj _ _ _ (by decide +kernel), value_obj _ _ _ (by decide +kernel),
    value_obj _ _ _ (by decide +kernel)⟩

theorem d2 : JsonBiquad t2 c2 := by
  refine ⟨1, by norm_num, Or.inr ⟨?_, rfl⟩, value_obj _ _ _ (by decide +kernel),
    value_obj _ _ _ (by decide +kernel), value_obj _ _ _ (by decide +kernel), value_obj _ _ _ (by decide +kernel),
    value_obj _ _ _ (by decide +kernel)⟩
  rw [← child?_eq_none]
  rfl

example : loadJson Coef.flat t1 = (c1, .ok ()) := biquad_json_is_read _ _ _ d1

/-- The hypothesis of the theorem on lists is met by an array of two sections. -/
theorem d12 : JsonBiquads (arr [t1, t2]) [c1, c2] := ⟨[t1, t2], rfl, .cons d1 (.cons d2 .nil)⟩

example : loadJsonList [c2, c2, c2] (arr [t1, t2]) = ([c1, c2], .ok ()) := biquads_json_are_read _ _ _ d12

theorem d22 : JsonBiquadRows (arr [arr [t1, t2], arr [t2, t2]]) [[c1, c2], [c2, c2]] :=
  ⟨_, rfl, .cons d12 (.cons ⟨[t2, t2], rfl, .cons d2 (.cons d2 .nil)⟩ .nil)⟩

example : loadJsonMatrix [] (arr [arr [t1, t2], arr [t2, t2]]) = ([[c1, c2], [c2, c2]], .ok ()) :=
  matrix_json_is_read_partial [] _ _ 2 (by decide) (by simp) d22

/-- The hypothesis of `shorter_rows_are_accepted` is met. -/
example : loadJsonMatrix [] (arr [arr [t1, t2], arr [t2]]) = ([[c1, c2], [c2, ⟨1, 0, 0, 0, 0⟩]], .ok ()) :=
  shorter_rows_are_accepted [] _ c1 c2 c2 ⟨_, rfl, .cons d12 (.cons ⟨[t2], rfl, .cons d2 .nil⟩ .nil)⟩

/-- An XML section without `b2` is rejected. -/
example : (loadXml c1 (elem [("b0", 1), ("b1", 2), ("a1", 4), ("a2", 5)])).2 ≠ .ok () := by
  rw [Ne, biquad_xml_is_accepted_iff]
  rintro ⟨e, he, h⟩
  rcases he with ⟨pre, post, hc, _⟩ | ⟨_, rfl⟩
  · have : ("biquad", e) ∈ (elem [("b0", 1), ("b1", 2), ("a1", 4), ("a2", 5)]).children := by rw [hc]; simp
    simp [elem, Node.children] at this
  · obtain ⟨v, hv⟩ := h "b2" (by simp)
    rw [← attr_val] at hv
    revert hv
    simp [elem, obj, Node.attr?, Node.child?, Node.children, numOf]

/-- An XML element that is accepted as a parametric section. -/
def xs : Node ℚ := .mk .empty [("<xmlattr>", .mk .empty [("type", .mk (.text "peak") []), ("f", .mk (.num 100) []),
  ("q", .mk (.num 2) []), ("gain", .mk (.num 3) [])])]

example : ∃ s, loadSectionXml ⟨.allpass, 1, 1, 0⟩ xs = (s, .ok ()) ∧ s = ⟨.peak, 100, 2, 3⟩ :=
  ⟨_, by decide +kernel, rfl⟩

example : ∃ l, loadSectionsXml [] (.mk .empty [("eq", xs), ("eq", xs)]) = (l, .ok ()) ∧ l.length = 2 :=
  ⟨[⟨.peak, 100, 2, 3⟩, ⟨.peak, 100, 2, 3⟩], by decide +kernel, rfl⟩

/-- An XML document with a "filterSpec" element. -/
def x1 : Node ℚ := .mk .empty [("filterSpec", .mk .empty [("name", Node.nil),
  ("biquad", elem [("a1", 4), ("a0", 2), ("b0", 2), ("b1", 6), ("b2", 8), ("a2", 10)]), ("other", Node.nil),
  ("biquad", elem [("b0", 1), ("b1", 2), ("b2", 3), ("a1", 4), ("a2", 5)])])]

example : XmlBiquads x1 [c1, c2] := by
  refine Or.inr ⟨_, ⟨[], [], rfl, by simp⟩, ?_⟩
  refine .cons (Or.inl ⟨?_, ?_⟩) (.cons (Or.inl ⟨?_, ?_⟩) .nil)
  · rw [← child?_eq_none]; rfl
  · have hf : ∀ k v, Value t1 k (.num v) →
        Attribute (elem [("a1", 4), ("a0", 2), ("b0", 2), ("b1", 6), ("b2", 8), ("a2", 10)]) k (.num v) :=
      fun k v h => ⟨_, ⟨[], [], rfl, by simp⟩, h⟩
    obtain ⟨a0, h, h0, h1⟩ := d1
    refine ⟨a0, h, ?_, hf _ _ h1.1, hf _ _ h1.2.1, hf _ _ h1.2.2.1, hf _ _ h1.2.2.2.1, hf _ _ h1.2.2.2.2⟩
    rcases h0 with h0 | ⟨h0, _⟩
    · exact Or.inl (hf _ _ h0)
    · rw [← child?_eq_none] at h0; cases h0
  · rw [← child?_eq_none]; rfl
  · have hf : ∀ k v, Value t2 k (.num v) →
        Attribute (elem [("b0", 1), ("b1", 2), ("b2", 3), ("a1", 4), ("a2", 5)]) k (.num v) :=
      fun k v h => ⟨_, ⟨[], [], rfl, by simp⟩, h⟩
    obtain ⟨a0, h, h0, h1⟩ := d2
    refine ⟨a0, h, ?_, hf _ _ h1.1, hf _ _ h1.2.1, hf _ _ h1.2.2.1, hf _ _ h1.2.2.2.1, hf _ _ h1.2.2.2.2⟩
    rcases h0 with h0 | ⟨_, h0⟩
    · exact Or.inl (hf _ _ h0)
    · refine Or.inr ⟨?_, h0⟩
      rw [noAttribute_iff]; rfl

/-- A failed load of a section from JSON leaves it with some of the new coefficients. -/
theorem failed_json_load_modifies_section :
    loadJson c2 t3 = (⟨7, 7, 7, 7, 5⟩, .throw .runtimeError) := by decide +kernel

/-- A failed load of a list from JSON leaves it with another number of sections, some of them new. -/
theorem failed_json_load_modifies_list :
    loadJsonList [c2, c2, c2] (arr [t1, t3]) = ([c1, ⟨7, 7, 7, 7, 5⟩], .throw .runtimeError) := by decide +kernel

/-- A failed load of a matrix leaves some of its rows new and the others flat. -/
theorem failed_json_load_modifies_matrix :
    loadJsonMatrix [[c2]] (arr [arr [t1], arr [t3]]) = ([[c1], [⟨1, 0, 0, 0, 0⟩]], .throw .runtimeError) := by
  decide +kernel

/-- A leading coefficient that is not a number is taken to be 1 without an exception, as is one that is zero accepted. -/
theorem unreadable_a0_is_ignored :
    loadJson c1 (.mk .empty (("a0", .mk (.text "x") []) :: t2.children)) = (c2, .ok ()) ∧
      (loadJson c1 (.mk .empty (("a0", .mk (.num 0) []) :: t2.children))).2 = .ok () := by
  decide +kernel

/-- A gain that is not a number is taken to be zero without an exception. -/
theorem unreadable_gain_is_ignored :
    loadSectionJson (K := ℚ) ⟨.allpass, 1, 1, 0⟩ (.mk .empty [("type", .mk (.text "peak") []), ("f", .mk (.num 100) []),
      ("q", .mk (.num 2) []), ("gain", .mk (.text "6 dB") [])]) = (⟨.peak, 100, 2, 0⟩, .ok ()) := by
  decide +kernel

/-- Round trip of a list of parametric sections. -/
example : ∃ n, writeSectionsJson (1/1000 : ℚ) [⟨.peak, 100, 2, -6⟩, ⟨.lowpass, 8000, 1, 0⟩] Node.nil = .ok n ∧
    loadSectionsJson [] n = ([⟨.peak, 100, 2, -6⟩, ⟨.lowpass, 8000, 1, 0⟩], .ok ()) :=
  sections_round_trip_partial _ _ _ (by
    intro s hs
    simp only [List.mem_cons, List.not_mem_nil, or_false] at hs
    rcases hs with rfl | rfl
    · right; decide +kernel
    · left; rfl)

/-- A text that names no type is rejected. -/
example : textToType "notch" = .throw .invalidArgument :=
  type_names.2.2.2 _ (by intro ty; cases ty <;> decide)

end Demo

end Visr.FilterFile
