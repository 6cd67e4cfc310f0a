import Verif.FilterFile.Spec
import Mathlib.Data.List.Forall2

/-!
# Filter specifications in JSON and XML: auxiliary results
-/

set_option linter.unusedSectionVars false

namespace Visr.FilterFile

open Visr Visr.Biquad Visr.Encode

variable {K : Type}

theorem child?_eq_some (t : Node K) (k : String) (n : Node K) : t.child? k = some n ↔ First t k n := by
  unfold Node.child? First
  generalize t.children = l
  constructor
  · intro h
    rw [Option.map_eq_some_iff] at h
    obtain ⟨c, hc, rfl⟩ := h
    rw [List.find?_eq_some_iff_append] at hc
    obtain ⟨hk, pre, post, hl, hp⟩ := hc
    refine ⟨pre, post, ?_, fun a ha => by simpa using hp a ha⟩
    have : c.1 = k := by simpa using hk
    rw [hl, ← this]
  · rintro ⟨pre, post, hl, hp⟩
    rw [Option.map_eq_some_iff]
    refine ⟨(k, n), ?_, rfl⟩
    rw [List.find?_eq_some_iff_append]
    exact ⟨by simp, pre, post, hl, fun a ha => by simpa using hp a ha⟩

theorem child?_eq_none (t : Node K) (k : String) : t.child? k = none ↔ Absent t k := by
  unfold Node.child? Absent
  rw [Option.map_eq_none_iff, List.find?_eq_none]
  simp

theorem numOf_val (t : Node K) (k : String) (v : K) : numOf (t.child? k) = .val v ↔ Value t k (.num v) := by
  unfold Value
  constructor
  · intro h
    cases hc : t.child? k with
    | none => rw [hc] at h; simp [numOf] at h
    | some n =>
      refine ⟨n, (child?_eq_some t k n).1 hc, ?_⟩
      rw [hc] at h
      cases hd : n.data <;> simp [numOf, hd] at h ⊢
      exact h
  · rintro ⟨n, hn, hd⟩
    rw [(child?_eq_some t k n).2 hn]
    simp [numOf, hd]

theorem numOf_missing (t : Node K) (k : String) (h : Absent t k) : numOf (t.child? k) = .missing := by
  rw [(child?_eq_none t k).2 h]
  rfl

theorem textOf_val (t : Node K) (k : String) (s : String) (h : Value t k (.text s)) :
    textOf (t.child? k) = .val s := by
  obtain ⟨n, hn, hd⟩ := h
  rw [(child?_eq_some t k n).2 hn]
  simp [textOf, hd]

theorem attr_val (t : Node K) (k : String) (v : K) : numOf (t.attr? k) = .val v ↔ Attribute t k (.num v) := by
  unfold Attribute Node.attr?
  constructor
  · intro h
    cases hc : t.child? "<xmlattr>" with
    | none => rw [hc] at h; simp [numOf] at h
    | some a =>
      rw [hc] at h
      exact ⟨a, (child?_eq_some t _ a).1 hc, (numOf_val a k v).1 h⟩
  · rintro ⟨a, ha, hv⟩
    rw [(child?_eq_some t _ a).2 ha]
    exact (numOf_val a k v).2 hv

theorem attr_missing (t : Node K) (k : String) (h : NoAttribute t k) : numOf (t.attr? k) = .missing := by
  unfold Node.attr?
  cases hc : t.child? "<xmlattr>" with
  | none => rfl
  | some a => exact numOf_missing a k (h a ((child?_eq_some t _ a).1 hc))

theorem attr_text (t : Node K) (k : String) (s : String) (h : Attribute t k (.text s)) :
    textOf (t.attr? k) = .val s := by
  obtain ⟨a, ha, hv⟩ := h
  unfold Node.attr?
  rw [(child?_eq_some t _ a).2 ha]
  exact textOf_val a k s hv

theorem named_eq (t : Node K) (k : String) : t.named k = elements t k := by
  unfold Node.named elements
  induction t.children with
  | nil => rfl
  | cons c cs ih =>
    by_cases h : c.1 = k <;> simp_all

theorem named_array (t : Node K) (ns : List (Node K)) (h : IsArray t ns) : t.named "" = ns := by
  unfold Node.named
  rw [h]
  clear h
  induction ns with
  | nil => rfl
  | cons n ns ih => simp_all

/-! ### Writing -/

theorem find_onChild (k k' : String) (f : Node K → Node K) (l : List (String × Node K)) :
    ((onChild k f l).find? fun c => c.1 = k').map (fun c => c.2)
      = if k' = k then some (f (((l.find? fun c => c.1 = k).map fun c => c.2).getD Node.nil))
        else (l.find? fun c => c.1 = k').map fun c => c.2 := by
  induction l with
  | nil =>
    by_cases h : k' = k
    · subst h; simp [onChild]
    · have : ¬ k = k' := fun e => h e.symm
      simp [onChild, h, this]
  | cons c cs ih =>
    unfold onChild
    by_cases hc : c.1 = k
    · rw [if_pos hc]
      by_cases h : k' = k
      · subst h; simp [hc]
      · have h2 : ¬ k = k' := fun e => h e.symm
        have h3 : ¬ c.1 = k' := by rw [hc]; exact h2
        simp [h, h2, h3]
    · rw [if_neg hc]
      by_cases h : k' = k
      · subst h
        simp only [if_true] at ih ⊢
        simp only [List.find?_cons, hc, decide_false]
        exact ih
      · rw [if_neg h] at ih ⊢
        by_cases h3 : c.1 = k'
        · simp [h3]
        · simp only [List.find?_cons, h3, decide_false]
          exact ih

theorem child?_put (t : Node K) (k k' : String) (d : Datum K) :
    (t.put k d).child? k'
      = if k' = k then some (.mk d ((t.child? k).getD Node.nil).children) else t.child? k' := by
  unfold Node.put Node.child?
  exact find_onChild k k' _ t.children

theorem numOf_put (t : Node K) (k k' : String) (v : K) :
    numOf ((t.put k (.num v)).child? k') = if k' = k then .val v else numOf (t.child? k') := by
  rw [child?_put]
  by_cases h : k' = k
  · rw [if_pos h, if_pos h]; rfl
  · rw [if_neg h, if_neg h]

theorem numOf_put_text (t : Node K) (k k' : String) (s : String) (h : k' ≠ k) :
    numOf ((t.put k (.text s)).child? k') = numOf (t.child? k') := by
  rw [child?_put, if_neg h]

theorem textOf_put_num (t : Node K) (k k' : String) (v : K) (h : k' ≠ k) :
    textOf ((t.put k (.num v)).child? k') = textOf (t.child? k') := by
  rw [child?_put, if_neg h]

theorem textOf_put (t : Node K) (k : String) (s : String) :
    textOf ((t.put k (.text s)).child? k) = .val s := by
  rw [child?_put, if_pos rfl]; rfl

theorem attr?_putAttr (t : Node K) (k k' : String) (d : Datum K) :
    (t.putAttr k d).attr? k'
      = (((t.child? "<xmlattr>").getD Node.nil).put k d).child? k' := by
  unfold Node.attr?
  have h : (t.putAttr k d).child? "<xmlattr>"
      = some (((t.child? "<xmlattr>").getD Node.nil).put k d) := by
    unfold Node.putAttr Node.child?
    have := find_onChild (K := K) "<xmlattr>" "<xmlattr>" (fun n => n.put k d) t.children
    simp only [if_true] at this
    exact this
  rw [h]; rfl

theorem attr?_eq (t : Node K) (k : String) :
    t.attr? k = ((t.child? "<xmlattr>").getD Node.nil).child? k := by
  unfold Node.attr?
  cases t.child? "<xmlattr>" <;> rfl

theorem attr?_putAttr' (t : Node K) (k k' : String) (d : Datum K) :
    (t.putAttr k d).attr? k'
      = if k' = k then some (.mk d ((t.attr? k).getD Node.nil).children) else t.attr? k' := by
  rw [attr?_putAttr, child?_put, attr?_eq, attr?_eq]

/-! ### Biquad sections -/

section Biquads
variable [Field K]

theorem ok_get {α : Type} (e : Entry α) : (∃ v, e = .val v ∧ e.get = .ok v) ∨ e.get = .throw .runtimeError := by
  cases e <;> simp [Entry.get]

theorem loadJson_vals (old : Coef K) (t : Node K) (a0 b0 b1 b2 a1 a2 : K)
    (h : (numOf (t.child? "a0")).getD 1 = a0)
    (h0 : numOf (t.child? "b0") = .val b0) (h1 : numOf (t.child? "b1") = .val b1)
    (h2 : numOf (t.child? "b2") = .val b2) (h3 : numOf (t.child? "a1") = .val a1)
    (h4 : numOf (t.child? "a2") = .val a2) :
    loadJson old t = (⟨b0 / a0, b1 / a0, b2 / a0, a1 / a0, a2 / a0⟩, .ok ()) := by
  unfold loadJson
  simp [assignFrom, h, h0, h1, h2, h3, h4, Entry.get]

theorem assignFrom_throws (t : Node K) (a0 : K) (l : List (String × (Coef K → K → Coef K))) (c : Coef K) :
    ((assignFrom t a0 l c).2 = .ok () ∧ ∀ p ∈ l, ∃ v, numOf (t.child? p.1) = .val v) ∨
      ((assignFrom t a0 l c).2 = .throw .runtimeError ∧ ∃ p ∈ l, ∀ v, numOf (t.child? p.1) ≠ .val v) := by
  induction l generalizing c with
  | nil => left; exact ⟨rfl, by simp⟩
  | cons p r ih =>
    obtain ⟨k, set⟩ := p
    unfold assignFrom
    cases hk : numOf (t.child? k) with
    | missing => right; refine ⟨rfl, (k, set), by simp, ?_⟩; simp [hk]
    | malformed => right; refine ⟨rfl, (k, set), by simp, ?_⟩; simp [hk]
    | val v =>
      rcases ih (set c (v / a0)) with ⟨h, h'⟩ | ⟨h, p, hp, h'⟩
      · left
        refine ⟨h, ?_⟩
        intro p hp
        rcases List.mem_cons.1 hp with rfl | hp
        · exact ⟨v, hk⟩
        · exact h' p hp
      · right
        exact ⟨h, p, List.mem_cons_of_mem _ hp, h'⟩

theorem loadJson_cases (old : Coef K) (t : Node K) :
    ((loadJson old t).2 = .ok () ∧ ∀ k ∈ ["b0", "b1", "b2", "a1", "a2"], ∃ v, Value t k (.num v)) ∨
      ((loadJson old t).2 = .throw .runtimeError ∧
        ¬ ∀ k ∈ ["b0", "b1", "b2", "a1", "a2"], ∃ v, Value t k (.num v)) := by
  unfold loadJson
  rcases assignFrom_throws t _ _ old with ⟨h, h'⟩ | ⟨h, p, hp, h'⟩
  · left
    refine ⟨h, ?_⟩
    intro k hk
    simp only [List.mem_cons, List.not_mem_nil, or_false, forall_eq_or_imp, forall_eq] at h' hk
    obtain ⟨e0, e1, e2, e3, e4⟩ := h'
    simp only [numOf_val] at e0 e1 e2 e3 e4
    rcases hk with rfl | rfl | rfl | rfl | rfl <;> assumption
  · right
    refine ⟨h, ?_⟩
    intro hall
    have hk : p.1 ∈ ["b0", "b1", "b2", "a1", "a2"] := by
      simp only [List.mem_cons, List.not_mem_nil, or_false] at hp ⊢
      rcases hp with rfl | rfl | rfl | rfl | rfl <;> simp
    obtain ⟨v, hv⟩ := hall p.1 hk
    exact h' v ((numOf_val t p.1 v).2 hv)

theorem describes_vals {value : String → K → Prop} {absent : String → Prop} {c : Coef K} {e : String → Entry K}
    (hv : ∀ k v, value k v → e k = .val v) (ha : ∀ k, absent k → e k = .missing) (h : Describes value absent c) :
    ∃ a0, (e "a0").getD 1 = a0 ∧ e "b0" = .val (a0 * c.b0) ∧ e "b1" = .val (a0 * c.b1) ∧ e "b2" = .val (a0 * c.b2) ∧
      e "a1" = .val (a0 * c.a1) ∧ e "a2" = .val (a0 * c.a2) ∧
      (⟨a0 * c.b0 / a0, a0 * c.b1 / a0, a0 * c.b2 / a0, a0 * c.a1 / a0, a0 * c.a2 / a0⟩ : Coef K) = c := by
  obtain ⟨a0, hne, h0, h1, h2, h3, h4, h5⟩ := h
  refine ⟨a0, ?_, hv _ _ h1, hv _ _ h2, hv _ _ h3, hv _ _ h4, hv _ _ h5, ?_⟩
  · rcases h0 with h0 | ⟨h0, rfl⟩
    · rw [hv _ _ h0]; rfl
    · rw [ha _ h0]; rfl
  · cases c
    simp [mul_div_cancel_left₀ _ hne]

theorem loadJson_described (old c : Coef K) (t : Node K) (h : JsonBiquad t c) : loadJson old t = (c, .ok ()) := by
  obtain ⟨a0, h0, h1, h2, h3, h4, h5, hc⟩ :=
    describes_vals (e := fun k => numOf (t.child? k)) (fun k v => (numOf_val t k v).2) (fun k => numOf_missing t k) h
  rw [loadJson_vals old t a0 _ _ _ _ _ h0 h1 h2 h3 h4 h5, hc]

theorem readXml_vals (t bt : Node K) (hb : (t.child? "biquad").getD t = bt) (a0 b0 b1 b2 a1 a2 : K)
    (h : (numOf (bt.attr? "a0")).getD 1 = a0)
    (h0 : numOf (bt.attr? "b0") = .val b0) (h1 : numOf (bt.attr? "b1") = .val b1)
    (h2 : numOf (bt.attr? "b2") = .val b2) (h3 : numOf (bt.attr? "a1") = .val a1)
    (h4 : numOf (bt.attr? "a2") = .val a2) :
    readXml t = .ok ⟨b0 / a0, b1 / a0, b2 / a0, a1 / a0, a2 / a0⟩ := by
  unfold readXml
  simp [hb, h, h0, h1, h2, h3, h4, Entry.get]

theorem loadXml_described (old c : Coef K) (t : Node K) (h : XmlBiquad t c) : loadXml old t = (c, .ok ()) := by
  have key : ∀ bt, (t.child? "biquad").getD t = bt → ElementBiquad bt c → loadXml old t = (c, .ok ()) := by
    intro bt hb h
    obtain ⟨a0, h0, h1, h2, h3, h4, h5, hc⟩ :=
      describes_vals (e := fun k => numOf (bt.attr? k)) (fun k v => (attr_val bt k v).2)
        (fun k => attr_missing bt k) h
    unfold loadXml
    rw [readXml_vals t bt hb a0 _ _ _ _ _ h0 h1 h2 h3 h4 h5, hc]
    rfl
  rcases h with ⟨ha, h⟩ | ⟨n, hn, h⟩
  · refine key t ?_ h
    rw [(child?_eq_none t _).2 ha]; rfl
  · refine key n ?_ h
    rw [(child?_eq_some t _ n).2 hn]; rfl

theorem writeJson_vals (c : Coef K) (t : Node K) :
    numOf ((writeJson c t).child? "b0") = .val c.b0 ∧ numOf ((writeJson c t).child? "b1") = .val c.b1 ∧
    numOf ((writeJson c t).child? "b2") = .val c.b2 ∧ numOf ((writeJson c t).child? "a1") = .val c.a1 ∧
    numOf ((writeJson c t).child? "a2") = .val c.a2 ∧ (writeJson c t).child? "a0" = t.child? "a0" := by
  unfold writeJson
  refine ⟨?_, ?_, ?_, ?_, ?_, ?_⟩
  · simp [numOf_put]
  · simp [numOf_put]
  · simp [numOf_put]
  · simp [numOf_put]
  · simp [numOf_put]
  · simp [child?_put]

theorem writeJson_described (c : Coef K) (t : Node K) (h : Absent t "a0") : JsonBiquad (writeJson c t) c := by
  obtain ⟨h0, h1, h2, h3, h4, h5⟩ := writeJson_vals c t
  refine ⟨1, one_ne_zero, Or.inr ⟨?_, rfl⟩, ?_⟩
  · rw [← child?_eq_none, h5, child?_eq_none]; exact h
  · simp only [one_mul, ← numOf_val]
    exact ⟨h0, h1, h2, h3, h4⟩

/-! ### Lists -/

theorem length_resizeList (l : List (Coef K)) (n : Nat) : (resizeList l n).length = n := by
  unfold resizeList
  simp
  omega

theorem loadEach_described {load : Coef K → Node K → Loaded (Coef K)} {P : Node K → Coef K → Prop}
    (hl : ∀ old t c, P t c → load old t = (c, .ok ())) (olds : List (Coef K)) (ns : List (Node K)) (cs : List (Coef K))
    (hn : olds.length = ns.length) (h : List.Forall₂ P ns cs) : loadEach load olds ns = (cs, .ok ()) := by
  induction h generalizing olds with
  | nil =>
    have : olds = [] := by simpa using hn
    subst this; rfl
  | cons hp _ ih =>
    cases olds with
    | nil => simp at hn
    | cons o olds =>
      unfold loadEach
      rw [hl o _ _ hp]
      simp only
      rw [ih olds (by simpa using hn)]

theorem loadEach_cases {load : Coef K → Node K → Loaded (Coef K)} {Ok : Node K → Prop}
    (hl : ∀ old t, ((load old t).2 = .ok () ∧ Ok t) ∨ ((load old t).2 = .throw .runtimeError ∧ ¬ Ok t))
    (olds : List (Coef K)) (ns : List (Node K)) (hn : olds.length = ns.length) :
    ((loadEach load olds ns).2 = .ok () ∧ ∀ n ∈ ns, Ok n) ∨
      ((loadEach load olds ns).2 = .throw .runtimeError ∧ ¬ ∀ n ∈ ns, Ok n) := by
  induction ns generalizing olds with
  | nil =>
    left
    cases olds with
    | nil => exact ⟨rfl, by simp⟩
    | cons _ _ => simp at hn
  | cons n ns ih =>
    cases olds with
    | nil => simp at hn
    | cons o olds =>
      rcases hlo : load o n with ⟨c', r⟩
      have := hl o n
      rw [hlo] at this
      unfold loadEach
      rw [hlo]
      rcases this with ⟨h1, h2⟩ | ⟨h1, h2⟩
      · simp only at h1
        subst h1
        simp only
        rcases ih olds (by simpa using hn) with ⟨h3, h4⟩ | ⟨h3, h4⟩
        · left; exact ⟨h3, by simpa using ⟨h2, h4⟩⟩
        · right
          refine ⟨h3, fun hall => h4 fun m hm => hall m (List.mem_cons_of_mem _ hm)⟩
      · simp only at h1
        subst h1
        right
        exact ⟨rfl, fun hall => h2 (hall n (by simp))⟩

theorem writeJsonList_children (l : List (Coef K)) (t : Node K) :
    (writeJsonList l t).children = t.children ++ l.map (fun c => ("", writeJson c Node.nil)) := by
  unfold writeJsonList
  induction l generalizing t with
  | nil => simp
  | cons c l ih =>
    simp only [List.foldl_cons]
    rw [ih]
    simp [Node.push, Node.children]

theorem absent_nil (k : String) : Absent (Node.nil : Node K) k := by
  intro c hc
  simp [Node.nil, Node.children] at hc

theorem loadJsonList_nodes (old cs : List (Coef K)) (t : Node K) (h : List.Forall₂ JsonBiquad (t.named "") cs) :
    loadJsonList old t = (cs, .ok ()) := by
  unfold loadJsonList
  exact loadEach_described (fun old t c => loadJson_described old c t) _ _ _ (length_resizeList _ _) h

theorem loadJsonList_described (old cs : List (Coef K)) (t : Node K) (h : JsonBiquads t cs) :
    loadJsonList old t = (cs, .ok ()) := by
  obtain ⟨ns, ha, h⟩ := h
  apply loadJsonList_nodes
  rw [named_array t ns ha]
  exact h

theorem written_nodes (l : List (Coef K)) :
    List.Forall₂ JsonBiquad (l.map fun c => writeJson c Node.nil) l := by
  induction l with
  | nil => exact .nil
  | cons c l ih => exact .cons (writeJson_described c _ (absent_nil _)) ih

theorem named_written (l : List (Coef K)) (t : Node K) (h : Absent t "") :
    (writeJsonList l t).named "" = l.map fun c => writeJson c Node.nil := by
  unfold Node.named
  rw [writeJsonList_children, List.filter_append]
  have h1 : (t.children.filter fun c => decide (c.1 = "")) = [] := by
    rw [List.filter_eq_nil_iff]
    intro c hc
    simpa using h c hc
  rw [h1]
  have h2 : ((l.map fun c => (("", writeJson c Node.nil) : String × Node K)).filter fun c => decide (c.1 = ""))
      = l.map fun c => ("", writeJson c Node.nil) := by
    rw [List.filter_eq_self]
    intro c hc
    obtain ⟨d, _, rfl⟩ := List.mem_map.1 hc
    simp
  rw [h2]
  simp

/-! ### Matrices -/

theorem setFilter_ok (m : List (List (Coef K))) (i s : Nat) (f : List (Coef K)) (hs : 0 < s)
    (hm : ∀ r ∈ m, r.length = s) (hi : i < m.length) (hf : 0 < f.length) (hfs : f.length ≤ s) :
    setFilter m i f = (m.set i (f ++ List.replicate (s - f.length) Coef.flat), .ok ()) := by
  have hsec : sections m = s := by
    cases m with
    | nil => simp at hi
    | cons r rs => exact hm r (by simp)
  unfold setFilter
  rw [if_neg (by omega), if_neg (by omega), hsec]
  have hr : (m[i]?).any List.isEmpty = false := by
    rw [List.getElem?_eq_getElem hi]
    have := hm m[i] (List.getElem_mem hi)
    cases hmi : m[i] with
    | nil => rw [hmi] at this; simp at this; omega
    | cons a l => simp
  have hfe : f.isEmpty = false := by
    cases f with
    | nil => simp at hf
    | cons a l => rfl
  rw [hr, hfe]
  simp

/-- The loop over the rows when every row is readable and no longer than the first one. -/
theorem loadRows_ok (n s : Nat) (hs : 0 < s) (ns : List (Node K)) (rows : List (List (Coef K)))
    (h : List.Forall₂ JsonBiquads ns rows) (hr : ∀ r ∈ rows, 0 < r.length ∧ r.length ≤ s)
    (i : Nat) (hi : 0 < i) (m : List (List (Coef K))) (hm : ∀ r ∈ m, r.length = s) (him : i + ns.length ≤ m.length) :
    loadRows n i ns m
      = (m.take i ++ rows.map (fun r => r ++ List.replicate (s - r.length) Coef.flat) ++ m.drop (i + ns.length),
          .ok ()) := by
  induction h generalizing i m with
  | nil => simp [loadRows]
  | @cons t row ns rows hp _ ih =>
    unfold loadRows
    rw [loadJsonList_described [] row t hp]
    simp only
    rw [if_neg (by omega)]
    obtain ⟨h1, h2⟩ := hr row (by simp)
    simp only [List.length_cons] at him
    rw [setFilter_ok m i s row hs hm (by omega) h1 h2]
    simp only
    set new := row ++ List.replicate (s - row.length) Coef.flat with hnew
    have hnewl : new.length = s := by rw [hnew]; simp; omega
    rw [ih (fun r hr' => hr r (List.mem_cons_of_mem _ hr')) (i + 1) (by omega) (m.set i new)
      (by
        intro r hr'
        rcases List.mem_or_eq_of_mem_set hr' with h | h
        · exact hm r h
        · rw [h]; exact hnewl)
      (by simp; omega)]
    have ht : (m.set i new).take (i + 1) = m.take i ++ [new] := by
      rw [List.take_succ, List.take_set_of_le (by omega)]
      rw [List.getElem?_set_self (by omega)]
      rfl
    have hd : (m.set i new).drop (i + 1 + ns.length) = m.drop (i + (ns.length + 1)) := by
      rw [List.drop_set_of_lt (by omega)]
      congr 1
      omega
    rw [ht, hd]
    simp [hnew]

theorem loadJsonMatrix_rows (old : List (List (Coef K))) (t : Node K) (row : List (Coef K))
    (rows : List (List (Coef K))) (h : JsonBiquadRows t (row :: rows)) (hs : 0 < row.length)
    (hr : ∀ r ∈ rows, 0 < r.length ∧ r.length ≤ row.length) :
    loadJsonMatrix old t
      = ((row :: rows).map fun r => r ++ List.replicate (row.length - r.length) Coef.flat, .ok ()) := by
  obtain ⟨ns, ha, h⟩ := h
  unfold loadJsonMatrix
  rw [named_array t ns ha]
  cases h with
  | @cons n _ ns _ hp h =>
    rw [if_neg (by simp)]
    unfold loadRows
    rw [loadJsonList_described [] row n hp]
    simp only [if_true]
    have hlen := List.Forall₂.length_eq h
    rw [setFilter_ok _ 0 row.length row hs
      (by intro r hr'; unfold resizeMatrix at hr'; rw [List.eq_of_mem_replicate hr']; simp)
      (by simp [resizeMatrix]) hs le_rfl]
    simp only
    rw [loadRows_ok _ row.length hs ns rows h hr 1 (by omega) _
      (by
        intro r hr'
        rcases List.mem_or_eq_of_mem_set hr' with h | h
        · unfold resizeMatrix at h; rw [List.eq_of_mem_replicate h]; simp
        · rw [h]; simp)
      (by simp [resizeMatrix]; omega)]
    unfold resizeMatrix
    simp [List.replicate_succ]
    omega

end Biquads

/-! ### Parametric sections -/

theorem typeToText_eq (ty : EqType) : typeToText ty = .ok (nameOf ty) := by
  cases ty <;> rfl

theorem textToType_nameOf (ty : EqType) : textToType (nameOf ty) = .ok ty := by
  cases ty <;> rfl

theorem textToType_cases (s : String) :
    (∃ ty, nameOf ty = s ∧ textToType s = .ok ty) ∨
      ((∀ ty, nameOf ty ≠ s) ∧ textToType s = .throw .invalidArgument) := by
  by_cases h : ∃ ty, nameOf ty = s
  · obtain ⟨ty, rfl⟩ := h
    exact Or.inl ⟨ty, rfl, textToType_nameOf ty⟩
  · refine Or.inr ⟨fun ty hty => h ⟨ty, hty⟩, ?_⟩
    unfold textToType
    have : typeNames.find? (fun p => decide (p.2 = s)) = none := by
      rw [List.find?_eq_none]
      intro p hp
      simp only [decide_eq_true_eq]
      intro hps
      apply h
      simp only [typeNames, List.mem_cons, List.not_mem_nil, or_false] at hp
      rcases hp with rfl | rfl | rfl | rfl | rfl | rfl | rfl | rfl
      exacts [⟨.lowpass, hps⟩, ⟨.highpass, hps⟩, ⟨.bandpass, hps⟩, ⟨.bandstop, hps⟩, ⟨.peak, hps⟩,
        ⟨.lowshelf, hps⟩, ⟨.highshelf, hps⟩, ⟨.allpass, hps⟩]
    rw [this]

section Parametric
variable [Field K] [LinearOrder K]

theorem readSectionJson_described (t : Node K) (s : Section K) (h : JsonSection t s) :
    readSectionJson t = .ok s := by
  obtain ⟨h1, h2, h3, h4⟩ := h
  unfold readSectionJson
  rw [textOf_val _ _ _ h1, (numOf_val _ _ _).2 h2, (numOf_val _ _ _).2 h3]
  have hg : (numOf (t.child? "gain")).getD 0 = s.gain := by
    rcases h4 with h4 | ⟨h4, h5⟩
    · rw [(numOf_val _ _ _).2 h4]; rfl
    · rw [numOf_missing _ _ h4, h5]; rfl
  simp [Entry.get, textToType_nameOf, hg]

theorem readSectionXml_described (t : Node K) (s : Section K) (h : XmlSection t s) :
    readSectionXml t = .ok s := by
  obtain ⟨h1, h2, h3, h4⟩ := h
  unfold readSectionXml
  rw [attr_text _ _ _ h1, (attr_val _ _ _).2 h2, (attr_val _ _ _).2 h3]
  have hg : (numOf (t.attr? "gain")).getD 0 = s.gain := by
    rcases h4 with h4 | ⟨h4, h5⟩
    · rw [(attr_val _ _ _).2 h4]; rfl
    · rw [attr_missing _ _ h4, h5]; rfl
  simp [Entry.get, textToType_nameOf, hg]

theorem readEach_described {read : Node K → Outcome (Section K)} {P : Node K → Section K → Prop}
    (hr : ∀ t s, P t s → read t = .ok s) (ns : List (Node K)) (l : List (Section K)) (h : List.Forall₂ P ns l) :
    readEach read ns = .ok l := by
  induction h with
  | nil => rfl
  | cons hp _ ih =>
    unfold readEach
    rw [hr _ _ hp, ih]
    rfl

theorem value_put_self (t : Node K) (k : String) (d : Datum K) : Value (t.put k d) k d := by
  refine ⟨.mk d ((t.child? k).getD Node.nil).children, (child?_eq_some _ _ _).1 ?_, rfl⟩
  rw [child?_put, if_pos rfl]

theorem value_put_of_ne (t : Node K) (k k' : String) (d d' : Datum K) (h : k' ≠ k) (hv : Value t k' d') :
    Value (t.put k d) k' d' := by
  obtain ⟨n, hn, hd⟩ := hv
  refine ⟨n, (child?_eq_some _ _ _).1 ?_, hd⟩
  rw [child?_put, if_neg h]
  exact (child?_eq_some _ _ _).2 hn

theorem absent_put_of_ne (t : Node K) (k k' : String) (d : Datum K) (h : k' ≠ k) (hv : Absent t k') :
    Absent (t.put k d) k' := by
  rw [← child?_eq_none] at hv ⊢
  rw [child?_put, if_neg h]
  exact hv

theorem writeSectionJson_described (eps : K) (s : Section K) (t : Node K) (h : Absent t "gain")
    (hg : s.gain = 0 ∨ eps ≤ |s.gain|) :
    ∃ n, writeSectionJson eps s t = .ok n ∧ JsonSection n s := by
  unfold writeSectionJson
  rw [typeToText_eq]
  refine ⟨_, rfl, ?_⟩
  set t3 := ((t.put "type" (.text (nameOf s.typ))).put "f" (.num s.f)).put "q" (.num s.q) with ht3
  have v1 : Value t3 "type" (.text (nameOf s.typ)) :=
    value_put_of_ne _ _ _ _ _ (by decide) (value_put_of_ne _ _ _ _ _ (by decide) (value_put_self _ _ _))
  have v2 : Value t3 "f" (.num s.f) := value_put_of_ne _ _ _ _ _ (by decide) (value_put_self _ _ _)
  have v3 : Value t3 "q" (.num s.q) := value_put_self _ _ _
  have v4 : Absent t3 "gain" :=
    absent_put_of_ne _ _ _ _ (by decide) (absent_put_of_ne _ _ _ _ (by decide)
      (absent_put_of_ne _ _ _ _ (by decide) h))
  by_cases he : eps ≤ |s.gain|
  · rw [if_pos he]
    exact ⟨value_put_of_ne _ _ _ _ _ (by decide) v1, value_put_of_ne _ _ _ _ _ (by decide) v2,
      value_put_of_ne _ _ _ _ _ (by decide) v3, Or.inl (value_put_self _ _ _)⟩
  · rw [if_neg he]
    exact ⟨v1, v2, v3, Or.inr ⟨v4, hg.resolve_right he⟩⟩

theorem attribute_iff (t : Node K) (k : String) (d : Datum K) :
    Attribute t k d ↔ ∃ n, t.attr? k = some n ∧ n.data = d := by
  unfold Attribute Node.attr? Value
  constructor
  · rintro ⟨a, ha, n, hn, hd⟩
    refine ⟨n, ?_, hd⟩
    rw [(child?_eq_some t _ a).2 ha]
    exact (child?_eq_some a _ n).2 hn
  · rintro ⟨n, hn, hd⟩
    rw [Option.bind_eq_some_iff] at hn
    obtain ⟨a, ha, hn⟩ := hn
    exact ⟨a, (child?_eq_some t _ a).1 ha, n, (child?_eq_some a _ n).1 hn, hd⟩

theorem noAttribute_iff (t : Node K) (k : String) : NoAttribute t k ↔ t.attr? k = none := by
  unfold NoAttribute Node.attr?
  constructor
  · intro h
    cases hc : t.child? "<xmlattr>" with
    | none => rfl
    | some a => exact (child?_eq_none a k).2 (h a ((child?_eq_some t _ a).1 hc))
  · intro h a ha
    rw [(child?_eq_some t _ a).2 ha] at h
    exact (child?_eq_none a k).1 h

theorem attribute_put_self (t : Node K) (k : String) (d : Datum K) : Attribute (t.putAttr k d) k d := by
  rw [attribute_iff]
  refine ⟨.mk d ((t.attr? k).getD Node.nil).children, ?_, rfl⟩
  rw [attr?_putAttr', if_pos rfl]

theorem attribute_put_of_ne (t : Node K) (k k' : String) (d d' : Datum K) (h : k' ≠ k) (hv : Attribute t k' d') :
    Attribute (t.putAttr k d) k' d' := by
  rw [attribute_iff] at hv ⊢
  rw [attr?_putAttr', if_neg h]
  exact hv

theorem noAttribute_put_of_ne (t : Node K) (k k' : String) (d : Datum K) (h : k' ≠ k) (hv : NoAttribute t k') :
    NoAttribute (t.putAttr k d) k' := by
  rw [noAttribute_iff] at hv ⊢
  rw [attr?_putAttr', if_neg h]
  exact hv

theorem writeSectionXml_described (eps : K) (s : Section K) (t : Node K) (h : NoAttribute t "gain")
    (hg : s.gain = 0 ∨ eps ≤ |s.gain|) :
    ∃ n, writeSectionXml eps s t = .ok n ∧ XmlSection n s := by
  unfold writeSectionXml
  rw [typeToText_eq]
  refine ⟨_, rfl, ?_⟩
  set t3 := ((t.putAttr "type" (.text (nameOf s.typ))).putAttr "f" (.num s.f)).putAttr "q" (.num s.q) with ht3
  have v1 : Attribute t3 "type" (.text (nameOf s.typ)) :=
    attribute_put_of_ne _ _ _ _ _ (by decide) (attribute_put_of_ne _ _ _ _ _ (by decide) (attribute_put_self _ _ _))
  have v2 : Attribute t3 "f" (.num s.f) := attribute_put_of_ne _ _ _ _ _ (by decide) (attribute_put_self _ _ _)
  have v3 : Attribute t3 "q" (.num s.q) := attribute_put_self _ _ _
  have v4 : NoAttribute t3 "gain" :=
    noAttribute_put_of_ne _ _ _ _ (by decide) (noAttribute_put_of_ne _ _ _ _ (by decide)
      (noAttribute_put_of_ne _ _ _ _ (by decide) h))
  by_cases he : eps ≤ |s.gain|
  · rw [if_pos he]
    exact ⟨attribute_put_of_ne _ _ _ _ _ (by decide) v1, attribute_put_of_ne _ _ _ _ _ (by decide) v2,
      attribute_put_of_ne _ _ _ _ _ (by decide) v3, Or.inl (attribute_put_self _ _ _)⟩
  · rw [if_neg he]
    exact ⟨v1, v2, v3, Or.inr ⟨v4, hg.resolve_right he⟩⟩

theorem writeEach_described (eps : K) (key : String) (l : List (Section K)) (t : Node K)
    (hg : ∀ s ∈ l, s.gain = 0 ∨ eps ≤ |s.gain|) :
    ∃ n ns, writeEach eps key l t = .ok n ∧ n.children = t.children ++ ns.map (fun c => (key, c)) ∧
      List.Forall₂ JsonSection ns l := by
  induction l generalizing t with
  | nil => exact ⟨t, [], rfl, by simp, .nil⟩
  | cons s l ih =>
    obtain ⟨c, hc, hs⟩ := writeSectionJson_described eps s Node.nil (absent_nil _) (hg s (by simp))
    obtain ⟨n, ns, hn, hch, hf⟩ := ih (t.push key c) (fun r hr => hg r (List.mem_cons_of_mem _ hr))
    refine ⟨n, c :: ns, ?_, ?_, .cons hs hf⟩
    · unfold writeEach
      rw [hc]
      exact hn
    · rw [hch]
      simp [Node.push, Node.children]

theorem textOf_name (e : Option (Node K)) (s : String) (ty : EqType) (hs : textOf e = .val s) (hty : nameOf ty = s) :
    ∃ n, e = some n ∧ n.data = .text s := by
  cases e with
  | none => simp [textOf] at hs
  | some n =>
    refine ⟨n, rfl, ?_⟩
    unfold textOf at hs
    cases hd : n.data with
    | empty =>
      simp only [hd] at hs
      injection hs with hs
      subst hs
      cases ty <;> simp [nameOf] at hty
    | num k =>
      simp only [hd] at hs
      injection hs with hs
      subst hs
      cases ty <;> simp [nameOf] at hty
    | text s' =>
      simp only [hd] at hs
      injection hs with hs
      rw [hs]

theorem replaceBy_failed {σ : Type} (old : σ) (o : Outcome σ) (h : (replaceBy old o).2 ≠ .ok ()) :
    (replaceBy old o).1 = old := by
  cases o with
  | ok c => exact absurd rfl h
  | throw e => rfl
  | ub => rfl

theorem no_attributes_written (eps : K) (s : Section K) :
    ∃ n, writeSectionJson eps s Node.nil = .ok n ∧ n.child? "<xmlattr>" = none := by
  unfold writeSectionJson
  rw [typeToText_eq]
  refine ⟨_, rfl, ?_⟩
  have h : ((((Node.nil : Node K).put "type" (.text (nameOf s.typ))).put "f" (.num s.f)).put "q" (.num s.q)).child?
      "<xmlattr>" = none := by
    rw [child?_put, if_neg (by decide), child?_put, if_neg (by decide), child?_put, if_neg (by decide)]
    rfl
  by_cases he : eps ≤ |s.gain|
  · rw [if_pos he, child?_put, if_neg (by decide)]
    exact h
  · rw [if_neg he]
    exact h

theorem writeEach_prefix (eps : K) (key : String) (l : List (Section K)) (t : Node K) :
    ∃ n cs, writeEach eps key l t = .ok n ∧ n.children = t.children ++ cs := by
  induction l generalizing t with
  | nil => exact ⟨t, [], rfl, by simp⟩
  | cons s l ih =>
    obtain ⟨c, hc, _⟩ := no_attributes_written eps s
    obtain ⟨n, cs, hn, h⟩ := ih (t.push key c)
    refine ⟨n, (key, c) :: cs, ?_, ?_⟩
    · unfold writeEach
      rw [hc]
      exact hn
    · rw [h]
      simp [Node.push, Node.children]

end Parametric

end Visr.FilterFile
