import Verif.RoutingParameter.Lemmas

/-!
# Signal routing parameters are partial functions from outputs to inputs (C09)
-/

namespace Visr.RoutingParameter
open Visr

/-! ## Specification: a partial function -/

/-- The abstract routing: the input of every routed output. -/
abbrev Routing := Nat → Option Nat

/-- The abstract operations with their results. -/
def specStep (f : Routing) : Op → Routing × Bool
  | .add i o => (fun x => if x = o then some i else f x, true)
  | .removeEntry i o => if f o = some i then (fun x => if x = o then none else f x, true) else (f, false)
  | .removeOutput o => (fun x => if x = o then none else f x, (f o).isSome)
  | .clear => (fun _ => none, true)

/-! ## Refinement -/

/-- The list of entries is the graph of the partial function, in order of the outputs. -/
structure Graph (s : List Entry) (f : Routing) : Prop where
  ordered : Ordered s
  mem : ∀ e : Entry, e ∈ s ↔ f e.output = some e.input

theorem Graph.find {s : List Entry} {f : Routing} (h : Graph s f) (o : Nat) :
    find s o = (f o).map (fun i => ⟨i, o⟩) := by
  cases hf : f o with
  | none =>
    rw [Option.map_none, find_none_iff]
    intro e he ho
    have := (h.mem e).1 he
    rw [ho, hf] at this; cases this
  | some i =>
    rw [Option.map_some, find_some_iff h.ordered]
    exact ⟨(h.mem _).2 hf, rfl⟩

theorem graph_step {s : List Entry} {f : Routing} (h : Graph s f) (op : Op) :
    Graph (step s op).1 (specStep f op).1 ∧ (step s op).2 = (specStep f op).2 := by
  have herase : ∀ o, Graph (erase s o) (fun x => if x = o then none else f x) := by
    intro o
    refine ⟨erase_ordered h.ordered _, fun e => ?_⟩
    rw [erase_mem, h.mem]
    by_cases ho : e.output = o <;> simp [ho]
  cases op with
  | add i o =>
    refine ⟨⟨addRouting_ordered h.ordered _, fun e => ?_⟩, rfl⟩
    simp only [step, specStep]
    rw [addRouting_mem, h.mem]
    by_cases ho : e.output = o
    · simp only [ho, if_true, Option.some.injEq, ne_eq, not_true_eq_false, and_false, or_false]
      constructor
      · rintro rfl; rfl
      · intro hi; cases e; simp only at ho hi; rw [ho, hi]
    · simp only [ho, if_false, ne_eq, not_false_eq_true, and_true, or_iff_right_iff_imp]
      rintro rfl; simp at ho
  | removeEntry i o =>
    simp only [step, specStep, removeEntry, h.find o]
    cases hf : f o with
    | none => simp; exact h
    | some j =>
      simp only [Option.map_some, Option.some.injEq]
      by_cases hj : j = i
      · simp only [hj, if_true]; exact ⟨herase o, trivial⟩
      · simp only [hj, if_false]; exact ⟨h, trivial⟩
  | removeOutput o =>
    simp only [step, specStep, removeOutput, h.find o]
    cases hf : f o with
    | none =>
      simp only [Option.map_none, Option.isSome_none, and_true]
      have : (fun x => if x = o then none else f x) = f := by
        funext x
        by_cases hx : x = o
        · rw [if_pos hx, hx, hf]
        · rw [if_neg hx]
      rw [this]; exact h
    | some j => exact ⟨herase o, rfl⟩
  | clear => exact ⟨⟨by simp [step, Ordered], fun e => by simp [step, specStep]⟩, rfl⟩

theorem graph_run {s : List Entry} {f : Routing} (h : Graph s f) (ops : List Op) :
    Graph (final step s ops) (final specStep f ops) ∧ (run step s ops).2 = (run specStep f ops).2 := by
  induction ops generalizing s f with
  | nil => exact ⟨h, rfl⟩
  | cons op ops ih =>
    obtain ⟨h1, h2⟩ := graph_step h op
    obtain ⟨h3, h4⟩ := ih h1
    refine ⟨by simpa using h3, ?_⟩
    simp only [run, h2, h4]

theorem find_input {s : List Entry} (hord : Ordered s) (i : Nat) :
    (∃ e, s.find? (fun e => e.input == i) = some e ∧ e ∈ s ∧ e.input = i ∧ ∀ x ∈ s, x.input = i → e.output ≤ x.output) ∨
      (s.find? (fun e => e.input == i) = none ∧ ∀ x ∈ s, x.input ≠ i) := by
  induction s with
  | nil => right; simp
  | cons x l ih =>
    have hx := List.pairwise_cons.1 hord
    rw [List.find?_cons]
    by_cases hxi : x.input = i
    · left
      refine ⟨x, by simp [hxi], by simp, hxi, ?_⟩
      intro y hy _
      rcases List.mem_cons.1 hy with rfl | hy
      · exact Nat.le_refl _
      · exact Nat.le_of_lt (hx.1 y hy)
    · have hb : (x.input == i) = false := by simpa using hxi
      rw [hb]
      rcases ih hx.2 with ⟨e, h1, h2, h3, h4⟩ | ⟨h1, h2⟩
      · left
        refine ⟨e, h1, by simp [h2], h3, ?_⟩
        intro y hy hyi
        rcases List.mem_cons.1 hy with rfl | hy
        · exact absurd hyi hxi
        · exact h4 y hy hyi
      · right
        refine ⟨h1, ?_⟩
        intro y hy
        rcases List.mem_cons.1 hy with rfl | hy
        · exact hxi
        · exact h2 y hy

/-- C09: after every history of `addRouting`, `removeEntry` (both forms) and `clear` the parameter is the partial function
`f` obtained from the same history of the abstract operations. All `bool` results agree with it; `getInput( o )` is the
input routed to `o`, or the invalid index; `getEntry( o )` is the pair, or the pair of invalid indices; the iteration
lists exactly the routed pairs in strictly increasing order of the outputs; and `getOutput( i )` is the lowest output
routed from `i`, or the invalid index if there is none. -/
theorem signalRouting_is_partial_function (ops : List Op) :
    let s := final step [] ops
    let f := final specStep (fun _ => none) ops
    (run step [] ops).2 = (run specStep (fun _ => none) ops).2 ∧
    (∀ o i, f o = some i → getInput s o = i ∧ getEntry s o = ⟨i, o⟩) ∧
    (∀ o, f o = none → getInput s o = cInvalidIndex ∧ getEntry s o = ⟨cInvalidIndex, cInvalidIndex⟩) ∧
    (s.map Entry.output).Pairwise (· < ·) ∧ (∀ i o, (⟨i, o⟩ : Entry) ∈ s ↔ f o = some i) ∧
    (∀ i o, f o = some i → (∀ o', f o' = some i → o ≤ o') → getOutput s i = o) ∧
    (∀ i, (∀ o, f o ≠ some i) → getOutput s i = cInvalidIndex) := by
  intro s f
  have h0 : Graph [] (fun _ => none) := ⟨by simp [Ordered], by simp⟩
  obtain ⟨h, hout⟩ := graph_run h0 ops
  refine ⟨hout, ?_, ?_, List.pairwise_map.2 h.ordered, fun i o => h.mem ⟨i, o⟩, ?_, ?_⟩
  · intro o i hf
    have := h.find o
    rw [show final specStep (fun _ => none) ops o = some i from hf] at this
    simp only [getInput, getEntry]
    rw [this]; exact ⟨rfl, rfl⟩
  · intro o hf
    have := h.find o
    rw [show final specStep (fun _ => none) ops o = none from hf] at this
    simp only [getInput, getEntry]
    rw [this]; exact ⟨rfl, rfl⟩
  · intro i o hf hmin
    have hmem : (⟨i, o⟩ : Entry) ∈ s := (h.mem ⟨i, o⟩).2 hf
    simp only [getOutput]
    rcases find_input h.ordered i with ⟨e, h1, h2, h3, h4⟩ | ⟨_, h2⟩
    · rw [h1]
      have h5 := h4 _ hmem rfl
      have h6 : f e.output = some i := by rw [← h3]; exact (h.mem e).1 h2
      have h7 := hmin _ h6
      simp only at h5 ⊢
      omega
    · exact absurd rfl (h2 _ hmem)
  · intro i hno
    simp only [getOutput]
    rcases find_input h.ordered i with ⟨e, h1, h2, h3, h4⟩ | ⟨h1, _⟩
    · have : f e.output = some i := by rw [← h3]; exact (h.mem e).1 h2
      exact absurd this (hno _)
    · rw [h1]

/-- Non-vacuity: re-routing output 3 replaces its input, a non-matching removal reports `false`. -/
example : let ops : List Op := [.add 1 3, .add 2 3, .add 2 1, .removeEntry 1 3, .removeOutput 5]
    (run step [] ops).2 = [true, true, true, false, false] ∧ getInput (final step [] ops) 3 = 2 ∧
      getOutput (final step [] ops) 2 = 1 := by decide

/-- The constructor from a list of entries succeeds exactly if no output occurs twice; then the parameter holds exactly
these entries. -/
theorem signalRouting_construct (es : List Entry) :
    ((es.map Entry.output).Nodup → ∃ s, construct [] es = .ok s ∧ (s.map Entry.output).Pairwise (· < ·) ∧
      ∀ e, e ∈ s ↔ e ∈ es) ∧
    (¬ (es.map Entry.output).Nodup → construct [] es = .throw .invalidArgument) := by
  suffices h : ∀ (s : List Entry), Ordered s →
      ((es.map Entry.output).Nodup ∧ (∀ e ∈ es, ∀ x ∈ s, x.output ≠ e.output) →
        ∃ s', construct s es = .ok s' ∧ Ordered s' ∧ ∀ e, e ∈ s' ↔ e ∈ s ∨ e ∈ es) ∧
      (¬ ((es.map Entry.output).Nodup ∧ (∀ e ∈ es, ∀ x ∈ s, x.output ≠ e.output)) →
        construct s es = .throw .invalidArgument) by
    obtain ⟨h1, h2⟩ := h [] (by simp [Ordered])
    refine ⟨fun hn => ?_, fun hn => h2 (by simpa using hn)⟩
    obtain ⟨s', h3, h4, h5⟩ := h1 ⟨hn, by simp⟩
    exact ⟨s', h3, List.pairwise_map.2 h4, by simpa using h5⟩
  induction es with
  | nil => intro s hs; exact ⟨fun _ => ⟨s, rfl, hs, by simp⟩, fun h => absurd (by simp) h⟩
  | cons e es ih =>
    intro s hs
    simp only [construct]
    cases hf : find s e.output with
    | some x =>
      obtain ⟨hx1, hx2⟩ := (find_some_iff hs _ _).1 hf
      exact ⟨fun h => absurd hx2 (h.2 e (by simp) x hx1), fun _ => rfl⟩
    | none =>
      have hn := (find_none_iff s e.output).1 hf
      obtain ⟨h1, h2⟩ := ih (insert e s) (insert_ordered hs)
      have hiff : ((es.map Entry.output).Nodup ∧ ∀ e' ∈ es, ∀ x ∈ insert e s, x.output ≠ e'.output) ↔
          (((e :: es).map Entry.output).Nodup ∧ ∀ e' ∈ e :: es, ∀ x ∈ s, x.output ≠ e'.output) := by
        simp only [List.map_cons, List.nodup_cons, List.mem_map, not_exists, not_and, insert_mem hn, List.mem_cons]
        constructor
        · rintro ⟨a, b⟩
          refine ⟨⟨fun x hx hxe => b x hx e (.inl rfl) hxe.symm, a⟩, ?_⟩
          rintro e' (rfl | he') x hx
          · exact hn x hx
          · exact b e' he' x (.inr hx)
        · rintro ⟨⟨a, b⟩, c⟩
          refine ⟨b, ?_⟩
          rintro e' he' x (rfl | hx)
          · exact fun h => a e' he' h.symm
          · exact c e' (.inr he') x hx
      refine ⟨fun h => ?_, fun h => h2 (fun h' => h (hiff.1 h'))⟩
      obtain ⟨s', h3, h4, h5⟩ := h1 (hiff.2 h)
      refine ⟨s', h3, h4, fun y => ?_⟩
      rw [h5 y, insert_mem hn, List.mem_cons]
      tauto

example : construct [] [⟨1, 2⟩, ⟨1, 0⟩] = .ok [⟨1, 0⟩, ⟨1, 2⟩] ∧
    construct [] [⟨1, 2⟩, ⟨3, 2⟩] = .throw .invalidArgument := by decide

end Visr.RoutingParameter
