import Verif.RoutingParameter.Model
import Mathlib.Tactic.Common

namespace Visr.RoutingParameter
open Visr

/-- The entries are in strict order of their outputs. -/
def Ordered (s : List Entry) : Prop := s.Pairwise (fun a b => a.output < b.output)

theorem find_some_iff {s : List Entry} (h : Ordered s) (o : Nat) (e : Entry) :
    find s o = some e ↔ e ∈ s ∧ e.output = o := by
  unfold find
  constructor
  · intro hf
    have h1 := List.find?_some hf
    exact ⟨List.mem_of_find?_eq_some hf, by simpa using h1⟩
  · rintro ⟨hm, rfl⟩
    induction s with
    | nil => simp at hm
    | cons x l ih =>
      have hx := List.pairwise_cons.1 h
      rw [List.find?_cons]
      by_cases hxe : x.output = e.output
      · rcases List.mem_cons.1 hm with rfl | hm
        · simp
        · have := hx.1 e hm; omega
      · rcases List.mem_cons.1 hm with rfl | hm
        · simp at hxe
        · have : (x.output == e.output) = false := by simpa using hxe
          rw [this]; exact ih hx.2 hm

theorem find_none_iff (s : List Entry) (o : Nat) : find s o = none ↔ ∀ e ∈ s, e.output ≠ o := by
  unfold find
  rw [List.find?_eq_none]
  simp

theorem insert_mem {s : List Entry} {e : Entry} (hn : ∀ x ∈ s, x.output ≠ e.output) (y : Entry) :
    y ∈ insert e s ↔ y = e ∨ y ∈ s := by
  induction s with
  | nil => simp [insert]
  | cons x l ih =>
    have hx := hn x (by simp)
    simp only [insert]
    split
    · simp
    · rw [if_neg (by omega)]
      rw [List.mem_cons, ih (fun z hz => hn z (by simp [hz])), List.mem_cons]
      tauto

theorem insert_ordered {s : List Entry} {e : Entry} (h : Ordered s) : Ordered (insert e s) := by
  induction s with
  | nil => simp [insert, Ordered]
  | cons x l ih =>
    have hx := List.pairwise_cons.1 h
    simp only [insert]
    split
    · rename_i hlt
      refine List.pairwise_cons.2 ⟨?_, h⟩
      intro y hy
      rcases List.mem_cons.1 hy with rfl | hy
      · exact hlt
      · exact Nat.lt_trans hlt (hx.1 y hy)
    · split
      · exact h
      · rename_i h1 h2
        refine List.pairwise_cons.2 ⟨?_, ih hx.2⟩
        intro y hy
        have : y = e ∨ y ∈ l := by
          clear ih h hx h1 h2
          induction l with
          | nil => left; simpa [insert] using hy
          | cons z l ihl =>
            simp only [insert] at hy
            split at hy
            · rcases List.mem_cons.1 hy with h | h
              · exact .inl h
              · exact .inr h
            · split at hy
              · exact .inr hy
              · rcases List.mem_cons.1 hy with rfl | h
                · exact .inr (by simp)
                · rcases ihl h with h | h
                  · exact .inl h
                  · exact .inr (by simp [h])
        rcases this with rfl | hy
        · omega
        · exact hx.1 y hy

theorem erase_ordered {s : List Entry} (h : Ordered s) (o : Nat) : Ordered (erase s o) := h.filter _

theorem erase_mem (s : List Entry) (o : Nat) (y : Entry) : y ∈ erase s o ↔ y ∈ s ∧ y.output ≠ o := by
  simp [erase]

theorem addRouting_ordered {s : List Entry} (h : Ordered s) (e : Entry) : Ordered (addRouting s e) := by
  unfold addRouting
  split
  · exact insert_ordered (erase_ordered h _)
  · exact insert_ordered h

theorem addRouting_mem (s : List Entry) (e y : Entry) :
    y ∈ addRouting s e ↔ y = e ∨ (y ∈ s ∧ y.output ≠ e.output) := by
  unfold addRouting
  split
  · rw [insert_mem (fun x hx => ((erase_mem s _ x).1 hx).2), erase_mem]
  · rename_i hf
    have hn := (find_none_iff s e.output).1 hf
    rw [insert_mem hn]
    constructor
    · rintro (h | h)
      · exact .inl h
      · exact .inr ⟨h, hn y h⟩
    · rintro (h | h)
      · exact .inl h
      · exact .inr h.1

end Visr.RoutingParameter
