import Verif.Outcome

/-! # Running a state machine over a history of operations -/

namespace Visr

/-- Run all operations in order; collect the outputs. -/
def run {σ : Type u} {ι : Type v} {o : Type w} (step : σ → ι → σ × o) (s : σ) : List ι → σ × List o
  | [] => (s, [])
  | i :: is =>
    let r := step s i
    let rs := run step r.1 is
    (rs.1, r.2 :: rs.2)

/-- State after a history. -/
def final {σ : Type u} {ι : Type v} {o : Type w} (step : σ → ι → σ × o) (s : σ) (is : List ι) : σ := (run step s is).1

@[simp] theorem final_nil {σ : Type u} {ι : Type v} {o : Type w} (step : σ → ι → σ × o) (s : σ) :
    final step s [] = s := rfl

@[simp] theorem final_cons {σ : Type u} {ι : Type v} {o : Type w} (step : σ → ι → σ × o) (s : σ) (i : ι) (is : List ι) :
    final step s (i :: is) = final step (step s i).1 is := rfl

theorem final_append {σ : Type u} {ι : Type v} {o : Type w} (step : σ → ι → σ × o) (s : σ) (is js : List ι) :
    final step s (is ++ js) = final step (final step s is) js := by
  induction is generalizing s with
  | nil => rfl
  | cons i is ih => simp [ih]

/-- An invariant preserved by every step holds after every history. -/
theorem final_induction {σ : Type u} {ι : Type v} {o : Type w} {step : σ → ι → σ × o} {P : σ → Prop}
    (hstep : ∀ s i, P s → P (step s i).1) {s : σ} (h : P s) (is : List ι) : P (final step s is) := by
  induction is generalizing s with
  | nil => exact h
  | cons i is ih => exact ih (hstep s i h)

end Visr
