import Verif.Decorrelation.Props

/-!
# C93: which transform libraries are available
-/

namespace Visr.Decorrelation

/-- **C93.** The library of a name, in any case: KissFFT and the default are always available, the others if they were
included in the build, FFTS only in single precision. There are no other names. -/
theorem library_iff (b : Build) (double : Bool) (name : String) (l : Library) :
    find b double name = some l ↔
      (name.toLower = "kissfft" ∧ l = .kiss) ∨ (name.toLower = "default" ∧ l = .kiss) ∨
      (name.toLower = "ffts" ∧ b.ffts = true ∧ double = false ∧ l = .ffts) ∨
      (name.toLower = "ipp" ∧ b.ipp = true ∧ l = .ipp) := by
  unfold find
  dsimp only
  generalize name.toLower = s
  by_cases h1 : s = "kissfft"
  · subst h1; cases l <;> simp
  by_cases h2 : s = "ffts"
  · subst h2; cases hb : b.ffts <;> cases double <;> cases l <;> simp
  by_cases h3 : s = "ipp"
  · subst h3; cases hb : b.ipp <;> cases l <;> simp
  by_cases h4 : s = "default"
  · subst h4; cases l <;> simp
  simp [h1, h2, h3, h4]

example : find ⟨true, true, true⟩ true "FFTS" = none := by decide +kernel
example : find ⟨true, true, true⟩ false "FFTS" = some .ffts := by decide +kernel

end Visr.Decorrelation
