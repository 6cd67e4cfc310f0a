import Verif.Decorrelation.PropsLibrary

/-!
# C93: which transforms can be created
-/

namespace Visr.Decorrelation
open Visr Visr.Convolver

/-- **C93.** A transform of an available library is created exactly for the sizes and alignments that the library supports: even
sizes for KissFFT and FFTS, powers of two for IPP; on processors where FFTS needs aligned memory, it needs an alignment of at least
two elements. In all other cases `std::invalid_argument` is thrown. -/
theorem created_iff (b : Build) (double : Bool) (name : String) (fftSize align : Nat) :
    ((∃ t, create b double name fftSize align = .ok t) ↔
      ((name.toLower = "kissfft" ∨ name.toLower = "default") ∧ 2 ∣ fftSize) ∨
      (name.toLower = "ffts" ∧ b.ffts = true ∧ double = false ∧ 2 ∣ fftSize ∧ (b.simd = true → 2 ≤ align)) ∨
      (name.toLower = "ipp" ∧ b.ipp = true ∧ ∃ k, fftSize = 2 ^ k)) ∧
    ((¬ ∃ t, create b double name fftSize align = .ok t) → create b double name fftSize align = .throw .invalidArgument) := by
  have hpow : (2 ^ Nat.log 2 fftSize = fftSize) ↔ ∃ k, fftSize = 2 ^ k := by
    constructor
    · intro h; exact ⟨_, h.symm⟩
    · rintro ⟨k, rfl⟩; rw [Nat.log_pow (by norm_num)]
  have heven : 2 ∣ fftSize ↔ ¬ fftSize % 2 = 1 := by omega
  rw [← hpow, heven]
  have hl := library_iff b double name
  unfold create
  generalize find b double name = o at hl ⊢
  generalize name.toLower = s at hl ⊢
  cases o with
  | none =>
    have h1 := hl .kiss
    have h2 := hl .ffts
    have h3 := hl .ipp
    simp at h1 h2 h3
    simp only [reduceCtorEq, exists_false, false_iff, not_false_eq_true, forall_const, and_true]
    rintro (⟨h | h, _⟩ | ⟨h, hb, hd, _⟩ | ⟨h, hb, _⟩)
    · exact h1.1 h
    · exact h1.2 h
    · simp [h2 h hb] at hd
    · simp [h3 h] at hb
  | some l =>
    have h := (hl l).1 rfl
    cases l with
    | kiss =>
      simp at h
      rcases h with rfl | rfl <;> by_cases he : fftSize % 2 = 1 <;> simp [he]
    | ffts =>
      simp at h
      obtain ⟨rfl, hb, rfl⟩ := h
      by_cases he : fftSize % 2 = 1 <;> cases hs : b.simd <;> by_cases ha : align < 2 <;> simp [he, hb, ha]; omega
    | ipp =>
      simp at h
      obtain ⟨rfl, hb⟩ := h
      by_cases he : 2 ^ Nat.log 2 fftSize = fftSize <;> simp [he, hb]

example : ¬ ∃ t, create ⟨true, true, true⟩ false "FFTS" 64 1 = .ok t := by
  rw [(created_iff _ _ _ _ _).1]
  have : "FFTS".toLower = "ffts" := by decide +kernel
  simp [this]

example : ∃ t, create ⟨true, true, true⟩ false "FFTS" 64 2 = .ok t := by
  rw [(created_iff _ _ _ _ _).1]
  have : "FFTS".toLower = "ffts" := by decide +kernel
  simp [this]

end Visr.Decorrelation
