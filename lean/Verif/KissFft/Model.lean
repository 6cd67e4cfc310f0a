import Verif.Convolver.Model
import Mathlib.Analysis.SpecialFunctions.Trigonometric.Basic
import Mathlib.Data.Nat.Sqrt

/-!
# KISS FFT

Models the FFT library that the repository contains and that the name `"default"` stands for: `/repo/3rd/kissfft/kiss_fft.c` and
`/repo/3rd/kissfft/tools/kiss_fftr.c` as compiled by `kiss_fft_float.c` and `kiss_fftr_float.c` (floating point, no SIMD, no
OpenMP), and the wrapper `/repo/src/librbbl/kiss_fft_wrapper_float.cpp`.

Numbers are real and complex; rounding is not modelled. Arrays are functions from the index to the element. The tables of
twiddle factors are parameters of the functions that read them, so that theorems can say that nothing beyond the allocated
elements is used. Not modelled: memory management, the conversion of sizes to `int`.
-/

namespace Visr.KissFft
open Visr

/-- `kf_cexp` (`_kiss_fft_guts.h:137-141`). -/
noncomputable def cexp (phase : ℝ) : ℂ := ⟨Real.cos phase, Real.sin phase⟩

/-- The twiddle factors that `kiss_fft_alloc` stores for `i < nfft` (`kiss_fft.c:357-363`). -/
noncomputable def twiddle (nfft : Nat) (inverse : Bool) (i : Nat) : ℂ :=
  let phase : ℝ := -2 * Real.pi * i / nfft
  cexp (if inverse then phase * -1 else phase)

/-- The factors that `kiss_fftr_alloc` stores for `i < nfft / 2`, where `nfft` is half of the transform size
(`kiss_fftr.c:58-64`). -/
noncomputable def superTwiddle (nfft : Nat) (inverse : Bool) (i : Nat) : ℂ :=
  let phase : ℝ := -Real.pi * ((i + 1) / nfft + 0.5)
  cexp (if inverse then phase * -1 else phase)

/-- The `switch` in `kf_factor` (`kiss_fft.c:318-322`). -/
def candidate (p : Nat) : Nat := if p = 4 then 2 else if p = 2 then 3 else p + 2

/-- The inner loop of `kf_factor` (`kiss_fft.c:317-325`): the next radix that divides `n`, beginning with `p`. After `p = n` the
condition of the loop is false. -/
def nextRadix (n floorSqrt p : Nat) : Nat :=
  if n % p = 0 then p
  else if _h : floorSqrt < candidate p then n
  else nextRadix n floorSqrt (candidate p)
termination_by if p = 4 then floorSqrt + 5 else floorSqrt + 4 - p
decreasing_by
  unfold candidate at *
  split_ifs at * <;> omega

/-- The outer loop of `kf_factor` (`kiss_fft.c:316-330`). The condition `n' < n` is not in the code; it makes the recursion well
founded, and it is always true (the list of factors would otherwise not be complete, see `Props`). -/
def factorLoop (n floorSqrt p : Nat) : List (Nat × Nat) :=
  (nextRadix n floorSqrt p, n / nextRadix n floorSqrt p) ::
    if _h : 1 < n / nextRadix n floorSqrt p ∧ n / nextRadix n floorSqrt p < n then
      factorLoop (n / nextRadix n floorSqrt p) floorSqrt (nextRadix n floorSqrt p)
    else []
termination_by n
decreasing_by exact _h.2

/-- `kf_factor( n, facbuf )` (`kiss_fft.c:308-330`). -/
def factor (n : Nat) : List (Nat × Nat) := factorLoop n (Nat.sqrt n) 4

/-- Writes the results of one run of a butterfly loop to `Fout[u], Fout[u+m], Fout[u+2m], …`. -/
def put (F : Nat → ℂ) (m u : Nat) (vals : List ℂ) : Nat → ℂ :=
  fun k => if k % m = u then vals.getD (k / m) (F k) else F k

/-- Loop body of `kf_bfly2` (`kiss_fft.c:32-41`). -/
noncomputable def body2 (tw : Nat → ℂ) (fstride m u : Nat) (F : Nat → ℂ) : List ℂ :=
  let t := F (u + m) * tw (u * fstride)
  [F u + t, F u - t]

/-- Loop body of `kf_bfly4` (`kiss_fft.c:59-88`). -/
noncomputable def body4 (tw : Nat → ℂ) (inverse : Bool) (fstride m u : Nat) (F : Nat → ℂ) : List ℂ :=
  let s0 := F (u + m) * tw (u * fstride)
  let s1 := F (u + 2 * m) * tw (u * (fstride * 2))
  let s2 := F (u + 3 * m) * tw (u * (fstride * 3))
  let s5 := F u - s1
  let f0 := F u + s1
  let s3 := s0 + s2
  let s4 := s0 - s2
  if inverse then
    [f0 + s3, ⟨s5.re - s4.im, s5.im + s4.re⟩, f0 - s3, ⟨s5.re + s4.im, s5.im - s4.re⟩]
  else
    [f0 + s3, ⟨s5.re + s4.im, s5.im - s4.re⟩, f0 - s3, ⟨s5.re - s4.im, s5.im + s4.re⟩]

/-- Loop body of `kf_bfly3` (`kiss_fft.c:104, 108-133`). -/
noncomputable def body3 (tw : Nat → ℂ) (fstride m u : Nat) (F : Nat → ℂ) : List ℂ :=
  let epi3 := tw (fstride * m)
  let s1 := F (u + m) * tw (u * fstride)
  let s2 := F (u + 2 * m) * tw (u * (fstride * 2))
  let s3 := s1 + s2
  let s0 := s1 - s2
  let f1 : ℂ := ⟨(F u).re - s3.re * 0.5, (F u).im - s3.im * 0.5⟩
  let s0' : ℂ := ⟨s0.re * epi3.im, s0.im * epi3.im⟩
  [F u + s3, ⟨f1.re - s0'.im, f1.im + s0'.re⟩, ⟨f1.re + s0'.im, f1.im - s0'.re⟩]

/-- Loop body of `kf_bfly5` (`kiss_fft.c:149-150, 159-194`). -/
noncomputable def body5 (tw : Nat → ℂ) (fstride m u : Nat) (F : Nat → ℂ) : List ℂ :=
  let ya := tw (fstride * m)
  let yb := tw (fstride * 2 * m)
  let s0 := F u
  let s1 := F (u + m) * tw (u * fstride)
  let s2 := F (u + 2 * m) * tw (2 * u * fstride)
  let s3 := F (u + 3 * m) * tw (3 * u * fstride)
  let s4 := F (u + 4 * m) * tw (4 * u * fstride)
  let s7 := s1 + s4
  let s10 := s1 - s4
  let s8 := s2 + s3
  let s9 := s2 - s3
  let f0 : ℂ := ⟨(F u).re + (s7.re + s8.re), (F u).im + (s7.im + s8.im)⟩
  let s5 : ℂ := ⟨s0.re + s7.re * ya.re + s8.re * yb.re, s0.im + s7.im * ya.re + s8.im * yb.re⟩
  let s6 : ℂ := ⟨s10.im * ya.im + s9.im * yb.im, -(s10.re * ya.im) - s9.re * yb.im⟩
  let s11 : ℂ := ⟨s0.re + s7.re * yb.re + s8.re * ya.re, s0.im + s7.im * yb.re + s8.im * ya.re⟩
  let s12 : ℂ := ⟨-(s10.im * yb.im) + s9.im * ya.im, s10.re * yb.im - s9.re * ya.im⟩
  [f0, s5 - s6, s11 + s12, s11 - s12, s5 + s6]

/-- The innermost loop of `kf_bfly_generic` (`kiss_fft.c:223-231`): `cnt` further runs beginning with `q`. -/
noncomputable def genericSum (tw : Nat → ℂ) (nfft fstride k : Nat) (scratch : Nat → ℂ) : (cnt q twidx : Nat) → ℂ → ℂ
  | 0, _, _, acc => acc
  | cnt + 1, q, twidx, acc =>
    let t := twidx + fstride * k
    let t' := if nfft ≤ t then t - nfft else t
    genericSum tw nfft fstride k scratch cnt (q + 1) t' (acc + scratch q * tw t')

/-- Loop body of `kf_bfly_generic` (`kiss_fft.c:213-233`). -/
noncomputable def bodyGeneric (tw : Nat → ℂ) (nfft fstride m p u : Nat) (F : Nat → ℂ) : List ℂ :=
  let scratch := fun q1 => F (u + q1 * m)
  (List.range p).map fun q1 => genericSum tw nfft fstride (u + q1 * m) scratch (p - 1) 1 0 (scratch 0)

/-- The choice of the butterfly in `kf_work` (`kiss_fft.c:298-304`), one run of its loop. -/
noncomputable def body (tw : Nat → ℂ) (inverse : Bool) (nfft fstride p m u : Nat) (F : Nat → ℂ) : List ℂ :=
  if p = 2 then body2 tw fstride m u F
  else if p = 3 then body3 tw fstride m u F
  else if p = 4 then body4 tw inverse fstride m u F
  else if p = 5 then body5 tw fstride m u F
  else bodyGeneric tw nfft fstride m p u F

/-- The loops of the butterflies: `u = 0, …, m-1`, in place. -/
noncomputable def butterfly (tw : Nat → ℂ) (inverse : Bool) (nfft fstride p m : Nat) (F : Nat → ℂ) : Nat → ℂ :=
  (List.range m).foldl (fun F u => put F m u (body tw inverse nfft fstride p m u F)) F

/-- `kf_work( Fout, f, fstride, 1, factors, st )` (`kiss_fft.c:237-305`); the result is what has been written to `Fout`. The
list of factors is never empty. -/
noncomputable def work (tw : Nat → ℂ) (inverse : Bool) (nfft : Nat) : List (Nat × Nat) → (fstride : Nat) → (Nat → ℂ) → Nat → ℂ
  | [], _, _ => fun _ => 0
  | (p, m) :: factors, fstride, f =>
    let F : Nat → ℂ :=
      if m = 1 then fun k => f (k * fstride)
      else fun k => work tw inverse nfft factors (fstride * p) (fun j => f (k / m * fstride + j)) (k % m)
    butterfly tw inverse nfft fstride p m F

/-- `kiss_fft( cfg, fin, fout )` for different buffers (`kiss_fft.c:371-388`). -/
noncomputable def fft (tw : Nat → ℂ) (inverse : Bool) (nfft : Nat) (f : Nat → ℂ) : Nat → ℂ := work tw inverse nfft (factor nfft) 1 f

/-- One run of the loop of `kiss_fftr` (`kiss_fftr.c:103-120`). -/
noncomputable def fftrStep (stw : Nat → ℂ) (ncfft : Nat) (tmp : Nat → ℂ) (freq : Nat → ℂ) (k : Nat) : Nat → ℂ :=
  let fpk := tmp k
  let fpnk : ℂ := ⟨(tmp (ncfft - k)).re, -(tmp (ncfft - k)).im⟩
  let f1k := fpk + fpnk
  let f2k := fpk - fpnk
  let t := f2k * stw (k - 1)
  let freq1 := Function.update freq k ⟨(f1k.re + t.re) * 0.5, (f1k.im + t.im) * 0.5⟩
  Function.update freq1 (ncfft - k) ⟨(f1k.re - t.re) * 0.5, (t.im - f1k.im) * 0.5⟩

/-- `kiss_fftr( st, timedata, freqdata )` (`kiss_fftr.c:68-121`). Pairs of successive samples are read as complex numbers. `freq`
is the content of `freqdata` before the call. -/
noncomputable def fftr (tw stw : Nat → ℂ) (ncfft : Nat) (timedata : Nat → ℝ) (freq : Nat → ℂ) : Nat → ℂ :=
  let tmp := fft tw false ncfft fun n => ⟨timedata (2 * n), timedata (2 * n + 1)⟩
  let tdc := tmp 0
  let freq1 := Function.update freq 0 ⟨tdc.re + tdc.im, 0⟩
  let freq2 := Function.update freq1 ncfft ⟨tdc.re - tdc.im, 0⟩
  (List.range (ncfft / 2)).foldl (fun freq k => fftrStep stw ncfft tmp freq (k + 1)) freq2

/-- One run of the loop of `kiss_fftri` (`kiss_fftr.c:139-160`). -/
noncomputable def fftriStep (stw : Nat → ℂ) (ncfft : Nat) (freq : Nat → ℂ) (tmp : Nat → ℂ) (k : Nat) : Nat → ℂ :=
  let fk := freq k
  let fnkc : ℂ := ⟨(freq (ncfft - k)).re, -(freq (ncfft - k)).im⟩
  let fek := fk + fnkc
  let t := fk - fnkc
  let fok := t * stw (k - 1)
  let tmp1 := Function.update tmp k (fek + fok)
  let d := fek - fok
  Function.update tmp1 (ncfft - k) ⟨d.re, d.im * -1⟩

/-- `kiss_fftri( st, freqdata, timedata )` (`kiss_fftr.c:123-162`). Complex numbers are written as pairs of successive samples.
`tmp` is the content of the buffer of the plan before the call. -/
noncomputable def fftri (tw stw : Nat → ℂ) (ncfft : Nat) (freq : Nat → ℂ) (tmp : Nat → ℂ) : Nat → ℝ :=
  let tmp0 := Function.update tmp 0 ⟨(freq 0).re + (freq ncfft).re, (freq 0).re - (freq ncfft).re⟩
  let tmp1 := (List.range (ncfft / 2)).foldl (fun tmp k => fftriStep stw ncfft freq tmp (k + 1)) tmp0
  let z := fft tw true ncfft tmp1
  fun n => if n % 2 = 0 then (z (n / 2)).re else (z (n / 2)).im

/-- `KissFftWrapper` of size `2 * L` (`kiss_fft_wrapper_float.cpp:24-69`, scaling factors `kiss_fft_wrapper.hpp:39-41`). The
tables are those of the two plans; `twF`, `twI`, `sF`, `sI` also say what the memory behind them contains. `freq` and `tmp` are
the contents of the output and of the buffer of the inverse plan before the calls. -/
noncomputable def wrapper (L : Nat) (twF twI sF sI : Nat → ℂ) (freq tmp : Nat → ℂ) : Convolver.Fft ℝ ℂ where
  fwd x := fftr twF sF L x freq
  inv X := fftri twI sI L X tmp
  fs := 1
  is := 1

end Visr.KissFft
