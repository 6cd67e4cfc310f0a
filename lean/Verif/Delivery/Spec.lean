import Verif.Delivery.Model
import Verif.Reverb.Spec
import Verif.LateFilter.Spec

/-!
# Specification of C65: delivery of late reverberation filters
-/

namespace Visr.Delivery
open Visr
open Visr.Reverb (Late Obj)

/-- The last filter sent for a channel. -/
def lastFilter (sent : List (ℕ × List ℝ)) (ch : ℕ) : Option (List ℝ) := (sent.reverse.find? fun f => f.1 == ch).map Prod.snd

/-- The filter in use on channel `ch` is that of parameters equal to `late` up to `limit`. -/
def InUse (align len : ℕ) (fs : ℝ) (raw : ℕ → ℕ → ℝ) (limit : ℝ) (sent : List (ℕ × List ℝ)) (ch : ℕ) (late : Late) : Prop :=
  ∃ p d a, Reverb.Close limit p late ∧ LateFilter.Fits len fs p d a ∧
    lastFilter sent ch = some ((List.range len).map (LateFilter.tail align fs raw ch p d a))

/-- All rendering channels use the filter of the object with that place in the scene, or of silence if there is none. -/
def UpToDate (align len n : ℕ) (fs : ℝ) (raw : ℕ → ℕ → ℝ) (limit : ℝ) (sent : List (ℕ × List ℝ)) (scene : List Obj)
    (place : ℕ → ℕ) : Prop :=
  (∀ o ∈ Reverb.reverbObjects scene, InUse align len fs raw limit sent (place o.id) o.late) ∧
  ∀ ch < n, (∀ o ∈ Reverb.reverbObjects scene, place o.id ≠ ch) → InUse align len fs raw limit sent ch Late.silent

/-- A scene with distinct ids and late reverberation parameters that fit into filters of length `len`. -/
def Suitable (len : ℕ) (fs : ℝ) (scene : List Obj) : Prop :=
  Reverb.ValidIds scene ∧ ∀ o ∈ scene, ∃ d a, LateFilter.Fits len fs o.late d a

end Visr.Delivery
