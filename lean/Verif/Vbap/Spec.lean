import Verif.Rotation.Model
import Mathlib.Algebra.BigOperators.Group.Finset.Basic

/-!
# What VBAP gains should be
-/

namespace Visr.Vbap

open Visr.Rotation

/-- The unit vector from the listener at `p` to the loudspeaker at `l`. -/
noncomputable def direction (p l : Vec ℝ) : Vec ℝ := (l.sub p).scale (1 / (l.sub p).norm)

/-- `s = a u + b v + c w`. -/
def Combination (s : Vec ℝ) (a b c : ℝ) (u v w : Vec ℝ) : Prop :=
  s.x = a * u.x + b * v.x + c * w.x ∧ s.y = a * u.y + b * v.y + c * w.y ∧
    s.z = a * u.z + b * v.z + c * w.z

/-- The triple product of three vectors, zero iff they lie in a plane. -/
def triple (u v w : Vec ℝ) : ℝ :=
  u.x * (v.y * w.z - v.z * w.y) + u.y * (v.z * w.x - v.x * w.z) + u.z * (v.x * w.y - v.y * w.x)

/-- The gain-weighted directions of the loudspeakers sum to `s`. -/
def SumsTo (positions : List (Vec ℝ)) (p : Vec ℝ) (g : ℕ → ℝ) (s : Vec ℝ) : Prop :=
  ∑ i ∈ Finset.range positions.length, g i * (direction p (positions.getD i ⟨0, 0, 0⟩)).x = s.x ∧
  ∑ i ∈ Finset.range positions.length, g i * (direction p (positions.getD i ⟨0, 0, 0⟩)).y = s.y ∧
  ∑ i ∈ Finset.range positions.length, g i * (direction p (positions.getD i ⟨0, 0, 0⟩)).z = s.z

/-- The three loudspeakers of a triplet, seen from `p`, are not in a plane with `p`. -/
def Proper (positions : List (Vec ℝ)) (p : Vec ℝ) (t : ℕ × ℕ × ℕ) : Prop :=
  t.1 < positions.length ∧ t.2.1 < positions.length ∧ t.2.2 < positions.length ∧
    triple (direction p (positions.getD t.1 ⟨0, 0, 0⟩)) (direction p (positions.getD t.2.1 ⟨0, 0, 0⟩))
      (direction p (positions.getD t.2.2 ⟨0, 0, 0⟩)) ≠ 0

/-- The vector `s` lies in the cone which is spanned by the loudspeakers of the triplet, seen from `p`. -/
def InCone (positions : List (Vec ℝ)) (p : Vec ℝ) (t : ℕ × ℕ × ℕ) (s : Vec ℝ) : Prop :=
  ∃ a b c : ℝ, 0 ≤ a ∧ 0 ≤ b ∧ 0 ≤ c ∧ Combination s a b c
    (direction p (positions.getD t.1 ⟨0, 0, 0⟩)) (direction p (positions.getD t.2.1 ⟨0, 0, 0⟩))
    (direction p (positions.getD t.2.2 ⟨0, 0, 0⟩))

/-- The two loudspeakers of a pair are at the height of the listener and not in a line with it. -/
def Proper2 (positions : List (Vec ℝ)) (p : Vec ℝ) (t : ℕ × ℕ × ℕ) : Prop :=
  t.1 < positions.length ∧ t.2.1 < positions.length ∧
    (positions.getD t.1 ⟨0, 0, 0⟩).z = p.z ∧ (positions.getD t.2.1 ⟨0, 0, 0⟩).z = p.z ∧
    (direction p (positions.getD t.1 ⟨0, 0, 0⟩)).x * (direction p (positions.getD t.2.1 ⟨0, 0, 0⟩)).y -
      (direction p (positions.getD t.1 ⟨0, 0, 0⟩)).y * (direction p (positions.getD t.2.1 ⟨0, 0, 0⟩)).x ≠ 0

/-- The vector `s` lies in the sector between the two loudspeakers of the pair, seen from `p`. -/
def InSector (positions : List (Vec ℝ)) (p : Vec ℝ) (t : ℕ × ℕ × ℕ) (s : Vec ℝ) : Prop :=
  ∃ a b : ℝ, 0 ≤ a ∧ 0 ≤ b ∧
    s.x = a * (direction p (positions.getD t.1 ⟨0, 0, 0⟩)).x + b * (direction p (positions.getD t.2.1 ⟨0, 0, 0⟩)).x ∧
    s.y = a * (direction p (positions.getD t.1 ⟨0, 0, 0⟩)).y + b * (direction p (positions.getD t.2.1 ⟨0, 0, 0⟩)).y

/-- Sum of the squares. -/
def power (g : List ℝ) : ℝ := (g.map fun x => x ^ 2).sum

end Visr.Vbap
