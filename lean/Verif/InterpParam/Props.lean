import Verif.InterpParam.Model
import Mathlib.Tactic.Common

/-!
# C42: interpolation parameters keep indices and weights in step

The specification is an abstract object with a fixed number of interpolants and two total functions for the
indices and the weights.
-/

namespace Visr.InterpParam

/-! ## Specification -/

/-- An abstract parameter: an id, a number of interpolants, and one index and one weight for each. -/
structure Abs (W : Type) where
  id : Nat
  number : Nat
  index : Nat → Nat
  weight : Nat → W

/-- What a setter should do. -/
def Abs.step {W : Type} (a : Abs W) : Op W → Abs W × Outcome Unit
  | .setId newId => ({ a with id := newId }, .ok ())
  | .setIndex i v =>
    if i < a.number then ({ a with index := fun k => if k = i then v else a.index k }, .ok ())
    else (a, .throw .outOfRange)
  | .setIndices l =>
    if l.length = a.number then ({ a with index := fun k => (l[k]?).getD 0 }, .ok ())
    else (a, .throw .invalidArgument)
  | .setWeight i w =>
    if i < a.number then ({ a with weight := fun k => if k = i then w else a.weight k }, .ok ())
    else (a, .throw .outOfRange)
  | .setWeights l =>
    if l.length = a.number then
      ({ a with weight := fun k => match l[k]? with | some w => w | none => a.weight k }, .ok ())
    else (a, .throw .invalidArgument)

/-- The concrete parameter shows the abstract one through its interface. -/
structure Shows {W : Type} (p : Param W) (a : Abs W) : Prop where
  id : p.id = a.id
  indices : p.indices.length = a.number
  weights : p.weights.length = a.number
  number : numberOfInterpolants p = a.number
  index : ∀ i, index p i = if i < a.number then .ok (a.index i) else .throw .outOfRange
  weight : ∀ i, weight p i = if i < a.number then .ok (a.weight i) else .throw .outOfRange

/-! ## Helpers -/

theorem vecAt_eq {α : Type} (l : List α) (i n : Nat) (f : Nat → α) (h : l.length = n)
    (hf : ∀ k (hk : k < l.length), l[k] = f k) :
    vecAt l i = if i < n then .ok (f i) else .throw .outOfRange := by
  unfold vecAt
  by_cases hi : i < n
  · rw [if_pos hi, List.getElem?_eq_getElem (by omega)]
    simp [hf]
  · rw [if_neg hi, List.getElem?_eq_none (by omega)]

theorem vecAt_get {α : Type} {l : List α} {n : Nat} {f : Nat → α} (h : l.length = n)
    (hv : ∀ i, vecAt l i = if i < n then Outcome.ok (f i) else .throw .outOfRange) :
    ∀ k (hk : k < l.length), l[k] = f k := by
  intro k hk
  have := hv k
  unfold vecAt at this
  rw [if_pos (by omega), List.getElem?_eq_getElem hk] at this
  simpa using this

theorem shows_of {W : Type} {p : Param W} {a : Abs W} (h0 : p.id = a.id) (h1 : p.indices.length = a.number)
    (h2 : p.weights.length = a.number) (h3 : ∀ k (hk : k < p.indices.length), p.indices[k] = a.index k)
    (h4 : ∀ k (hk : k < p.weights.length), p.weights[k] = a.weight k) : Shows p a :=
  ⟨h0, h1, h2, h2, fun i => vecAt_eq _ i _ _ h1 h3, fun i => vecAt_eq _ i _ _ h2 h4⟩

theorem shows_step {W : Type} {p : Param W} {a : Abs W} (h : Shows p a) (op : Op W) :
    Shows (step p op).1 (a.step op).1 ∧ (step p op).2 = (a.step op).2 := by
  have gi := vecAt_get h.indices h.index
  have gw := vecAt_get h.weights h.weight
  have l1 := h.indices
  have l2 := h.weights
  have l3 := h.number
  cases op with
  | setId n => exact ⟨shows_of rfl h.indices h.weights gi gw, rfl⟩
  | setIndex i v =>
    simp only [step, Abs.step, l1]
    split_ifs with hi
    · refine ⟨shows_of h.id (by simpa using l1) l2 ?_ gw, rfl⟩
      intro k hk
      rw [List.getElem_set]
      have hk' : k < p.indices.length := by simpa using hk
      by_cases he : i = k
      · simp [he]
      · rw [if_neg he]; simp only [if_neg (Ne.symm he)]; exact gi k hk'
    · exact ⟨h, rfl⟩
  | setIndices l =>
    simp only [step, Abs.step, l3]
    by_cases hl : l.length = a.number
    · rw [if_neg (by simpa using hl), if_pos hl]
      refine ⟨shows_of h.id hl l2 ?_ gw, rfl⟩
      intro k hk
      simp [hk]
    · rw [if_pos hl, if_neg hl]; exact ⟨h, rfl⟩
  | setWeight i v =>
    simp only [step, Abs.step, l2]
    split_ifs with hi
    · refine ⟨shows_of h.id l1 (by simpa using l2) gi ?_, rfl⟩
      intro k hk
      rw [List.getElem_set]
      have hk' : k < p.weights.length := by simpa using hk
      by_cases he : i = k
      · simp [he]
      · rw [if_neg he]; simp only [if_neg (Ne.symm he)]; exact gw k hk'
    · exact ⟨h, rfl⟩
  | setWeights l =>
    simp only [step, Abs.step, l3]
    by_cases hl : l.length = a.number
    · rw [if_neg (by simpa using hl), if_pos hl]
      refine ⟨shows_of h.id l1 hl gi ?_, rfl⟩
      intro k hk
      simp [hk]
    · rw [if_pos hl, if_neg hl]; exact ⟨h, rfl⟩

theorem shows_run {W : Type} (ops : List (Op W)) : ∀ {p : Param W} {a : Abs W}, Shows p a →
    Shows (final step p ops) (final Abs.step a ops) ∧ (run step p ops).2 = (run Abs.step a ops).2 := by
  induction ops with
  | nil => intro p a h; exact ⟨h, rfl⟩
  | cons op ops ih =>
    intro p a h
    obtain ⟨h1, h2⟩ := shows_step h op
    obtain ⟨h3, h4⟩ := ih h1
    refine ⟨by simpa using h3, ?_⟩
    simp only [run, h2, h4]

/-! ## Theorems -/

/-- Parameters made from a number of interpolants have that many indices, all invalid, and that many zero
weights; afterwards every history of setter calls has the specified effects and results. -/
theorem number_history {W : Type} (zero : W) (id n : Nat) (ops : List (Op W)) :
    let a : Abs W := ⟨id, n, fun _ => cInvalidIndex, fun _ => zero⟩
    Shows (final step (ofNumber zero id n) ops) (final Abs.step a ops) ∧
    (run step (ofNumber zero id n) ops).2 = (run Abs.step a ops).2 := by
  apply shows_run
  exact shows_of rfl (by simp [ofNumber]) (by simp [ofNumber]) (by simp [ofNumber]) (by simp [ofNumber])

example : (run step (ofNumber (0 : Int) 7 2) [.setIndex 1 5, .setWeight 2 9, .setWeights [3, 4], .setIndices [1]]) =
    (⟨7, [cInvalidIndex, 5], [3, 4]⟩,
     [.ok (), .throw .outOfRange, .ok (), .throw .invalidArgument]) := by decide

/-- Construction from containers throws `std::invalid_argument` exactly if the numbers of indices and weights
differ. -/
theorem construct_accepts {W : Type} (id : Nat) (indices : List Nat) (weights : List W) :
    (indices.length = weights.length → ofLists id indices weights = .ok ⟨id, indices, weights⟩) ∧
    (indices.length ≠ weights.length → ofLists id indices weights = .throw .invalidArgument) := by
  unfold ofLists
  constructor <;> intro h <;> simp [h]

/-- Parameters made from containers show the elements of these containers; afterwards every history of setter
calls has the specified effects and results. -/
theorem lists_history {W : Type} (id : Nat) (indices : List Nat) (weights : List W) (p : Param W)
    (hp : ofLists id indices weights = .ok p) (w : Nat → W)
    (hw : ∀ k (hk : k < weights.length), weights[k] = w k) (ops : List (Op W)) :
    let a : Abs W := ⟨id, indices.length, fun k => (indices[k]?).getD 0, w⟩
    Shows (final step p ops) (final Abs.step a ops) ∧ (run step p ops).2 = (run Abs.step a ops).2 := by
  apply shows_run
  unfold ofLists at hp
  split_ifs at hp with h
  injection hp with hp
  subst hp
  exact shows_of rfl rfl (by simp only; omega) (by intro k hk; simp [hk]) hw

example : ofLists 3 [10, 11] [1, 2] = .ok (⟨3, [10, 11], [1, 2]⟩ : Param Nat) := by decide
example : ofLists 3 [10] ([] : List Nat) = .throw .invalidArgument := by decide

/-- Reachable objects: made by one of the constructors, changed by setters, or assigned from another reachable
object (copy construction and assignment are the defaults of the compiler). -/
inductive Reachable {W : Type} (zero : W) : Param W → Prop
  | number (id n : Nat) : Reachable zero (ofNumber zero id n)
  | lists (id : Nat) (indices : List Nat) (weights : List W) (p : Param W)
      (h : ofLists id indices weights = .ok p) : Reachable zero p
  | setter (p : Param W) (op : Op W) (h : Reachable zero p) : Reachable zero (step p op).1

/-- Every reachable object has as many indices as weights, both as many as `numberOfInterpolants()`. -/
theorem counts_equal {W : Type} (zero : W) (p : Param W) (h : Reachable zero p) :
    p.indices.length = numberOfInterpolants p ∧ p.weights.length = numberOfInterpolants p := by
  refine ⟨?_, rfl⟩
  induction h with
  | number id n => simp [ofNumber, numberOfInterpolants]
  | lists id indices weights p h =>
    unfold ofLists at h
    split_ifs at h with hl
    injection h with h
    subst h
    simpa [numberOfInterpolants] using hl
  | setter p op h ih =>
    have hw := h
    cases op <;> simp only [step, numberOfInterpolants] at ih ⊢ <;> (try split_ifs) <;>
      simp_all

/-- No setter changes the number of interpolants, and a failing setter changes nothing. -/
theorem setter_keeps_number {W : Type} (p : Param W) (op : Op W) :
    numberOfInterpolants (step p op).1 = numberOfInterpolants p ∧
    ((step p op).2 ≠ .ok () → (step p op).1 = p) := by
  cases op <;> simp only [step, numberOfInterpolants] <;> (try split_ifs) <;> simp_all

/-- Finding: when two ports are connected their configurations are not compared, so a sender with one number of
interpolants is connected to a receiver with another; their parameter objects differ in size. -/
theorem config_not_compared (m n : Nat) (h : m ≠ n) :
    Config.compare ⟨m⟩ ⟨n⟩ = true ∧ Config.compareTyped ⟨m⟩ ⟨n⟩ = false ∧
    numberOfInterpolants (ofConfig (0 : Int) ⟨m⟩) ≠ numberOfInterpolants (ofConfig (0 : Int) ⟨n⟩) := by
  refine ⟨rfl, ?_, ?_⟩
  · simp [Config.compareTyped]; exact fun e => h e.symm
  · simpa [ofConfig, ofNumber, numberOfInterpolants] using h

end Visr.InterpParam
