import Verif.VectorFn.Lemmas
import Verif.Efl.PropsAligned
import Mathlib.Data.Rat.Defs
import Mathlib.Algebra.Field.Rat

/-!
# C83: the vector functions
-/

namespace Visr.VectorFn

variable [Field K]

namespace Demo

/-- Three arrays of four elements. -/
def heap : Heap ℚ
  | 0 => [1, 2, 3, 4]
  | 1 => [10, 20, 30, 40]
  | 2 => [5, 5, 5, 5]
  | _ => []

/-- The arrays are at multiples of 32 bytes; elements have four bytes. -/
def layout : Layout := ⟨fun o => BitVec.ofNat 64 (32 * o), 4⟩

/-- The elements of the first three arrays after a call. -/
def show3 (x : Outcome (Code × Heap ℚ)) : Outcome (Code × List (List ℚ)) :=
  match x with
  | .ok (c, h) => .ok (c, [h 0, h 1, h 2])
  | .throw e => .throw e
  | .ub => .ub

end Demo

/-! ### Results -/

/-- **C83.** Every function stores the values of its formula in the first `n` elements behind the output pointer, whatever `n`
is and also if the output is one of the inputs, and changes nothing else. (Missing: the formula for `subtract` and
`subtractConstant` is the subtrahend minus the minuend, see `subtract_reversed`.) -/
theorem computed_partial (op : Op K) (L : Layout) (debug : Bool) (h : Heap K) (ins : List Ptr) (out : Ptr) (n : Nat) (alignment : BitVec 64)
    (hlen : ins.length = op.arity) (hin : ∀ p ∈ ins, InBounds h p n) (hout : InBounds h out n)
    (hs : ∀ p ∈ ins, SameOrDisjoint n p out) (ha : ∀ p ∈ out :: ins, aligned L alignment p = true) :
    ∃ h', op.call L debug h ins out n alignment = .ok (.noError, h') ∧
      Written h h' out n fun i =>
        formula op n i ((ins.map (cell h · i)).getD 0 0) ((ins.map (cell h · i)).getD 1 0) ((ins.map (cell h · i)).getD 2 0)
          (cell h out i) := by
  have h0 := ha out (by simp)
  have ho := sameOrDisjoint_self n out
  match op, ins, hlen with
  | .zero, [], _ => exact checked_run _ _ _ _ _ _ _ _ _ (by simpa using h0) (by simp) hout (by simp) (by simp [formula])
  | .fill v, [], _ => exact checked_run _ _ _ _ _ _ _ _ _ (by simpa using h0) (by simp) hout (by simp) (by simp [formula])
  | .ramp s e si ei, [], _ =>
    exact checked_run _ _ _ _ _ _ _ _ _ (by simpa using h0) (by simp) hout (by simp)
      (fun i hi => by simp only [formula]; exact rampValue_eq n s e si ei i (by omega))
  | .copy, [a], _ =>
    exact checked_run _ _ _ _ _ _ _ _ _ (by simp_all) (by simp_all) hout (by simp_all) (by intros; simp [formula])
  | .add, [a, b], _ =>
    exact checked_run _ _ _ _ _ _ _ _ _ (by simp_all) (by simp_all) hout (by simp_all) (by intros; simp [formula])
  | .addInplace, [a], _ =>
    exact checked_run _ _ _ _ _ _ _ _ _ (by simp_all) (by simp_all) hout (by simp_all) (by intros; simp [formula]; ring)
  | .addConstant c, [a], _ =>
    exact checked_run _ _ _ _ _ _ _ _ _ (by simp_all) (by simp_all) hout (by simp_all) (by intros; simp [formula])
  | .addConstantInplace c, [], _ =>
    exact checked_run _ _ _ _ _ _ _ _ _ (by simp_all) (by simp_all) hout (by simp_all) (by intros; simp [formula])
  | .subtract, [a, b], _ =>
    exact checked_run _ _ _ _ _ _ _ _ _ (by simp_all) (by simp_all) hout (by simp_all) (by intros; simp [formula])
  | .subtractInplace, [a], _ =>
    exact checked_run _ _ _ _ _ _ _ _ _ (by simp_all) (by simp_all) hout (by simp_all) (by intros; simp [formula])
  | .subtractConstant c, [a], _ =>
    exact checked_run _ _ _ _ _ _ _ _ _ (by simp_all) (by simp_all) hout (by simp_all) (by intros; simp [formula])
  | .subtractConstantInplace c, [], _ =>
    exact checked_run _ _ _ _ _ _ _ _ _ (by simp_all) (by simp_all) hout (by simp_all) (by intros; simp [formula])
  | .multiply, [a, b], _ =>
    exact checked_run _ _ _ _ _ _ _ _ _ (by simp_all) (by simp_all) hout (by simp_all) (by intros; simp [formula])
  | .multiplyInplace, [a], _ =>
    exact checked_run _ _ _ _ _ _ _ _ _ (by simp_all) (by simp_all) hout (by simp_all) (by intros; simp [formula]; ring)
  | .multiplyConstant c, [a], _ =>
    exact checked_run _ _ _ _ _ _ _ _ _ (by simp_all) (by simp_all) hout (by simp_all) (by intros; simp [formula])
  | .multiplyConstantInplace c, [], _ =>
    exact checked_run _ _ _ _ _ _ _ _ _ (by simp_all) (by simp_all) hout (by simp_all) (by intros; simp [formula]; ring)
  | .multiplyAdd, [a, b, c], _ =>
    exact checked_run _ _ _ _ _ _ _ _ _ (by simp_all) (by simp_all) hout (by simp_all) (by intros; simp [formula]; ring)
  | .multiplyAddInplace, [a, b], _ =>
    exact checked_run _ _ _ _ _ _ _ _ _ (by simp_all) (by simp_all) hout (by simp_all) (by intros; simp [formula]; ring)
  | .multiplyConstantAdd k, [a, b], _ =>
    exact checked_run _ _ _ _ _ _ _ _ _ (by simp_all) (by simp_all) hout (by simp_all) (by intros; simp [formula]; ring)
  | .multiplyConstantAddInplace k, [a], _ =>
    exact checked_run _ _ _ _ _ _ _ _ _ (by simp_all) (by simp_all) hout (by simp_all) (by intros; simp [formula]; ring)
  | .rampScaling g r true, [a, b], _ =>
    simp only [Op.call, vectorRampScaling, if_true]
    exact checked_run _ _ _ _ _ _ _ _ _ (by cases debug <;> simp_all) (by simp_all) hout (by simp_all)
      (by intros; simp [formula])
  | .rampScaling g r false, [a, b], _ =>
    simp only [Op.call, vectorRampScaling, Bool.false_eq_true, if_false]
    exact checked_run _ _ _ _ _ _ _ _ _ (by cases debug <;> simp_all) (by simp_all) hout (by simp_all)
      (by intros; simp [formula])

example : ∃ h', Op.multiplyAdd.call Demo.layout true Demo.heap [⟨0, 0⟩, ⟨1, 0⟩, ⟨2, 1⟩] ⟨0, 0⟩ 3 0 = .ok (.noError, h') ∧
    Written Demo.heap h' ⟨0, 0⟩ 3 fun i => cell Demo.heap ⟨0, 0⟩ i * cell Demo.heap ⟨1, 0⟩ i + cell Demo.heap ⟨2, 1⟩ i := by
  have := computed_partial Op.multiplyAdd Demo.layout true Demo.heap [⟨0, 0⟩, ⟨1, 0⟩, ⟨2, 1⟩] ⟨0, 0⟩ 3 0 rfl
    (by simp [InBounds, Demo.heap]) (by simp [InBounds, Demo.heap]) (by simp [SameOrDisjoint]) (by decide +kernel)
  simpa [formula] using this

/-- A pointer that is not a multiple of the given alignment is reported, and nothing is changed; `vectorRampScaling` does so in
debug builds only. -/
theorem misaligned_rejected (op : Op K) (L : Layout) (debug : Bool) (h : Heap K) (ins : List Ptr) (out : Ptr) (n : Nat)
    (alignment : BitVec 64) (hlen : ins.length = op.arity) (p : Ptr) (hp : p ∈ out :: ins) (ha : aligned L alignment p = false)
    (hd : debug = true ∨ ∀ g r acc, op ≠ .rampScaling g r acc) :
    op.call L debug h ins out n alignment = .ok (.alignmentError, h) := by
  have key : ∀ (ptrs : List Ptr) (body : Outcome (Heap K)), (∀ q, q ∈ out :: ins → q ∈ ptrs) →
      checked L alignment ptrs h body = .ok (.alignmentError, h) :=
    fun ptrs body hq => checked_misaligned L alignment ptrs h body p (hq p hp) ha
  match op, ins, hlen with
  | .zero, [], _ | .fill v, [], _ | .ramp s e si ei, [], _ | .copy, [a], _ | .add, [a, b], _ | .addInplace, [a], _
  | .addConstant c, [a], _ | .addConstantInplace c, [], _ | .subtract, [a, b], _ | .subtractInplace, [a], _
  | .subtractConstant c, [a], _ | .subtractConstantInplace c, [], _ | .multiply, [a, b], _ | .multiplyInplace, [a], _
  | .multiplyConstant c, [a], _ | .multiplyConstantInplace c, [], _ | .multiplyAdd, [a, b, c], _
  | .multiplyAddInplace, [a, b], _ | .multiplyConstantAdd k, [a, b], _ | .multiplyConstantAddInplace k, [a], _ =>
    all_goals exact key _ _ (by intro q hq; simp at hq ⊢; tauto)
  | .rampScaling g r acc, [a, b], _ =>
    rcases hd with rfl | hd
    · exact key _ _ (by intro q hq; simp at hq ⊢; tauto)
    · exact absurd rfl (hd g r acc)

example : Op.add.call Demo.layout true Demo.heap [⟨0, 0⟩, ⟨1, 1⟩] ⟨2, 0⟩ 2 4 = .ok (.alignmentError, Demo.heap) :=
  misaligned_rejected Op.add _ _ _ _ _ _ _ rfl ⟨1, 1⟩ (by simp) (by decide +kernel) (.inl rfl)

/-- A pointer meets an alignment of `2 ^ k` elements iff its address is a multiple of the size of as many elements; without
requirement (zero), every pointer does. -/
theorem aligned_iff (L : Layout) (alignment : BitVec 64) (p : Ptr) (j : Nat) (hj : L.size.toNat = 2 ^ j)
    (hfit : alignment.toNat * L.size.toNat < 2 ^ 64) :
    aligned L alignment p = true ↔
      alignment.toNat = 0 ∨ ((∃ k, alignment.toNat = 2 ^ k) ∧
        alignment.toNat * L.size.toNat ∣ ((L.address p.obj).toNat + p.idx * L.size.toNat) % 2 ^ 64) := by
  unfold aligned
  rw [Efl.checkAlignment_iff _ _ _ j hj hfit]
  have : (L.address p.obj + BitVec.ofNat 64 p.idx * L.size).toNat =
      ((L.address p.obj).toNat + p.idx * L.size.toNat) % 2 ^ 64 := by
    rw [BitVec.toNat_add, BitVec.toNat_mul, BitVec.toNat_ofNat, Nat.add_mod, Nat.mod_mod, Nat.mul_mod, Nat.mod_mod, ← Nat.mul_mod,
      ← Nat.add_mod]
  rw [this]

example : aligned Demo.layout 4 ⟨1, 4⟩ = true :=
  (aligned_iff _ _ _ 2 rfl (by decide)).2 (.inr ⟨⟨2, rfl⟩, by decide⟩)

/-! ### Strides -/

theorem copyLoop_spec (ss ds : Nat) : ∀ (n : Nat) (src dest : Ptr) (h : Heap K), src.obj ≠ dest.obj →
    (∀ i, i < n → src.idx + i * ss < (h src.obj).length) → (∀ i, i < n → dest.idx + i * ds < (h dest.obj).length) → 0 < ds →
    ∃ h', copyLoop ss ds n src dest h = .ok h' ∧ (∀ o, o ≠ dest.obj → h' o = h o) ∧
      (∀ i, i < n → (h' dest.obj)[dest.idx + i * ds]? = (h src.obj)[src.idx + i * ss]?) ∧
      ∀ x, (∀ i, i < n → x ≠ dest.idx + i * ds) → (h' dest.obj)[x]? = (h dest.obj)[x]?
  | 0, src, dest, h, _, _, _, _ => ⟨h, rfl, fun _ _ => rfl, by omega, fun _ _ => rfl⟩
  | n + 1, src, dest, h, hne, hs, hd, hpos => by
    have hs0 := hs 0 (by omega)
    have hd0 := hd 0 (by omega)
    simp only [Nat.zero_mul, Nat.add_zero] at hs0 hd0
    let h1 := stored h dest 0 (cell h src 0)
    have e1 : h1 src.obj = h src.obj := by simp [h1, stored, hne]
    obtain ⟨h', e, hr1, hr2, hr3⟩ := copyLoop_spec ss ds n { src with idx := src.idx + ss } { dest with idx := dest.idx + ds } h1
      hne
      (fun i hi => by
        have := hs (i + 1) (by omega)
        rw [Nat.add_mul] at this
        show src.idx + ss + i * ss < (h1 src.obj).length
        rw [e1]; omega)
      (fun i hi => by
        have := hd (i + 1) (by omega)
        rw [Nat.add_mul] at this
        show dest.idx + ds + i * ds < (h1 dest.obj).length
        rw [stored_length]; omega) hpos
    refine ⟨h', ?_, ?_, ?_, ?_⟩
    · rw [copyLoop, read_cell h src 0 hs0, Outcome.ok_bind, write_stored h dest 0 _ hd0, Outcome.ok_bind]
      exact e
    · intro o ho
      rw [hr1 o ho]
      simp [h1, stored, ho]
    · intro i hi
      match i with
      | 0 =>
        have := hr3 dest.idx (by
          intro i hi
          show dest.idx ≠ dest.idx + ds + i * ds
          omega)
        rw [Nat.zero_mul, Nat.add_zero, this, stored_get _ _ _ _ hd0, if_pos ⟨rfl, by omega⟩, cell_eq]
        rw [Nat.add_zero, Nat.zero_mul, Nat.add_zero, List.getElem?_eq_getElem hs0]
        rfl
      | i + 1 =>
        have := hr2 i (by omega)
        have e2 : dest.idx + (i + 1) * ds = dest.idx + ds + i * ds := by rw [Nat.add_mul]; omega
        have e3 : src.idx + (i + 1) * ss = src.idx + ss + i * ss := by rw [Nat.add_mul]; omega
        rw [e2, e3, ← e1]
        exact this
    · intro x hx
      have := hr3 x (by
        intro i hi
        show x ≠ dest.idx + ds + i * ds
        have := hx (i + 1) (by omega)
        rw [Nat.add_mul] at this
        omega)
      rw [this, stored_get _ _ _ _ hd0, if_neg]
      rintro ⟨_, h2⟩
      exact hx 0 (by omega) (by omega)

/-- **C83.** `vectorCopyStrided` copies every `srcStride`-th element of the source to every `destStride`-th element of another
array, and changes nothing else. -/
theorem copied_with_strides (L : Layout) (h : Heap K) (src dest : Ptr) (ss ds n : Nat) (alignment : BitVec 64)
    (hne : src.obj ≠ dest.obj) (hs : ∀ i, i < n → src.idx + i * ss < (h src.obj).length)
    (hd : ∀ i, i < n → dest.idx + i * ds < (h dest.obj).length) (hpos : 0 < ds)
    (ha : aligned L alignment src = true) (hb : aligned L alignment dest = true) :
    ∃ h', vectorCopyStrided L h src dest ss ds n alignment = .ok (.noError, h') ∧ (∀ o, o ≠ dest.obj → h' o = h o) ∧
      (∀ i, i < n → (h' dest.obj)[dest.idx + i * ds]? = (h src.obj)[src.idx + i * ss]?) ∧
      ∀ x, (∀ i, i < n → x ≠ dest.idx + i * ds) → (h' dest.obj)[x]? = (h dest.obj)[x]? := by
  obtain ⟨h', e, hr⟩ := copyLoop_spec ss ds n src dest h hne hs hd hpos
  exact ⟨h', checked_ok L alignment _ h _ h' (by simp [ha, hb]) e, hr⟩

example : Demo.show3 (vectorCopyStrided Demo.layout Demo.heap ⟨0, 1⟩ ⟨1, 0⟩ 1 3 2 0) =
    .ok (.noError, [[1, 2, 3, 4], [2, 20, 30, 3], [5, 5, 5, 5]]) := by decide +kernel

example : ∃ h', vectorCopyStrided Demo.layout Demo.heap ⟨0, 1⟩ ⟨1, 0⟩ 1 3 2 0 = .ok (.noError, h') ∧ h' 0 = [1, 2, 3, 4] := by
  obtain ⟨h', e, h1, _⟩ := copied_with_strides Demo.layout Demo.heap ⟨0, 1⟩ ⟨1, 0⟩ 1 3 2 0 (by decide)
    (by intro i hi; simp [Demo.heap]; omega) (by intro i hi; simp [Demo.heap]; omega) (by omega) (by decide +kernel)
    (by decide +kernel)
  exact ⟨h', e, h1 0 (by decide)⟩

theorem fillLoop_spec (v : K) (ds : Nat) : ∀ (n : Nat) (dest : Ptr) (h : Heap K),
    (∀ i, i < n → dest.idx + i * ds < (h dest.obj).length) →
    ∃ h', fillLoop v ds n dest h = .ok h' ∧ (∀ o, o ≠ dest.obj → h' o = h o) ∧
      (∀ i, i < n → (h' dest.obj)[dest.idx + i * ds]? = some v) ∧
      ∀ x, (∀ i, i < n → x ≠ dest.idx + i * ds) → (h' dest.obj)[x]? = (h dest.obj)[x]?
  | 0, dest, h, _ => ⟨h, rfl, fun _ _ => rfl, by omega, fun _ _ => rfl⟩
  | n + 1, dest, h, hd => by
    have hd0 := hd 0 (by omega)
    simp only [Nat.zero_mul, Nat.add_zero] at hd0
    obtain ⟨h', e, hr1, hr2, hr3⟩ := fillLoop_spec v ds n { dest with idx := dest.idx + ds } (stored h dest 0 v)
      (fun i hi => by
        have := hd (i + 1) (by omega)
        rw [Nat.add_mul] at this
        show dest.idx + ds + i * ds < (stored h dest 0 v dest.obj).length
        rw [stored_length]; omega)
    have e2 : ∀ i, dest.idx + (i + 1) * ds = dest.idx + ds + i * ds := fun i => by rw [Nat.add_mul]; omega
    refine ⟨h', ?_, ?_, ?_, ?_⟩
    · rw [fillLoop, write_stored h dest 0 _ hd0, Outcome.ok_bind]
      exact e
    · intro o ho
      rw [hr1 o ho]
      simp [stored, ho]
    · intro i hi
      match i with
      | 0 =>
        rw [Nat.zero_mul, Nat.add_zero]
        by_cases hx : ∃ i, i < n ∧ dest.idx = dest.idx + ds + i * ds
        · obtain ⟨i, hi, hx⟩ := hx
          have := hr2 i hi
          rw [hx]; exact this
        · have := hr3 dest.idx (fun i hi hc => hx ⟨i, hi, hc⟩)
          rw [this, stored_get _ _ _ _ hd0, if_pos ⟨rfl, by omega⟩]
      | i + 1 =>
        rw [e2]
        exact hr2 i (by omega)
    · intro x hx
      have := hr3 x (by
        intro i hi
        show x ≠ dest.idx + ds + i * ds
        rw [← e2]
        exact hx (i + 1) (by omega))
      rw [this, stored_get _ _ _ _ hd0, if_neg]
      rintro ⟨_, h2⟩
      exact hx 0 (by omega) (by omega)

/-- **C83.** `vectorFillStrided` stores the value in every `destStride`-th element, and changes nothing else. -/
theorem filled_with_stride (L : Layout) (h : Heap K) (v : K) (dest : Ptr) (ds n : Nat) (alignment : BitVec 64)
    (hd : ∀ i, i < n → dest.idx + i * ds < (h dest.obj).length) (ha : aligned L alignment dest = true) :
    ∃ h', vectorFillStrided L h v dest ds n alignment = .ok (.noError, h') ∧ (∀ o, o ≠ dest.obj → h' o = h o) ∧
      (∀ i, i < n → (h' dest.obj)[dest.idx + i * ds]? = some v) ∧
      ∀ x, (∀ i, i < n → x ≠ dest.idx + i * ds) → (h' dest.obj)[x]? = (h dest.obj)[x]? := by
  obtain ⟨h', e, hr⟩ := fillLoop_spec v ds n dest h hd
  exact ⟨h', checked_ok L alignment _ h _ h' (by simp [ha]) e, hr⟩

example : Demo.show3 (vectorFillStrided Demo.layout Demo.heap 9 ⟨1, 1⟩ 2 2 0) =
    .ok (.noError, [[1, 2, 3, 4], [10, 9, 30, 9], [5, 5, 5, 5]]) := by decide +kernel

/-- Misaligned pointers are reported by the functions with strides. -/
theorem strided_misaligned_rejected (L : Layout) (h : Heap K) (src dest : Ptr) (v : K) (ss ds n : Nat) (alignment : BitVec 64)
    (ha : aligned L alignment dest = false) :
    vectorCopyStrided L h src dest ss ds n alignment = .ok (.alignmentError, h) ∧
    vectorCopyStrided L h dest src ss ds n alignment = .ok (.alignmentError, h) ∧
    vectorFillStrided L h v dest ds n alignment = .ok (.alignmentError, h) :=
  ⟨checked_misaligned _ _ _ _ _ dest (by simp) ha, checked_misaligned _ _ _ _ _ dest (by simp) ha,
    checked_misaligned _ _ _ _ _ dest (by simp) ha⟩

example : vectorFillStrided Demo.layout Demo.heap 9 ⟨1, 1⟩ 2 2 2 = .ok (.alignmentError, Demo.heap) :=
  (strided_misaligned_rejected Demo.layout Demo.heap ⟨0, 0⟩ ⟨1, 1⟩ 9 0 2 2 2 (by decide +kernel)).2.2

/-! ### What the caller has to ensure -/

/-- The functions do not know the sizes of the arrays: an array that is too small is undefined behaviour. -/
theorem short_array_undefined (op : Op K) (L : Layout) (debug : Bool) (h : Heap K) (ins : List Ptr) (out : Ptr) (n : Nat)
    (alignment : BitVec 64) (hlen : ins.length = op.arity) (ha : ∀ p ∈ out :: ins, aligned L alignment p = true) (hn : 0 < n)
    (p : Ptr) (hp : p ∈ out :: ins) (hb : ¬ InBounds h p n) :
    op.call L debug h ins out n alignment = .ub := by
  have key : ∀ (ptrs : List Ptr) (f : Nat → List K → K) (ins' : List Ptr), (∀ q ∈ ptrs, q ∈ out :: ins) → p ∈ out :: ins' →
      checked L alignment ptrs h (run f ins' out n 0 h) = .ub := by
    intro ptrs f ins' hq hp'
    unfold checked
    rw [if_pos (List.all_eq_true.2 fun q hm => ha q (hq q hm)),
      run_ub f ins' out p hp' n 0 h hn (by unfold InBounds at hb; omega)]
    rfl
  match op, ins, hlen with
  | .zero, [], _ | .fill v, [], _ | .ramp s e si ei, [], _ | .copy, [a], _ | .add, [a, b], _ | .addInplace, [a], _
  | .addConstant c, [a], _ | .addConstantInplace c, [], _ | .subtract, [a, b], _ | .subtractInplace, [a], _
  | .subtractConstant c, [a], _ | .subtractConstantInplace c, [], _ | .multiply, [a, b], _ | .multiplyInplace, [a], _
  | .multiplyConstant c, [a], _ | .multiplyConstantInplace c, [], _ | .multiplyAdd, [a, b, c], _
  | .multiplyAddInplace, [a, b], _ | .multiplyConstantAdd k, [a, b], _ | .multiplyConstantAddInplace k, [a], _ =>
    all_goals exact key _ _ _ (by intro q hq; simp at hq ⊢; tauto) (by simp at hp ⊢; tauto)
  | .rampScaling g r true, [a, b], _ =>
    simp only [Op.call, vectorRampScaling, if_true]
    exact key _ _ _ (by intro q hq; cases debug <;> simp at hq ⊢; tauto) (by simp at hp ⊢; tauto)
  | .rampScaling g r false, [a, b], _ =>
    simp only [Op.call, vectorRampScaling, Bool.false_eq_true, if_false]
    exact key _ _ _ (by intro q hq; cases debug <;> simp at hq ⊢; tauto) (by simp at hp ⊢; tauto)

example : Op.add.call Demo.layout true Demo.heap [⟨0, 0⟩, ⟨1, 2⟩] ⟨2, 0⟩ 3 0 = .ub :=
  short_array_undefined Op.add _ _ _ _ _ _ _ rfl (by decide +kernel) (by decide) ⟨1, 2⟩ (by simp) (by simp [InBounds, Demo.heap])

/-! ### Where the property is false of the code -/

/-- Arrays that overlap in a part give other values: elements are read after they have been overwritten. -/
theorem overlap_differs :
    Demo.show3 (Op.copy.call Demo.layout true Demo.heap [⟨0, 0⟩] ⟨0, 1⟩ 3 0) =
      .ok (.noError, [[1, 1, 1, 1], [10, 20, 30, 40], [5, 5, 5, 5]]) := by decide +kernel

/-- `vectorSubtract( subtrahend, minuend, … )` computes the first minus the second argument, i.e. the subtrahend minus the
minuend. -/
theorem subtract_reversed :
    ¬ ∀ (h h' : Heap ℚ) (subtrahend minuend result : Ptr) (n : Nat), InBounds h subtrahend n → InBounds h minuend n →
      InBounds h result n → result.obj ≠ subtrahend.obj → result.obj ≠ minuend.obj →
      vectorSubtract Demo.layout h subtrahend minuend result n 0 = .ok (.noError, h') →
      Written h h' result n fun i => cell h minuend i - cell h subtrahend i := by
  intro hc
  obtain ⟨h', e, hw⟩ := computed_partial Op.subtract Demo.layout true Demo.heap [⟨0, 0⟩, ⟨1, 0⟩] ⟨2, 0⟩ 4 0 rfl
    (by simp [InBounds, Demo.heap]) (by simp [InBounds, Demo.heap]) (by simp [SameOrDisjoint]) (by decide +kernel)
  have := hc Demo.heap h' ⟨0, 0⟩ ⟨1, 0⟩ ⟨2, 0⟩ 4 (by simp [InBounds, Demo.heap]) (by simp [InBounds, Demo.heap])
    (by simp [InBounds, Demo.heap]) (by decide) (by decide) e
  have h1 := hw 2 0
  rw [this 2 0] at h1
  simp [cell, Demo.heap, formula] at h1
  norm_num at h1

/-- `vectorSubtractInplace` with the same names computes the minuend minus the subtrahend: the results of the two functions for
the same operands have opposite signs. -/
theorem subtract_inplace_opposite (h : Heap K) (L : Layout) (minuend subtrahend result : Ptr) (n : Nat) (alignment : BitVec 64)
    (h1 : InBounds h minuend n) (h2 : InBounds h subtrahend n) (h3 : InBounds h result n)
    (ha : ∀ p ∈ [subtrahend, minuend, result], aligned L alignment p = true)
    (hs : SameOrDisjoint n minuend subtrahend) (hr : SameOrDisjoint n minuend result) (hr' : SameOrDisjoint n subtrahend result) :
    ∃ h' h'', vectorSubtract L h subtrahend minuend result n alignment = .ok (.noError, h') ∧
      vectorSubtractInplace L h minuend subtrahend n alignment = .ok (.noError, h'') ∧
      ∀ i, i < n → cell h' result i = - cell h'' subtrahend i := by
  obtain ⟨h', e', hw'⟩ := computed_partial Op.subtract L true h [subtrahend, minuend] result n alignment rfl (by simp [h1, h2]) h3
    (by simp [hr, hr']) (by simp_all)
  obtain ⟨h'', e'', hw''⟩ := computed_partial Op.subtractInplace L true h [minuend] subtrahend n alignment rfl (by simp [h1]) h2
    (by simp [hs]) (by simp_all)
  refine ⟨h', h'', e', e'', fun i hi => ?_⟩
  rw [cell_eq, cell_eq, hw', hw'', if_pos ⟨rfl, by omega, by omega⟩, if_pos ⟨rfl, by omega, by omega⟩]
  simp [formula]

example : ∃ h' h'', vectorSubtract Demo.layout Demo.heap ⟨0, 0⟩ ⟨1, 0⟩ ⟨2, 0⟩ 4 0 = .ok (.noError, h') ∧
    vectorSubtractInplace Demo.layout Demo.heap ⟨1, 0⟩ ⟨0, 0⟩ 4 0 = .ok (.noError, h'') ∧
    ∀ i, i < 4 → cell h' ⟨2, 0⟩ i = - cell h'' ⟨0, 0⟩ i :=
  subtract_inplace_opposite Demo.heap Demo.layout ⟨1, 0⟩ ⟨0, 0⟩ ⟨2, 0⟩ 4 0 (by simp [InBounds, Demo.heap])
    (by simp [InBounds, Demo.heap]) (by simp [InBounds, Demo.heap]) (by decide +kernel) (by simp [SameOrDisjoint])
    (by simp [SameOrDisjoint]) (by simp [SameOrDisjoint])

/-- In release builds, `vectorRampScaling` accepts pointers that are not aligned as requested. -/
theorem ramp_scaling_release_unchecked : ∃ h', (Op.rampScaling 1 1 false).call Demo.layout false Demo.heap [⟨0, 0⟩, ⟨1, 1⟩] ⟨2, 0⟩ 2 4 =
    .ok (.noError, h') ∧ (Op.rampScaling 1 1 false).call Demo.layout true Demo.heap [⟨0, 0⟩, ⟨1, 1⟩] ⟨2, 0⟩ 2 4 =
    .ok (.alignmentError, Demo.heap) := by
  refine ⟨_, rfl, ?_⟩
  exact misaligned_rejected _ _ _ _ _ _ _ _ rfl ⟨1, 1⟩ (by simp) (by decide +kernel) (.inl rfl)

end Visr.VectorFn
