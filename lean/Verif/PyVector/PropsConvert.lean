import Verif.PyVector.Props

/-!
# C84, continued: arguments that are converted
-/

namespace Visr.PyVector

open VectorFn

variable {K : Type} [Field K]

/-! ### What is meant -/

/-- The number of a Python object. -/
def number : Scalar K → K
  | .float v | .int v | .complex v => v

/-- The element `i` of a sequence, as a number of the type `float`. -/
def element (cast : Ty → K → K) (m : Mem K) : Arg → Nat → K
  | .array a, i =>
    let v := (m.heap a.ptr.obj).getD ((a.ptr.idx : Int) + i * a.strides.headD 0).toNat 0
    if a.dtype = .num .f32 then v else cast .f32 v
  | .vec t o, i => if t = .f32 then (m.heap o).getD i 0 else cast .f32 ((m.heap o).getD i 0)

/-- A sequence of at least `n` elements; one of the type `float` has no gaps. -/
def Sequence (m : Mem K) (n : Nat) : Arg → Prop
  | .array a => a.ptr.obj < m.next ∧ ∃ size stride, n ≤ size ∧ a.shape = [size] ∧ a.strides = [stride] ∧
      (a.dtype = .num .f32 → stride = 1 ∧ a.ptr.idx + size ≤ (m.heap a.ptr.obj).length)
  | .vec _ o => o < m.next ∧ n ≤ (m.heap o).length

/-! ### Helpers -/

omit [Field K] in
theorem sequence_extends {m m' : Mem K} (h : Extends m m') (n : Nat) (a : Arg) (hs : Sequence m n a) : Sequence m' n a := by
  cases a with
  | array a =>
    obtain ⟨h1, size, stride, h2, h3, h4, h5⟩ := hs
    refine ⟨Nat.lt_of_lt_of_le h1 h.1, size, stride, h2, h3, h4, ?_⟩
    rw [h.2 _ h1]
    exact h5
  | vec t o =>
    refine ⟨Nat.lt_of_lt_of_le hs.1 h.1, ?_⟩
    rw [h.2 _ hs.1]
    exact hs.2

theorem element_extends (cast : Ty → K → K) {m m' : Mem K} (h : Extends m m') (n : Nat) (a : Arg) (hs : Sequence m n a) (i : Nat) :
    element cast m' a i = element cast m a i := by
  cases a with
  | array a => simp only [element, h.2 _ hs.1]
  | vec t o => simp only [element, h.2 _ hs.1]

omit [Field K] in
theorem offsets_one_eq (size : Nat) (stride : Int) : offsets [size] [stride] = (List.range size).map fun i : Nat => (i : Int) * stride := by
  simp [offsets, List.map_eq_flatMap, List.flatMap_assoc]

/-- What a converted argument is. -/
def Loaded (cast : Ty → K → K) (m m' : Mem K) (n : Nat) (a b : Arg) : Prop :=
  Usable m' n b ∧ InBounds m'.heap (ptrOf b) n ∧ (ptrOf b).obj < m'.next ∧
    (∀ i, i < n → cell m'.heap (ptrOf b) i = element cast m a i) ∧
    (ptrOf b = ptrOf a ∨ m.next ≤ (ptrOf b).obj)

theorem copied_loaded (cast : Ty → K → K) (m : Mem K) (n size : Nat) (stride : Int) (a : Arr) (h1 : n ≤ size) (h2 : a.shape = [size])
    (h3 : a.strides = [stride]) (h4 : a.dtype ≠ .num .f32) :
    Loaded cast m (copied cast .f32 m a).2 n (.array a) (.array (copied cast .f32 m a).1) := by
  refine ⟨⟨size, h1, h2, by simp [copied, h2, rowStrides]⟩, ?_, by simp [copied, ptrOf], ?_, Or.inr (Nat.le_refl _)⟩
  · simp [InBounds, ptrOf, copied, h2, offsets_one]
    exact h1
  · intro i hi
    have hi' : i < size := by omega
    simp [cell, ptrOf, copied, h2, h3, offsets_one_eq, element, h4, hi', List.getD_eq_getElem?_getD]

theorem loadArg_loaded (cast : Ty → K → K) (m : Mem K) (n : Nat) (a : Arg) (hs : Sequence m n a) :
    ∃ b m', loadArg cast true .pyArray .f32 m a = some (b, m') ∧ Extends m m' ∧ Loaded cast m m' n a b := by
  cases a with
  | array a =>
    obtain ⟨h1, size, stride, h2, h3, h4, h5⟩ := hs
    by_cases hd : a.dtype = .num .f32
    · obtain ⟨rfl, h6⟩ := h5 hd
      refine ⟨.array a, m, by simp [loadArg, hd], .refl m, ⟨size, h2, h3, h4⟩, ?_, h1, ?_, Or.inl rfl⟩
      · unfold InBounds ptrOf; simp only; omega
      · intro i _
        have : ((a.ptr.idx : Int) + (i : Int)).toNat = a.ptr.idx + i := by omega
        simp [cell, ptrOf, element, hd, h4, this]
    · exact ⟨_, _, by simp only [loadArg, if_neg hd]; rfl, copied_extends _ _ _ _, copied_loaded cast m n size stride a h2 h3 h4 hd⟩
  | vec t o =>
    obtain ⟨h1, h2⟩ := hs
    by_cases hd : t = .f32
    · subst hd
      refine ⟨.array (viewOf m .f32 o), m, by simp [loadArg], .refl m, ⟨_, h2, rfl, rfl⟩, ?_, h1, ?_, Or.inl rfl⟩
      · simpa [InBounds, ptrOf, viewOf] using h2
      · intro i _
        simp [cell, ptrOf, element, viewOf]
    · refine ⟨_, _, by simp only [loadArg, if_neg hd]; rfl, copied_extends _ _ _ _, ?_⟩
      obtain ⟨a1, a2, a3, a4, a5⟩ := copied_loaded cast m n _ 1 (viewOf m t o) h2 rfl rfl (by simpa [viewOf] using hd)
      refine ⟨a1, a2, a3, fun i hi => ?_, a5⟩
      rw [a4 i hi]
      simp [element, viewOf, hd]

theorem loaded_extends (cast : Ty → K → K) {m m1 m2 : Mem K} (h : Extends m1 m2) (n : Nat) (a b : Arg) (hl : Loaded cast m m1 n a b) :
    Loaded cast m m2 n a b := by
  obtain ⟨h1, h2, h3, h4, h5⟩ := hl
  have e := h.2 _ h3
  refine ⟨?_, by unfold InBounds at *; rw [e]; exact h2, Nat.lt_of_lt_of_le h3 h.1,
    fun i hi => by rw [← h4 i hi]; unfold cell; rw [e], h5⟩
  cases b with
  | array b => exact h1
  | vec t o =>
    have e' : m2.heap o = m1.heap o := e
    show n ≤ (m2.heap o).length
    rw [e']
    exact h1

theorem loadArgs_loaded (cast : Ty → K → K) (n : Nat) : ∀ (as : List Arg) (m0 m : Mem K), Extends m0 m → (∀ a ∈ as, Sequence m0 n a) →
    ∃ bs m', loadArgs cast true .pyArray .f32 m as = some (bs, m') ∧ Extends m m' ∧ List.Forall₂ (Loaded cast m0 m' n) as bs
  | [], m0, m, _, _ => ⟨[], m, rfl, .refl m, .nil⟩
  | a :: as, m0, m, hx, hs => by
    have hsa := hs a (by simp)
    obtain ⟨b, m1, e1, x1, l1⟩ := loadArg_loaded cast m n a (sequence_extends hx n a hsa)
    obtain ⟨bs, m2, e2, x2, l2⟩ := loadArgs_loaded cast n as m0 m1 (hx.trans x1) (fun c hc => hs c (by simp [hc]))
    refine ⟨b :: bs, m2, by rw [loadArgs, e1]; simp only [Option.bind_eq_bind, Option.bind_some, e2], x1.trans x2, .cons ?_ l2⟩
    obtain ⟨a1, a2, a3, a4, a5⟩ := loaded_extends cast x2 n a b l1
    refine ⟨a1, a2, a3, fun i hi => by rw [a4 i hi, element_extends cast hx n a hsa], ?_⟩
    rcases a5 with a5 | a5
    · exact Or.inl a5
    · exact Or.inr (Nat.le_trans hx.1 a5)

omit [Field K] in
theorem mapOp_convert (cast : Ty → K → K) (op : Op (Scalar K)) (hc : ∀ s ∈ consts op, ∀ v, s ≠ .complex v) :
    mapOp (loadScalar cast true .f32) op = some (mapConst (fun s => cast .f32 (number s)) op) := by
  have h : ∀ s ∈ consts op, loadScalar cast true .f32 s = some (cast .f32 (number s)) := by
    intro s hs
    cases s with
    | float v => simp [loadScalar, number, Ty.isComplex]
    | int v => simp [loadScalar, number]
    | complex v => exact absurd rfl (hc _ hs v)
  cases op <;> simp [consts] at h <;> simp [mapOp, mapConst, h]

theorem forall₂_cells (cast : Ty → K → K) (m m' : Mem K) (n i : Nat) (hi : i < n) : ∀ as bs : List Arg,
    List.Forall₂ (Loaded cast m m' n) as bs →
    (bs.map fun b => cell m'.heap (ptrOf b) i) = as.map fun a => element cast m a i
  | [], _, .nil => rfl
  | a :: as, b :: bs, .cons h hs => by
    rw [List.map_cons, List.map_cons, h.2.2.2.1 i hi, forall₂_cells cast m m' n i hi as bs hs]

omit [Field K] in
theorem forall₂_right {R : A → B → Prop} : ∀ (as : List A) (bs : List B), List.Forall₂ R as bs → ∀ b ∈ bs, ∃ a ∈ as, R a b
  | _, _, .nil, b, hb => by cases hb
  | a :: as, c :: bs, .cons h hs, b, hb => by
    rcases List.mem_cons.1 hb with rfl | hb
    · exact ⟨a, by simp, h⟩
    · obtain ⟨x, hx, hr⟩ := forall₂_right as bs hs b hb
      exact ⟨x, by simp [hx], hr⟩

/-! ### Results -/

/-- **C84.** If the result is a NumPy array of the type `float`, the inputs can be sequences of any type, with any stride if it is
another type than `float`, and the constants real numbers: they are converted to `float`, and the results are stored in the given
array. Nothing else that existed before the call changes. (Without the alignment, which a converted copy need not have.) -/
theorem converted_inputs_partial (cast : Ty → K → K) (address : Nat → BitVec 64) (debug : Bool) (m : Mem K) (op : Op (Scalar K))
    (ins : List Arg) (out : Arr) (n : Nat) (hn : n < 2 ^ 63) (hlen : ins.length = op.arity)
    (hd : out.dtype = .num .f32) (hv : Valid m (.array out)) (hu : Usable m n (.array out)) (hw : out.writeable = true)
    (hc : ∀ s ∈ consts op, ∀ v, s ≠ .complex v) (hs : ∀ a ∈ ins, Sequence m n a)
    (hmix : (∃ a ∈ ins, kindOf a ≠ some (.pyArray, .f32)) ∨ ∃ v, .int v ∈ consts op)
    (ho : ∀ a ∈ ins, SameOrDisjoint n (ptrOf a) out.ptr) :
    ∃ m', call cast address debug m op ins (.array out) n 0 = .ok m' ∧
      ∀ o, o < m.next → ∀ x, (m'.heap o)[x]? =
        if o = out.ptr.obj ∧ out.ptr.idx ≤ x ∧ x < out.ptr.idx + n then
          some (formula (mapConst (fun s => cast .f32 (number s)) op) n (x - out.ptr.idx)
            ((ins.map fun a => element cast m a (x - out.ptr.idx)).getD 0 0)
            ((ins.map fun a => element cast m a (x - out.ptr.idx)).getD 1 0)
            ((ins.map fun a => element cast m a (x - out.ptr.idx)).getD 2 0) (cell m.heap out.ptr (x - out.ptr.idx)))
        else (m.heap o)[x]? := by
  have h1 : (overloads.findSome? fun ct => tryCall cast address debug false ct.1 ct.2 m op ins (.array out) n 0) = none := by
    rw [List.findSome?_eq_none_iff]
    intro ct _
    rcases hmix with ⟨a, ha, hne⟩ | ⟨v, hi⟩
    · by_cases hk : kindOf (.array out) = some (ct.1, ct.2)
      · refine tryCall_mixed _ _ _ _ _ _ _ _ _ _ _ ⟨a, by simp [ha], ?_⟩
        rw [← hk]
        simpa [kindOf, hd] using hne
      · exact tryCall_mixed _ _ _ _ _ _ _ _ _ _ _ ⟨.array out, by simp, hk⟩
    · unfold tryCall
      rw [mapOp_none _ op ⟨_, hi, by simp [loadScalar]⟩]
      rfl
  obtain ⟨bs, m1, hins, hx, hl⟩ := loadArgs_loaded cast n ins m m (.refl m) hs
  have hout : loadArg cast true .pyArray .f32 m1 (.array out) = some (.array out, m1) := by simp [loadArg, hd]
  have e := tryCall_eq cast address debug true .pyArray .f32 m m1 m1 op _ ins bs (.array out) (.array out) n 0 (BitVec.ofNat 64 n) 0
    (mapOp_convert cast op hc) hins hout (by
      unfold loadSize
      rw [if_pos (by omega)]
      rfl) (by unfold loadSize; rw [if_pos (by decide)]; rfl)
  have hv1 := valid_extends hx _ hv
  obtain ⟨size, u1, u2, u3⟩ := hu
  have hb : InBounds m1.heap out.ptr n := by
    have := hv1.2.2 size u2 u3
    unfold InBounds
    omega
  have hlen' : bs.length = ins.length := hl.length_eq.symm
  have hall : ∀ (L : Layout) (p : Ptr), aligned L 0 p = true := by
    intro L p
    simp [aligned, Efl.checkAlignment]
  obtain ⟨h', ec, hwr⟩ := computed_partial (mapConst (fun s => cast .f32 (number s)) op) ⟨address, Ty.f32.size⟩ debug m1.heap
    (bs.map ptrOf) out.ptr n 0 (by rw [List.length_map, hlen', hlen, arity_mapConst])
    (by
      intro p hp
      obtain ⟨b, hm, rfl⟩ := List.mem_map.1 hp
      obtain ⟨a, _, hr⟩ := forall₂_right _ _ hl b hm
      exact hr.2.1) hb
    (by
      intro p hp
      obtain ⟨b, hm, rfl⟩ := List.mem_map.1 hp
      obtain ⟨a, ha, hr⟩ := forall₂_right _ _ hl b hm
      rcases hr.2.2.2.2 with h | h
      · rw [h]; exact ho a ha
      · have := hv.1
        exact Or.inl (by omega)) (fun p _ => hall _ p)
  refine ⟨⟨h', m1.next⟩, ?_, ?_⟩
  · unfold call
    rw [h1]
    have : (overloads.findSome? fun ct => tryCall cast address debug true ct.1 ct.2 m op ins (.array out) n 0) =
        some (body address debug .f32 m1 (mapConst (fun s => cast .f32 (number s)) op) bs (.array out) (BitVec.ofNat 64 n) 0) := by
      unfold overloads
      rw [List.findSome?_cons, e]
    rw [this]
    simp only
    unfold body
    rw [accessAll_usable m1 n hn bs (fun b hm => by
        obtain ⟨a, _, hr⟩ := forall₂_right _ _ hl b hm
        exact hr.1), Outcome.ok_bind,
      access_usable true m1 n hn (.array out) ⟨size, u1, u2, u3⟩ (fun _ => hw), Outcome.ok_bind, BitVec.toNat_ofNat,
      Nat.mod_eq_of_lt (by omega)]
    simp only [ptrOf]
    rw [ec]
    rfl
  · intro o hlt x
    have := hwr o x
    simp only [List.map_map, Function.comp_def] at this
    by_cases hin : o = out.ptr.obj ∧ out.ptr.idx ≤ x ∧ x < out.ptr.idx + n
    · rw [if_pos hin] at this
      rw [if_pos hin]
      rw [this, forall₂_cells cast m m1 n _ (by omega) ins bs hl]
      have ec' : cell m1.heap out.ptr (x - out.ptr.idx) = cell m.heap out.ptr (x - out.ptr.idx) := by
        unfold cell
        rw [hx.2 _ hv.1]
      rw [ec']
    · rw [if_neg hin] at this
      rw [if_neg hin, this, hx.2 o hlt]

/-- Every second element of an array of `double` plus an array of `float` that a `BasicVector` owns. -/
example : Demo.show3 (call Demo.same Demo.address true Demo.mem .add
    [.array ⟨.num .f64, ⟨0, 1⟩, [2], [2], false⟩, .vec .f32 1] (Demo.arr .f32 2) 2 0) =
      .ok [[1, 2, 3, 4], [10, 20, 30, 40], [12, 24, 5, 5]] := by decide +kernel

example : ∃ m', call Demo.same Demo.address true Demo.mem .add
    [.array ⟨.num .f64, ⟨0, 3⟩, [4], [-1], false⟩, .vec .f32 1] (.array ⟨.num .f32, ⟨2, 0⟩, [4], [1], true⟩) (4 : Nat) 0 = .ok m' ∧
      m'.heap 2 = [14, 23, 32, 41] := by
  obtain ⟨m', e, h⟩ := converted_inputs_partial Demo.same Demo.address true Demo.mem .add
    [.array ⟨.num .f64, ⟨0, 3⟩, [4], [-1], false⟩, .vec .f32 1] ⟨.num .f32, ⟨2, 0⟩, [4], [1], true⟩ 4 (by decide) rfl rfl
    (Demo.arr_valid .f32 2 (by decide)) ⟨4, by decide, rfl, rfl⟩ rfl (by simp [consts])
    (by
      intro a ha
      simp at ha
      rcases ha with rfl | rfl
      · exact ⟨by decide, 4, -1, by decide, rfl, rfl, by simp⟩
      · exact ⟨by decide, by decide⟩)
    (Or.inl ⟨_, by simp; exact Or.inl rfl, by simp [kindOf]⟩)
    (by
      intro a ha
      simp at ha
      rcases ha with rfl | rfl
      · exact Or.inl (by decide)
      · exact Or.inl (by decide))
  refine ⟨m', e, ?_⟩
  have hx := h 2 (by decide)
  apply List.ext_getElem?
  intro x
  rw [hx x]
  match x with
  | 0 => simp [formula, mapConst, element, Demo.same, Demo.mem, VectorFn.Demo.heap]; norm_num
  | 1 => simp [formula, mapConst, element, Demo.same, Demo.mem, VectorFn.Demo.heap]; norm_num
  | 2 => simp [formula, mapConst, element, Demo.same, Demo.mem, VectorFn.Demo.heap]; norm_num
  | 3 => simp [formula, mapConst, element, Demo.same, Demo.mem, VectorFn.Demo.heap]; norm_num
  | x + 4 => simp [Demo.mem, VectorFn.Demo.heap]

/-- A complex constant for arrays of real numbers: a call that succeeds computes complex numbers in a converted copy of the result,
which is discarded. Nothing is stored. -/
theorem complex_constant_lost (cast : Ty → K → K) (address : Nat → BitVec 64) (debug : Bool) (m m' : Mem K) (op : Op (Scalar K))
    (ins : List Arg) (out : Arg) (n al : Int) (hlen : ins.length = op.arity) (hv : ∀ a ∈ out :: ins, Valid m a)
    (hout : ∀ c t, kindOf out = some (c, t) → t.isComplex = false) (hcx : ∃ v, .complex v ∈ consts op)
    (h : call cast address debug m op ins out n al = .ok m') :
    ∀ o, o < m.next → m'.heap o = m.heap o := by
  obtain ⟨v, hcx⟩ := hcx
  have hnone : ∀ (convert : Bool) (c : Container) (t : Ty), t.isComplex = false →
      tryCall cast address debug convert c t m op ins out n al = none := by
    intro convert c t ht
    unfold tryCall
    rw [mapOp_none _ op ⟨_, hcx, by simp [loadScalar, ht]⟩]
    rfl
  have hr : ∃ (convert : Bool) (c : Container) (t : Ty), t.isComplex = true ∧
      tryCall cast address debug convert c t m op ins out n al = some (.ok m') := by
    have key : ∀ convert : Bool, (overloads.findSome? fun ct => tryCall cast address debug convert ct.1 ct.2 m op ins out n al) =
        some (.ok m') → ∃ (convert : Bool) (c : Container) (t : Ty), t.isComplex = true ∧
          tryCall cast address debug convert c t m op ins out n al = some (.ok m') := by
      intro convert hf
      obtain ⟨ct, _, e⟩ := List.exists_of_findSome?_eq_some hf
      refine ⟨convert, ct.1, ct.2, ?_, e⟩
      cases ht : ct.2.isComplex with
      | true => rfl
      | false => rw [hnone _ _ _ ht] at e; cases e
    unfold call at h
    cases h1 : (overloads.findSome? fun ct => tryCall cast address debug false ct.1 ct.2 m op ins out n al) with
    | some r =>
      rw [h1] at h
      simp only at h
      exact key false (by rw [h1, h])
    | none =>
      rw [h1] at h
      simp only at h
      cases h2 : (overloads.findSome? fun ct => tryCall cast address debug true ct.1 ct.2 m op ins out n al) with
      | some r =>
        rw [h2] at h
        simp only at h
        exact key true (by rw [h2, h])
      | none => rw [h2] at h; cases h
  obtain ⟨convert, c, t, ht, hr⟩ := hr
  obtain ⟨op'', ins'', out'', m2', n', al', m1', e, hl, hx, hv', _, _, hx1, hld⟩ := tryCall_some _ _ _ _ _ _ _ _ _ _ _ _ _ hr hv hlen
  obtain ⟨_, hf⟩ := body_frame address debug t m2' m' op'' ins'' out'' n' al' hl e.symm
  have hnew : m1'.next ≤ (ptrOf out'').obj := by
    cases out with
    | array a =>
      have hd : a.dtype ≠ .num t := by
        intro hd
        have := hout .pyArray t (by simp [kindOf, hd])
        rw [ht] at this; cases this
      cases c with
      | basicVector => cases hld
      | pyArray =>
        simp only [loadArg, if_neg hd] at hld
        split at hld
        · simp only [Option.some.injEq, Prod.mk.injEq] at hld
          rw [← hld.1]
          exact Nat.le_refl _
        · cases hld
    | vec t' o =>
      have hd : t' ≠ t := by
        intro hd
        have := hout .basicVector t' rfl
        rw [hd, ht] at this; cases this
      cases c with
      | basicVector => simp only [loadArg, if_neg hd] at hld; cases hld
      | pyArray =>
        simp only [loadArg, if_neg hd] at hld
        split at hld
        · cases hld
        · simp only [Option.some.injEq, Prod.mk.injEq] at hld
          rw [← hld.1]
          exact Nat.le_refl _
  intro o ho
  rw [hf o (by have := hx1.1; omega), hx.2 o ho]

/-- `vectorFill( 1j, … )` for an array of `double`: accepted, and nothing is stored. -/
example : Demo.show3 (call Demo.same Demo.address true Demo.mem (.fill (.complex 1)) [] (Demo.arr .f64 1) 4 0) =
    .ok [[1, 2, 3, 4], [10, 20, 30, 40], [5, 5, 5, 5]] := by decide +kernel

/-- States that are closer than two elements: the last section needs an element more than is checked. -/
theorem iir_states_undefined (input states coeffs : List K) (outSize n sections : Nat) (stride cstride : Nat) (hn : n ≤ input.length)
    (ho : n ≤ outSize) (hn' : n < 2 ^ 63) (h1 : sections * stride < 2 ^ 63) (h2 : cstride * sections < 2 ^ 63)
    (h3 : sections < 2 ^ 64) (h4 : stride < 2 ^ 64) (hs : sections * stride ≤ states.length) (hc : cstride * sections ≤ coeffs.length)
    (hsec : 0 < sections) (hshort : states.length ≤ (sections - 1) * stride + 1) :
    iir input states coeffs outSize (BitVec.ofNat 64 n) (BitVec.ofNat 64 sections) (BitVec.ofNat 64 stride) (BitVec.ofNat 64 cstride) =
      .ub := by
  unfold iir
  rw [← BitVec.ofNat_mul, ← BitVec.ofNat_mul, toInt_ofNat n hn', toInt_ofNat _ h1, toInt_ofNat _ h2]
  rw [if_neg (by omega), if_neg (by omega), if_neg (by omega), if_neg (by omega), if_neg]
  simp only [Bool.and_eq_true, decide_eq_true_eq, iirInside, List.all_eq_true, List.mem_range, Bool.or_eq_true, not_and]
  intro _ hall
  have e1 : (BitVec.ofNat 64 sections).toNat = sections := by rw [BitVec.toNat_ofNat, Nat.mod_eq_of_lt (by omega)]
  have e2 : (BitVec.ofNat 64 stride).toNat = stride := by rw [BitVec.toNat_ofNat, Nat.mod_eq_of_lt (by omega)]
  have := (hall (sections - 1) (by rw [e1]; omega)).1
  rw [e2] at this
  omega

example : iir [1, (2 : ℚ)] [0, 0] [1, 0, 0, 0, 0, 2, 0, 0, 0, 0] 2 (BitVec.ofNat 64 2) (BitVec.ofNat 64 2) (BitVec.ofNat 64 1)
    (BitVec.ofNat 64 5) = .ub :=
  iir_states_undefined _ _ _ _ 2 2 1 5 (by decide) (by decide) (by decide) (by decide) (by decide) (by decide) (by decide) (by decide)
    (by decide) (by decide) (by decide)

end Visr.PyVector
