import Verif.PyVector.Lemmas
import Verif.Conversion.Props

/-!
# C84: the vector functions, called from Python
-/

namespace Visr.PyVector

open VectorFn

variable {K : Type} [Field K]

namespace Demo

/-- Arrays of four elements in memories 0 to 2, and an empty one. -/
def mem : Mem ℚ := ⟨VectorFn.Demo.heap, 4⟩

/-- Addresses of the memories. -/
def address (o : Nat) : BitVec 64 := BitVec.ofNat 64 (64 * o)

/-- A NumPy array that is all of a memory of four elements. -/
def arr (t : Ty) (o : Nat) : Arg := .array ⟨.num t, ⟨o, 0⟩, [4], [1], true⟩

/-- Conversions of numbers: exact. -/
def same (_ : Ty) (v : ℚ) : ℚ := v

/-- The elements after a call. -/
def show3 (x : Outcome (Mem ℚ)) : Outcome (List (List ℚ)) :=
  match x with
  | .ok m => .ok [m.heap 0, m.heap 1, m.heap 2]
  | .throw e => .throw e
  | .ub => .ub

theorem arr_valid (t : Ty) (o : Nat) (ho : o < 3) : Valid mem (arr t o) := by
  refine ⟨Nat.lt_succ_of_lt ho, rfl, fun size hs _ => ?_⟩
  simp [arr] at hs
  subst hs
  interval_cases o <;> simp [mem, VectorFn.Demo.heap]

end Demo

/-! ### Results -/

/-- **C84.** A function that is called with arrays of the same container and element type, and constants of the corresponding
Python type, stores its results in the given array and changes nothing else. (Missing: see `huge_count_undefined` for numbers of
elements from `2 ^ 63` and `result_lost` for other types of arguments.) -/
theorem result_stored_partial (cast : Ty → K → K) (address : Nat → BitVec 64) (debug : Bool) (c : Container) (t : Ty) (m : Mem K)
    (op : Op K) (ins : List Arg) (out : Arg) (n al : Nat) (hn : n < 2 ^ 63) (hal : al < 2 ^ 64) (hlen : ins.length = op.arity)
    (hk : ∀ a ∈ out :: ins, kindOf a = some (c, t)) (hv : ∀ a ∈ out :: ins, Valid m a) (hu : ∀ a ∈ out :: ins, Usable m n a)
    (hw : Writeable out) (hs : ∀ a ∈ ins, SameOrDisjoint n (ptrOf a) (ptrOf out))
    (ha : ∀ a ∈ out :: ins, aligned ⟨address, t.size⟩ (BitVec.ofNat 64 al) (ptrOf a) = true) :
    ∃ h', call cast address debug m (mapConst (python t) op) ins out n al = .ok ⟨h', m.next⟩ ∧
      Written m.heap h' (ptrOf out) n fun i =>
        formula (mapConst (cast t) op) n i ((ins.map fun a => cell m.heap (ptrOf a) i).getD 0 0)
          ((ins.map fun a => cell m.heap (ptrOf a) i).getD 1 0) ((ins.map fun a => cell m.heap (ptrOf a) i).getD 2 0)
          (cell m.heap (ptrOf out) i) := by
  have hb : ∀ a ∈ out :: ins, InBounds m.heap (ptrOf a) n := by
    intro a hm
    have h1 := hu a hm
    have h2 := hv a hm
    cases a with
    | array a =>
      obtain ⟨size, hsz, e1, e2⟩ := h1
      have := h2.2.2 size e1 e2
      unfold InBounds ptrOf
      simp only
      omega
    | vec t o =>
      unfold InBounds ptrOf
      simp only [Nat.zero_add]
      exact h1
  obtain ⟨h', e, hwr⟩ := computed_partial (mapConst (cast t) op) ⟨address, t.size⟩ debug m.heap (ins.map ptrOf) (ptrOf out) n
    (BitVec.ofNat 64 al) (by rw [List.length_map, hlen, arity_mapConst])
    (by
      intro p hp
      obtain ⟨a, hm, rfl⟩ := List.mem_map.1 hp
      exact hb a (by simp [hm]))
    (hb out (by simp))
    (by
      intro p hp
      obtain ⟨a, hm, rfl⟩ := List.mem_map.1 hp
      exact hs a hm)
    (by
      intro p hp
      rcases List.mem_cons.1 hp with rfl | hp
      · exact ha out (by simp)
      · obtain ⟨a, hm, rfl⟩ := List.mem_map.1 hp
        exact ha a (by simp [hm]))
  refine ⟨h', ?_, ?_⟩
  · rw [call_exact cast address debug c t m op ins out n al (by omega) hal hk]
    unfold body
    rw [accessAll_usable m n hn ins (fun a hm => hu a (by simp [hm])), Outcome.ok_bind,
      access_usable true m n hn out (hu out (by simp)) (fun _ => hw), Outcome.ok_bind, BitVec.toNat_ofNat,
      Nat.mod_eq_of_lt (by omega), e]
    rfl
  · simpa [List.map_map, Function.comp_def] using hwr

example : Demo.show3 (call Demo.same Demo.address true Demo.mem (mapConst (python .f64) (.multiplyConstantAdd 2))
    [Demo.arr .f64 0, Demo.arr .f64 1] (Demo.arr .f64 1) 3 0) =
      .ok [[1, 2, 3, 4], [12, 24, 36, 40], [5, 5, 5, 5]] := by decide +kernel

example : ∃ h', call Demo.same Demo.address true Demo.mem (mapConst (python .c64) .add)
    [Demo.arr .c64 0, Demo.arr .c64 1] (Demo.arr .c64 2) 3 0 = .ok ⟨h', Demo.mem.next⟩ ∧
    Written Demo.mem.heap h' ⟨2, 0⟩ 3 fun i => cell Demo.mem.heap ⟨0, 0⟩ i + cell Demo.mem.heap ⟨1, 0⟩ i := by
  have := result_stored_partial Demo.same Demo.address true .pyArray .c64 Demo.mem .add [Demo.arr .c64 0, Demo.arr .c64 1]
    (Demo.arr .c64 2) 3 0 (by decide) (by decide) rfl (by simp [kindOf, Demo.arr])
    (by
      intro a ha
      simp at ha
      rcases ha with rfl | rfl | rfl <;> exact Demo.arr_valid _ _ (by decide))
    (by
      intro a ha
      simp at ha
      rcases ha with rfl | rfl | rfl <;> exact ⟨4, by decide, rfl, rfl⟩)
    rfl (by simp [SameOrDisjoint, ptrOf, Demo.arr]) (by
      intro a ha
      simp at ha
      rcases ha with rfl | rfl | rfl <;> decide +kernel)
  simpa [formula, mapConst, ptrOf, Demo.arr] using this

/-- Arrays that are not one-dimensional, have gaps or are too small are rejected. -/
theorem unusable_rejected (cast : Ty → K → K) (address : Nat → BitVec 64) (debug : Bool) (c : Container) (t : Ty) (m : Mem K)
    (op : Op K) (ins : List Arg) (out : Arg) (n al : Nat) (hn : n < 2 ^ 63) (hal : al < 2 ^ 64)
    (hk : ∀ a ∈ out :: ins, kindOf a = some (c, t)) (hv : ∀ a ∈ out :: ins, Valid m a)
    (hu : ∃ a ∈ out :: ins, ¬ Usable m n a) :
    call cast address debug m (mapConst (python t) op) ins out n al = .throw .invalidArgument := by
  rw [call_exact cast address debug c t m op ins out n al (by omega) hal hk]
  unfold body
  by_cases h : ∃ a ∈ ins, ¬ Usable m n a
  · rw [accessAll_unusable m n hn ins (fun a hm => hv a (by simp [hm])) h]
    rfl
  · have h' : ∀ a ∈ ins, Usable m n a := fun a hm => by
      by_contra hc
      exact h ⟨a, hm, hc⟩
    rw [accessAll_usable m n hn ins h', Outcome.ok_bind]
    obtain ⟨a, hm, hc⟩ := hu
    rcases List.mem_cons.1 hm with rfl | hm
    · rw [access_unusable true m n hn a (hv a (by simp)) hc]
      rfl
    · exact absurd (h' a hm) hc

example : call Demo.same Demo.address true Demo.mem (mapConst (python .f32) .copy) [Demo.arr .f32 0] (Demo.arr .f32 1) (5 : Nat) (0 : Nat) =
    .throw .invalidArgument :=
  unusable_rejected Demo.same Demo.address true .pyArray .f32 Demo.mem .copy [Demo.arr .f32 0] (Demo.arr .f32 1) 5 0 (by decide)
    (by decide) (by simp [kindOf, Demo.arr])
    (by
      intro a ha
      simp at ha
      rcases ha with rfl | rfl <;> exact Demo.arr_valid _ _ (by decide))
    ⟨Demo.arr .f32 0, by simp, by
      rintro ⟨size, h1, h2, _⟩
      simp at h2
      omega⟩

/-- A result array that must not be changed is rejected. -/
theorem read_only_rejected (cast : Ty → K → K) (address : Nat → BitVec 64) (debug : Bool) (c : Container) (t : Ty) (m : Mem K)
    (op : Op K) (ins : List Arg) (out : Arg) (n al : Nat) (hn : n < 2 ^ 63) (hal : al < 2 ^ 64)
    (hk : ∀ a ∈ out :: ins, kindOf a = some (c, t)) (hu : ∀ a ∈ out :: ins, Usable m n a) (hw : ¬ Writeable out) :
    call cast address debug m (mapConst (python t) op) ins out n al = .throw .logicError := by
  rw [call_exact cast address debug c t m op ins out n al (by omega) hal hk]
  unfold body
  rw [accessAll_usable m n hn ins (fun a hm => hu a (by simp [hm])), Outcome.ok_bind]
  have h := hu out (by simp)
  cases out with
  | vec t o => exact absurd trivial hw
  | array a =>
    obtain ⟨size, hsz, h1, h2⟩ := h
    have e1 : a.shape.headD 0 = size := by rw [h1]; rfl
    have e2 : a.strides.headD 0 = 1 := by rw [h2]; rfl
    have hi : (BitVec.ofNat 64 n).toInt = n := by
      rw [BitVec.toInt_eq_toNat_of_lt] <;> rw [BitVec.toNat_ofNat, Nat.mod_eq_of_lt (by omega)]
      omega
    have hw' : a.writeable = false := by
      cases hq : a.writeable
      · rfl
      · exact absurd hq hw
    rw [access, hi, if_neg (by rw [h1]; simp), if_neg (by rw [e2]; simp), if_neg (by rw [e1]; omega), if_pos (by simp [hw'])]
    rfl

example : call Demo.same Demo.address true Demo.mem (mapConst (python .f32) .copy) [Demo.arr .f32 0]
    (.array ⟨.num .f32, ⟨1, 0⟩, [4], [1], false⟩) (4 : Nat) (0 : Nat) = .throw .logicError :=
  read_only_rejected Demo.same Demo.address true .pyArray .f32 Demo.mem .copy [Demo.arr .f32 0] _ 4 0 (by decide) (by decide)
    (by simp [kindOf, Demo.arr])
    (by
      intro a ha
      simp at ha
      rcases ha with rfl | rfl <;> exact ⟨4, by decide, rfl, rfl⟩) (by simp [Writeable])

/-- Pointers that do not have the requested alignment raise an exception. -/
theorem misaligned_raises (cast : Ty → K → K) (address : Nat → BitVec 64) (debug : Bool) (c : Container) (t : Ty) (m : Mem K)
    (op : Op K) (ins : List Arg) (out : Arg) (n al : Nat) (hn : n < 2 ^ 63) (hal : al < 2 ^ 64) (hlen : ins.length = op.arity)
    (hk : ∀ a ∈ out :: ins, kindOf a = some (c, t)) (hu : ∀ a ∈ out :: ins, Usable m n a) (hw : Writeable out)
    (ha : ∃ a ∈ out :: ins, aligned ⟨address, t.size⟩ (BitVec.ofNat 64 al) (ptrOf a) = false)
    (hd : debug = true ∨ ∀ g r acc, op ≠ .rampScaling g r acc) :
    call cast address debug m (mapConst (python t) op) ins out n al = .throw .runtimeError := by
  rw [call_exact cast address debug c t m op ins out n al (by omega) hal hk]
  unfold body
  rw [accessAll_usable m n hn ins (fun a hm => hu a (by simp [hm])), Outcome.ok_bind,
    access_usable true m n hn out (hu out (by simp)) (fun _ => hw), Outcome.ok_bind]
  obtain ⟨a, hm, hf⟩ := ha
  rw [misaligned_rejected (mapConst (cast t) op) ⟨address, t.size⟩ debug m.heap (ins.map ptrOf) (ptrOf out) _ _
    (by rw [List.length_map, hlen, arity_mapConst]) (ptrOf a)
    (by
      rcases List.mem_cons.1 hm with rfl | hm
      · simp
      · exact List.mem_cons_of_mem _ (List.mem_map_of_mem hm)) hf
    (by
      rcases hd with hd | hd
      · exact .inl hd
      · right
        intro g r acc he
        cases op <;> simp [mapConst] at he
        exact hd _ _ _ rfl), Outcome.ok_bind]
  rfl

example : call Demo.same Demo.address true Demo.mem (mapConst (python .f32) .copy) [Demo.arr .f32 0]
    (.array ⟨.num .f32, ⟨1, 1⟩, [3], [1], true⟩) (3 : Nat) (4 : Nat) = .throw .runtimeError :=
  misaligned_raises Demo.same Demo.address true .pyArray .f32 Demo.mem .copy [Demo.arr .f32 0] _ 3 4 (by decide) (by decide) rfl
    (by simp [kindOf, Demo.arr])
    (by
      intro a ha
      simp at ha
      rcases ha with rfl | rfl
      · exact ⟨3, by decide, rfl, rfl⟩
      · exact ⟨4, by decide, rfl, rfl⟩) rfl ⟨_, List.mem_cons_self, by decide +kernel⟩ (.inl rfl)

/-- **C84.** Whatever the types, shapes and sizes of the arguments are: no memory outside of the arrays is accessed, for numbers
of elements up to `2 ^ 63`. (Missing: larger numbers, see `huge_count_undefined`.) -/
theorem never_outside_partial (cast : Ty → K → K) (address : Nat → BitVec 64) (debug : Bool) (m : Mem K) (op : Op (Scalar K))
    (ins : List Arg) (out : Arg) (n al : Int) (hn : n < 2 ^ 63) (hlen : ins.length = op.arity) (hv : ∀ a ∈ out :: ins, Valid m a) :
    call cast address debug m op ins out n al ≠ .ub := by
  rcases call_cases cast address debug m op ins out n al with h | ⟨convert, c, t, h⟩
  · rw [h]; simp
  · obtain ⟨op', ins', out', m2, n', al', m1, e, hl, _, hv', _, hsz, _⟩ := tryCall_some cast address debug convert c t m op ins out n al
      _ h hv hlen
    rw [e]
    refine body_not_ub address debug t m2 op' ins' out' n' al' hl ?_ hv'
    unfold loadSize at hsz
    split at hsz
    · rename_i h1
      cases hsz
      rw [BitVec.toNat_ofInt]
      omega
    · cases hsz

example : call Demo.same Demo.address true Demo.mem (.multiplyConstant (.int 2)) [Demo.arr .c128 0] (.vec .f64 1) 1000 0 ≠ .ub :=
  never_outside_partial _ _ _ _ _ _ _ _ _ (by decide) rfl (by
    intro a ha
    simp at ha
    rcases ha with rfl | rfl
    · show 1 < 4
      decide
    · exact Demo.arr_valid _ _ (by decide))

/-- Whatever the arguments are: only the result array changes. -/
theorem others_unchanged (cast : Ty → K → K) (address : Nat → BitVec 64) (debug : Bool) (m m' : Mem K) (op : Op (Scalar K))
    (ins : List Arg) (out : Arg) (n al : Int) (hlen : ins.length = op.arity) (hv : ∀ a ∈ out :: ins, Valid m a)
    (h : call cast address debug m op ins out n al = .ok m') (o : Nat) (ho : o < m.next) (hne : o ≠ (ptrOf out).obj) :
    m'.heap o = m.heap o := by
  rcases call_cases cast address debug m op ins out n al with hc | ⟨convert, c, t, hc⟩
  · rw [hc] at h; cases h
  · obtain ⟨op', ins', out', m2, n', al', m1, e, hl, hx, hv', hp, _⟩ := tryCall_some cast address debug convert c t m op ins out n al
      _ hc hv hlen
    rw [h] at e
    obtain ⟨_, hf⟩ := body_frame address debug t m2 m' op' ins' out' n' al' hl e.symm
    rw [hf o (by rcases hp with hp | hp <;> omega), hx.2 o ho]

example : ∃ m', call Demo.same Demo.address true Demo.mem (.multiplyConstant (.int 2)) [Demo.arr .f32 0] (Demo.arr .f32 1) 4 0 =
    .ok m' ∧ m'.heap 0 = [1, 2, 3, 4] := by
  refine ⟨_, rfl, ?_⟩
  refine (others_unchanged Demo.same Demo.address true Demo.mem _ (.multiplyConstant (.int 2)) [Demo.arr .f32 0] (Demo.arr .f32 1) 4 0
    rfl ?_ rfl 0 (by decide) (by decide)).trans rfl
  intro a ha
  simp at ha
  rcases ha with rfl | rfl <;> exact Demo.arr_valid _ _ (by decide)

/-! ### Where the property is false of the code -/

/-- A number of elements from `2 ^ 63` passes the test of the size of a NumPy array, because it is negative when it is compared:
memory outside of the arrays is accessed. -/
theorem huge_count_undefined (cast : Ty → K → K) (address : Nat → BitVec 64) (debug : Bool) (t : Ty) (m : Mem K)
    (op : Op K) (ins : List Arg) (out : Arg) (n : Nat) (hn : 2 ^ 63 ≤ n) (hn' : n < 2 ^ 64) (hlen : ins.length = op.arity)
    (hk : ∀ a ∈ out :: ins, kindOf a = some (.pyArray, t)) (hu : ∀ a ∈ out :: ins, Usable m 0 a) (hw : Writeable out)
    (hb : (m.heap (ptrOf out).obj).length < 2 ^ 63) :
    call cast address debug m (mapConst (python t) op) ins out n (0 : Nat) = .ub := by
  rw [call_exact cast address debug .pyArray t m op ins out n 0 hn' (by decide) hk]
  have hacc : ∀ a ∈ out :: ins, ∀ mu, (mu = true → Writeable a) → access mu m (BitVec.ofNat 64 n) a = .ok (ptrOf a) := by
    intro a hm mu hwr
    have h1 := hk a hm
    have h2 := hu a hm
    cases a with
    | vec t' o => simp [kindOf] at h1
    | array a =>
      obtain ⟨size, _, h3, h4⟩ := h2
      have e1 : a.shape.headD 0 = size := by rw [h3]; rfl
      have e2 : a.strides.headD 0 = 1 := by rw [h4]; rfl
      have hneg : (BitVec.ofNat 64 n).toInt < 0 := by
        rw [BitVec.toInt_eq_toNat_cond, BitVec.toNat_ofNat, Nat.mod_eq_of_lt hn', if_neg (by omega)]
        omega
      rw [access, if_neg (by rw [h3]; simp), if_neg (by rw [e2]; simp), if_neg (by rw [e1]; omega), if_neg]
      · rfl
      · cases mu
        · simp
        · have : a.writeable = true := hwr rfl
          simp [this]
  have hall : ∀ as : List Arg, (∀ a ∈ as, a ∈ ins) → accessAll m (BitVec.ofNat 64 n) as = .ok (as.map ptrOf) := by
    intro as
    induction as with
    | nil => intro _; rfl
    | cons a as ih =>
      intro hsub
      rw [accessAll, hacc a (by simp [hsub a]) false (by simp), Outcome.ok_bind, ih (fun b hb => hsub b (by simp [hb]))]
      rfl
  unfold body
  rw [hall ins (fun _ h => h), Outcome.ok_bind, hacc out (by simp) true (fun _ => hw), Outcome.ok_bind]
  rw [short_array_undefined (mapConst (cast t) op) ⟨address, t.size⟩ debug m.heap (ins.map ptrOf) (ptrOf out) _ _
    (by rw [List.length_map, hlen, arity_mapConst])
    (by
      intro p _
      unfold aligned
      cases t <;> simp [Efl.checkAlignment])
    (by rw [BitVec.toNat_ofNat, Nat.mod_eq_of_lt hn']; omega) (ptrOf out) (by simp)
    (by
      unfold InBounds
      rw [BitVec.toNat_ofNat, Nat.mod_eq_of_lt hn']
      omega)]
  rfl

example : call Demo.same Demo.address true Demo.mem (mapConst (python .f64) .zero) [] (Demo.arr .f64 1) ((2 ^ 63 : Nat) : Int) (0 : Nat) =
    .ub :=
  huge_count_undefined Demo.same Demo.address true .f64 Demo.mem .zero [] (Demo.arr .f64 1) (2 ^ 63) (by decide) (by decide) rfl
    (by simp [kindOf, Demo.arr])
    (by
      intro a ha
      simp at ha
      subst ha
      exact ⟨4, by decide, rfl, rfl⟩) rfl (by decide)

/-- If the arrays are of different types, or a constant is a Python integer, a call that succeeds does not store anything: the
result of another element type than `float` is computed in a converted copy, which is discarded. -/
theorem result_lost (cast : Ty → K → K) (address : Nat → BitVec 64) (debug : Bool) (m m' : Mem K) (op : Op (Scalar K))
    (ins : List Arg) (out : Arg) (n al : Int) (hlen : ins.length = op.arity) (hv : ∀ a ∈ out :: ins, Valid m a)
    (hout : ∀ c, kindOf out ≠ some (c, .f32)) (hcx : ∀ s ∈ consts op, ∀ v, s ≠ .complex v)
    (hmix : (∃ a ∈ ins, kindOf a ≠ kindOf out) ∨ ∃ v, .int v ∈ consts op)
    (h : call cast address debug m op ins out n al = .ok m') :
    ∀ o, o < m.next → m'.heap o = m.heap o := by
  have h1 : (overloads.findSome? fun ct => tryCall cast address debug false ct.1 ct.2 m op ins out n al) = none := by
    rw [List.findSome?_eq_none_iff]
    intro ct _
    rcases hmix with ⟨a, ha, hne⟩ | ⟨v, hi⟩
    · by_cases hk : kindOf out = some (ct.1, ct.2)
      · exact tryCall_mixed _ _ _ _ _ _ _ _ _ _ _ ⟨a, by simp [ha], by rw [← hk]; exact hne⟩
      · exact tryCall_mixed _ _ _ _ _ _ _ _ _ _ _ ⟨out, by simp, hk⟩
    · unfold tryCall
      rw [mapOp_none _ op ⟨_, hi, by simp [loadScalar]⟩]
      rfl
  obtain ⟨op', hop, _⟩ := mapOp_some (loadScalar cast true .f32) op (by
    intro s hs
    cases s with
    | float v => exact ⟨_, by simp [loadScalar]; rfl⟩
    | int v => exact ⟨_, by simp [loadScalar]; rfl⟩
    | complex v => exact absurd rfl (hcx _ hs v))
  obtain ⟨⟨ins', m1⟩, hins⟩ := loadArgs_pyArray cast .f32 ins m
  obtain ⟨⟨out', m2⟩, hout'⟩ := loadArg_pyArray cast .f32 m1 out
  -- the first overload is called
  have hfirst : tryCall cast address debug true .pyArray .f32 m op ins out n al = some (.ok m') := by
    unfold call at h
    rw [h1] at h
    simp only at h
    cases hn : loadSize n with
    | none =>
      exfalso
      have : (overloads.findSome? fun ct => tryCall cast address debug true ct.1 ct.2 m op ins out n al) = none := by
        rw [List.findSome?_eq_none_iff]
        intro ct _
        cases ht : tryCall cast address debug true ct.1 ct.2 m op ins out n al with
        | none => rfl
        | some r =>
          obtain ⟨_, _, _, _, n', _, _, _, _, _, _, _, hc, _⟩ := tryCall_some _ _ _ _ _ _ _ _ _ _ _ _ _ ht hv hlen
          rw [hn] at hc; cases hc
      rw [this] at h; cases h
    | some n' =>
      cases hal : loadSize al with
      | none =>
        exfalso
        have : (overloads.findSome? fun ct => tryCall cast address debug true ct.1 ct.2 m op ins out n al) = none := by
          rw [List.findSome?_eq_none_iff]
          intro ct _
          unfold tryCall
          rw [hal]
          simp [hn]
        rw [this] at h; cases h
      | some al' =>
        have e := tryCall_eq cast address debug true .pyArray .f32 m m1 m2 op op' ins ins' out out' n al n' al' hop hins hout' hn hal
        have : (overloads.findSome? fun ct => tryCall cast address debug true ct.1 ct.2 m op ins out n al) =
            some (body address debug .f32 m2 op' ins' out' n' al') := by
          unfold overloads
          rw [List.findSome?_cons, e]
        rw [this] at h
        simp only at h
        rw [e, h]
  obtain ⟨op'', ins'', out'', m2', n', al', m1', e, hl, hx, hv', _, _, hx1, hld⟩ := tryCall_some _ _ _ _ _ _ _ _ _ _ _ _ _ hfirst hv hlen
  obtain ⟨_, hf⟩ := body_frame address debug .f32 m2' m' op'' ins'' out'' n' al' hl e.symm
  -- the output is in new memory
  have hnew : m1'.next ≤ (ptrOf out'').obj := by
    cases out with
    | array a =>
      rw [loadArg] at hld
      have hd : a.dtype ≠ .num .f32 := by
        intro hd
        exact hout .pyArray (by simp [kindOf, hd])
      rw [if_neg hd, if_pos rfl] at hld
      simp only [Option.some.injEq, Prod.mk.injEq] at hld
      rw [← hld.1]
      exact Nat.le_refl _
    | vec t o =>
      rw [loadArg] at hld
      have hd : t ≠ .f32 := by
        intro hd
        exact hout .basicVector (by simp [kindOf, hd])
      rw [if_neg (by simp), if_neg hd] at hld
      simp only [Option.some.injEq, Prod.mk.injEq] at hld
      rw [← hld.1]
      exact Nat.le_refl _
  intro o ho
  rw [hf o (by have := hx1.1; omega), hx.2 o ho]

/-- `vectorFill( 1, … )` for an array of `double`: accepted, and nothing is stored. -/
theorem fill_integer_lost : Demo.show3 (call Demo.same Demo.address true Demo.mem (.fill (.int 1)) [] (Demo.arr .f64 1) 4 0) =
    .ok [[1, 2, 3, 4], [10, 20, 30, 40], [5, 5, 5, 5]] := by decide +kernel

example : ∀ m', call Demo.same Demo.address true Demo.mem (.fill (.int 1)) [] (Demo.arr .f64 1) 4 0 = .ok m' →
    ∀ o, o < 4 → m'.heap o = Demo.mem.heap o := fun m' h =>
  result_lost Demo.same Demo.address true Demo.mem m' (.fill (.int 1)) [] (Demo.arr .f64 1) 4 0 rfl
    (by
      intro a ha
      simp at ha
      subst ha
      exact Demo.arr_valid _ _ (by decide))
    (by simp [kindOf, Demo.arr]) (by simp [consts]) (.inr ⟨1, by simp [consts]⟩) h

/-! ### Strides -/

theorem copyLoop_ub (ss ds : Nat) : ∀ (n : Nat) (src dest : Ptr) (h : Heap K),
    (∃ i, i < n ∧ ((h src.obj).length ≤ src.idx + i * ss ∨ (h dest.obj).length ≤ dest.idx + i * ds)) →
    copyLoop ss ds n src dest h = .ub
  | 0, _, _, _, hx => by obtain ⟨i, hi, _⟩ := hx; omega
  | n + 1, src, dest, h, hx => by
    rw [copyLoop]
    by_cases h1 : src.idx + 0 < (h src.obj).length
    · rw [read_cell h src 0 h1, Outcome.ok_bind]
      by_cases h2 : dest.idx + 0 < (h dest.obj).length
      · rw [write_stored h dest 0 _ h2, Outcome.ok_bind]
        apply copyLoop_ub
        obtain ⟨i, hi, hx⟩ := hx
        match i with
        | 0 =>
          simp only [Nat.zero_mul] at hx
          omega
        | i + 1 =>
          refine ⟨i, by omega, ?_⟩
          simp only [stored_length]
          rw [Nat.add_mul, Nat.add_mul] at hx
          omega
      · rw [write, if_neg h2]; rfl
    · have : VectorFn.read h src 0 = .ub := by
        simp only [VectorFn.read]
        rw [List.getElem?_eq_none (by omega)]
      rw [this]; rfl

/-- `vectorCopyStrided` from Python copies every `ss`-th element to every `ds`-th, if the products are less than `2 ^ 63` and the
arrays have at least `n * ss` and `n * ds` elements. (Missing: `(n - 1) * stride + 1` elements would suffice; other products, see
`copy_strided_undefined`.) -/
theorem copy_strided_partial (address : Nat → BitVec 64) (t : Ty) (m : Mem K) (src dest : Arg) (ss ds n al : Nat) (hpos : 0 < ss)
    (hposd : 0 < ds) (h1 : n * ss < 2 ^ 63) (h2 : n * ds < 2 ^ 63) (hss : ss < 2 ^ 64) (hds : ds < 2 ^ 64)
    (hvs : Valid m src) (hvd : Valid m dest) (hus : Usable m (n * ss) src) (hud : Usable m (n * ds) dest) (hw : Writeable dest)
    (hne : (ptrOf src).obj ≠ (ptrOf dest).obj) (has : aligned ⟨address, t.size⟩ (BitVec.ofNat 64 al) (ptrOf src) = true)
    (had : aligned ⟨address, t.size⟩ (BitVec.ofNat 64 al) (ptrOf dest) = true) :
    ∃ h', copyStrided address t m src dest (BitVec.ofNat 64 ss) (BitVec.ofNat 64 ds) (BitVec.ofNat 64 n) (BitVec.ofNat 64 al) =
        .ok ⟨h', m.next⟩ ∧ (∀ o, o ≠ (ptrOf dest).obj → h' o = m.heap o) ∧
      (∀ i, i < n → (h' (ptrOf dest).obj)[(ptrOf dest).idx + i * ds]? = (m.heap (ptrOf src).obj)[(ptrOf src).idx + i * ss]?) ∧
      ∀ x, (∀ i, i < n → x ≠ (ptrOf dest).idx + i * ds) → (h' (ptrOf dest).obj)[x]? = (m.heap (ptrOf dest).obj)[x]? := by
  have hin : ∀ (a : Arg) (s : Nat), 0 < s → Valid m a → Usable m (n * s) a → ∀ i, i < n →
      (ptrOf a).idx + i * s < (m.heap (ptrOf a).obj).length := by
    intro a s hs hv hu i hi
    have hle : i * s + s ≤ n * s := by
      have := Nat.mul_le_mul_right s (show i + 1 ≤ n by omega)
      rwa [Nat.add_mul, Nat.one_mul] at this
    cases a with
    | array a =>
      obtain ⟨size, hsz, e1, e2⟩ := hu
      have := hv.2.2 size e1 e2
      simp only [ptrOf]
      omega
    | vec t o =>
      have : n * s ≤ (m.heap o).length := hu
      simp only [ptrOf]
      omega
  have hn : n < 2 ^ 63 := Nat.lt_of_le_of_lt (Nat.le_mul_of_pos_right n hpos) h1
  obtain ⟨h', e, hr⟩ := copied_with_strides ⟨address, t.size⟩ m.heap (ptrOf src) (ptrOf dest) ss ds n (BitVec.ofNat 64 al) hne
    (hin src ss hpos hvs hus) (hin dest ds hposd hvd hud) hposd has had
  refine ⟨h', ?_, hr⟩
  unfold copyStrided
  rw [← BitVec.ofNat_mul, ← BitVec.ofNat_mul, access_usable false m _ h1 src hus (by simp), Outcome.ok_bind,
    access_usable true m _ h2 dest hud (fun _ => hw), Outcome.ok_bind]
  simp only [BitVec.toNat_ofNat, Nat.mod_eq_of_lt hss, Nat.mod_eq_of_lt hds, Nat.mod_eq_of_lt (show n < 2 ^ 64 by omega)]
  rw [e]
  rfl

example : Demo.show3 (copyStrided Demo.address .f32 Demo.mem (Demo.arr .f32 0) (Demo.arr .f32 1) 1 2 2 0) =
    .ok [[1, 2, 3, 4], [1, 20, 2, 40], [5, 5, 5, 5]] := by decide +kernel

example : ∃ h', copyStrided Demo.address .f32 Demo.mem (Demo.arr .f32 0) (Demo.arr .f32 1) (BitVec.ofNat 64 1) (BitVec.ofNat 64 2)
    (BitVec.ofNat 64 2) (BitVec.ofNat 64 0) = .ok ⟨h', Demo.mem.next⟩ := by
  obtain ⟨h', e, _⟩ := copy_strided_partial Demo.address .f32 Demo.mem (Demo.arr .f32 0) (Demo.arr .f32 1) 1 2 2 0 (by decide)
    (by decide) (by decide) (by decide) (by decide) (by decide) (Demo.arr_valid _ _ (by decide))
    (Demo.arr_valid _ _ (by decide)) ⟨4, by decide, rfl, rfl⟩ ⟨4, by decide, rfl, rfl⟩ rfl (by decide) (by decide +kernel)
    (by decide +kernel)
  exact ⟨h', e⟩

/-- Two elements at distance two are within an array of three elements, but are rejected. -/
theorem copy_strided_too_strict : copyStrided Demo.address .f32 Demo.mem (.array ⟨.num .f32, ⟨0, 0⟩, [3], [1], true⟩) (Demo.arr .f32 1)
    2 1 2 0 = .throw .invalidArgument := rfl

/-- The product of the number of elements and the stride is computed modulo `2 ^ 64`: it can be small or, as a signed number,
negative for accesses outside of the arrays. -/
theorem copy_strided_undefined (address : Nat → BitVec 64) (t : Ty) (m : Mem K) (src dest : Arg) (ss ds n : BitVec 64)
    (hs : access false m (n * ss) src = .ok (ptrOf src)) (hd : access true m (n * ds) dest = .ok (ptrOf dest))
    (hout : ∃ i, i < n.toNat ∧ ((m.heap (ptrOf src).obj).length ≤ (ptrOf src).idx + i * ss.toNat ∨
      (m.heap (ptrOf dest).obj).length ≤ (ptrOf dest).idx + i * ds.toNat)) :
    copyStrided address t m src dest ss ds n 0 = .ub := by
  unfold copyStrided
  rw [hs, Outcome.ok_bind, hd, Outcome.ok_bind]
  unfold vectorCopyStrided checked
  rw [if_pos, copyLoop_ub _ _ _ _ _ _ hout]
  · rfl
  · rw [List.all_eq_true]
    intro p _
    unfold aligned
    cases t <;> simp [Efl.checkAlignment]

/-- `2 ^ 63` elements with stride two: the product is zero, and every array is accepted. -/
theorem copy_strided_wraps :
    copyStrided Demo.address .f32 Demo.mem (Demo.arr .f32 0) (Demo.arr .f32 1) 2 2 (BitVec.ofNat 64 (2 ^ 63)) 0 = .ub :=
  copy_strided_undefined _ _ _ _ _ _ _ _ (by decide +kernel) (by decide +kernel) ⟨2, by decide, by decide⟩

/-- The functions that convert with strides test the sizes of the arrays without the strides: memory outside of the arrays is
accessed as soon as an element is behind the end. -/
theorem convert_strided_undefined {A B : Type} (address : Nat → BitVec 64) (sizeIn sizeOut : BitVec 64) (f : A → B) (mi : Mem A)
    (mo : Mem B) (src dest : Arg) (n is os : Nat) (hn : n < 2 ^ 63) (his : is < 2 ^ 64) (hos : os < 2 ^ 64)
    (hus : Usable mi n src) (hud : Usable mo n dest) (hw : Writeable dest)
    (hout : ∃ k < n, (mi.heap (ptrOf src).obj).length ≤ (ptrOf src).idx + k * is ∨
      (mo.heap (ptrOf dest).obj).length ≤ (ptrOf dest).idx + k * os) :
    convertStrided address sizeIn sizeOut (fun v => .ok (f v)) mi mo src dest (BitVec.ofNat 64 n) (BitVec.ofNat 64 is)
      (BitVec.ofNat 64 os) 0 = .ub := by
  unfold convertStrided
  rw [access_usable false mi n hn src hus (by simp), Outcome.ok_bind, access_usable true mo n hn dest hud (fun _ => hw), Outcome.ok_bind]
  simp only [BitVec.toNat_ofNat, Nat.mod_eq_of_lt his, Nat.mod_eq_of_lt hos, Nat.mod_eq_of_lt (show n < 2 ^ 64 by omega)]
  rw [Conversion.outside_undefined sizeIn sizeOut f _ _ _ _ n is os hout]
  rfl

example : convertStrided Demo.address 4 8 (fun v => .ok v) Demo.mem Demo.mem (Demo.arr .f32 0) (Demo.arr .f64 1) (BitVec.ofNat 64 4)
    (BitVec.ofNat 64 2) (BitVec.ofNat 64 1) 0 = .ub :=
  convert_strided_undefined Demo.address 4 8 id Demo.mem Demo.mem (Demo.arr .f32 0) (Demo.arr .f64 1) 4 2 1 (by decide) (by decide)
    (by decide) ⟨4, by decide, rfl, rfl⟩ ⟨4, by decide, rfl, rfl⟩ rfl ⟨2, by decide, by decide⟩

/-- With all elements inside, the conversions are those of C81. -/
theorem convert_strided_partial {A B : Type} (address : Nat → BitVec 64) (sizeIn sizeOut : BitVec 64) (f : A → B) (mi : Mem A)
    (mo : Mem B) (src dest : Arg) (n is os al : Nat) (hn : n < 2 ^ 63) (his : is < 2 ^ 64) (hos : os < 2 ^ 64) (hpos : 1 ≤ os)
    (hus : Usable mi n src) (hud : Usable mo n dest) (hw : Writeable dest)
    (has : Efl.checkAlignment sizeIn (pointer address sizeIn (ptrOf src)).address (BitVec.ofNat 64 al) = true)
    (had : Efl.checkAlignment sizeOut (pointer address sizeOut (ptrOf dest)).address (BitVec.ofNat 64 al) = true) (x : Nat → A)
    (hx : ∀ k < n, (mi.heap (ptrOf src).obj)[(ptrOf src).idx + k * is]? = some (x k))
    (hb : ∀ k < n, (ptrOf dest).idx + k * os < (mo.heap (ptrOf dest).obj).length) :
    ∃ m', convertStrided address sizeIn sizeOut (fun v => .ok (f v)) mi mo src dest (BitVec.ofNat 64 n) (BitVec.ofNat 64 is)
        (BitVec.ofNat 64 os) (BitVec.ofNat 64 al) = .ok m' ∧ (∀ o, o ≠ (ptrOf dest).obj → m'.heap o = mo.heap o) ∧
      (∀ k < n, (m'.heap (ptrOf dest).obj)[(ptrOf dest).idx + k * os]? = some (f (x k))) ∧
      ∀ j, (∀ k < n, j ≠ (ptrOf dest).idx + k * os) → (m'.heap (ptrOf dest).obj)[j]? = (mo.heap (ptrOf dest).obj)[j]? := by
  obtain ⟨d, e, _, h2, h3⟩ := Conversion.converted sizeIn sizeOut (fun v => .ok (f v)) (mi.heap (ptrOf src).obj)
    (pointer address sizeIn (ptrOf src)) (mo.heap (ptrOf dest).obj) (pointer address sizeOut (ptrOf dest)) n is os
    (BitVec.ofNat 64 al) hpos has had x (fun k => f (x k)) hx (fun _ _ => rfl) hb
  refine ⟨⟨fun o => if o = (ptrOf dest).obj then d else mo.heap o, mo.next⟩, ?_, ?_, ?_, ?_⟩
  · unfold convertStrided
    rw [access_usable false mi n hn src hus (by simp), Outcome.ok_bind, access_usable true mo n hn dest hud (fun _ => hw),
      Outcome.ok_bind]
    simp only [BitVec.toNat_ofNat, Nat.mod_eq_of_lt his, Nat.mod_eq_of_lt hos, Nat.mod_eq_of_lt (show n < 2 ^ 64 by omega)]
    rw [e]
    rfl
  · intro o ho; simp [ho]
  · intro k hk; simpa [pointer] using h2 k hk
  · intro j hj; simpa [pointer] using h3 j hj

example : ∃ m', convertStrided Demo.address 4 8 (fun v => .ok v) Demo.mem Demo.mem (Demo.arr .f32 0) (Demo.arr .f64 1)
    (BitVec.ofNat 64 2) (BitVec.ofNat 64 2) (BitVec.ofNat 64 3) (BitVec.ofNat 64 0) = .ok m' ∧ (m'.heap 1)[3]? = some 3 := by
  obtain ⟨m', e, _, h, _⟩ := convert_strided_partial Demo.address 4 8 id Demo.mem Demo.mem (Demo.arr .f32 0) (Demo.arr .f64 1) 2 2 3 0
    (by decide) (by decide) (by decide) (by decide) ⟨4, by decide, rfl, rfl⟩ ⟨4, by decide, rfl, rfl⟩ rfl (by decide +kernel)
    (by decide +kernel) (fun k => if k = 0 then 1 else 3)
    (by intro k hk; interval_cases k <;> rfl) (by intro k hk; interval_cases k <;> decide)
  exact ⟨m', e, h 1 (by decide)⟩

/-! ### Recursive filters -/

theorem toInt_ofNat (n : Nat) (h : n < 2 ^ 63) : (BitVec.ofNat 64 n).toInt = n := by
  rw [BitVec.toInt_eq_toNat_of_lt] <;> rw [BitVec.toNat_ofNat, Nat.mod_eq_of_lt (by omega)]
  omega

/-- With strides of at least two states and five coefficients per section, the arrays that are accepted are large enough, and the
result is that of the filter (C21). -/
theorem iir_partial (input states coeffs : List K) (outSize n sections ss cs : Nat) (hn : n ≤ input.length) (ho : n ≤ outSize)
    (hn' : n < 2 ^ 63) (hss : 2 ≤ ss) (hcs : 5 ≤ cs) (h1 : sections * ss < 2 ^ 63) (h2 : sections * cs < 2 ^ 63)
    (hss' : ss < 2 ^ 64) (hcs' : cs < 2 ^ 64) (hsec : sections < 2 ^ 64)
    (hs : sections * ss ≤ states.length) (hc : sections * cs ≤ coeffs.length) :
    iir input states coeffs outSize (BitVec.ofNat 64 n) (BitVec.ofNat 64 sections) (BitVec.ofNat 64 ss) (BitVec.ofNat 64 cs) =
      .ok (Biquad.iirFilterBiquadsSingleChannel (input.take n) (fun i => states.getD i 0) (fun i => coeffs.getD i 0) sections ss cs) := by
  unfold iir
  rw [← BitVec.ofNat_mul, ← BitVec.ofNat_mul, Nat.mul_comm cs, toInt_ofNat n hn', toInt_ofNat _ h1, toInt_ofNat _ h2]
  simp only [BitVec.toNat_ofNat, Nat.mod_eq_of_lt hss', Nat.mod_eq_of_lt hcs', Nat.mod_eq_of_lt hsec,
    Nat.mod_eq_of_lt (show n < 2 ^ 64 by omega)]
  rw [if_neg (by omega), if_neg (by omega), if_neg (by omega), if_neg (by omega), if_pos]
  simp only [Bool.and_eq_true, decide_eq_true_eq, iirInside, List.all_eq_true, List.mem_range, Bool.or_eq_true]
  refine ⟨⟨hn, ho⟩, fun k hk => ?_⟩
  have e1 : k * ss + ss ≤ sections * ss := by
    have := Nat.mul_le_mul_right ss (show k + 1 ≤ sections by omega)
    rwa [Nat.add_mul, Nat.one_mul] at this
  have e2 : k * cs + cs ≤ sections * cs := by
    have := Nat.mul_le_mul_right cs (show k + 1 ≤ sections by omega)
    rwa [Nat.add_mul, Nat.one_mul] at this
  exact ⟨by omega, .inr (by omega)⟩

/-- Arrays that are too small for these strides are rejected. -/
theorem iir_short_rejected (input states coeffs : List K) (outSize n sections ss cs : Nat) (hn' : n < 2 ^ 63)
    (h1 : sections * ss < 2 ^ 63) (h2 : sections * cs < 2 ^ 63)
    (h : input.length < n ∨ outSize < n ∨ states.length < sections * ss ∨ coeffs.length < sections * cs) :
    iir input states coeffs outSize (BitVec.ofNat 64 n) (BitVec.ofNat 64 sections) (BitVec.ofNat 64 ss) (BitVec.ofNat 64 cs) =
      .throw .invalidArgument := by
  unfold iir
  rw [← BitVec.ofNat_mul, ← BitVec.ofNat_mul, Nat.mul_comm cs, toInt_ofNat n hn', toInt_ofNat _ h1, toInt_ofNat _ h2]
  split
  · rfl
  · split
    · rfl
    · split
      · rfl
      · split
        · rfl
        · omega

example : iir [1, 2, (3 : ℚ)] [0, 0] [1, 1, 0, 0, 0] 3 (BitVec.ofNat 64 3) (BitVec.ofNat 64 1) (BitVec.ofNat 64 2) (BitVec.ofNat 64 5) =
    .ok (Biquad.iirFilterBiquadsSingleChannel [1, 2, 3] (fun i => [0, 0].getD i 0) (fun i => [1, 1, 0, 0, 0].getD i 0) 1 2 5) :=
  iir_partial _ _ _ _ 3 1 2 5 (by decide) (by decide) (by decide) (by decide) (by decide) (by decide) (by decide) (by decide)
    (by decide) (by decide) (by decide) (by decide)

theorem biquad_congr (c c' : Nat → K) (h : ∀ i, i < 5 → c i = c' i) : ∀ (xs : List K) (v1 v2 : K),
    Biquad.biquad c v1 v2 xs = Biquad.biquad c' v1 v2 xs
  | [], _, _ => rfl
  | x :: xs, v1, v2 => by
    rw [Biquad.biquad, Biquad.biquad]
    simp only [h 0 (by decide), h 1 (by decide), h 2 (by decide), h 3 (by decide), h 4 (by decide)]
    rw [biquad_congr c c' h xs]

theorem sectionLoop_congr (c c' : Nat → K) (h : ∀ i, i < 5 → c i = c' i) (ss : Nat) : ∀ (n k : Nat) (out : List K) (st : Nat → K),
    Biquad.sectionLoop c ss 0 n k out st = Biquad.sectionLoop c' ss 0 n k out st
  | 0, _, _, _ => rfl
  | n + 1, k, out, st => by
    rw [Biquad.sectionLoop, Biquad.sectionLoop]
    rw [biquad_congr (fun i => c (k * 0 + i)) (fun i => c' (k * 0 + i)) (fun i hi => by simpa using h i hi)]
    exact sectionLoop_congr c c' h ss n (k + 1) _ _

/-- Without the argument `coeffStride`, only the first five coefficients have an effect: all sections are filtered with those of
the first one. -/
theorem iir_default_ignores_sections (input states first rest rest' : List K) (outSize : Nat) (n sections : BitVec 64)
    (h5 : first.length = 5) (hl : rest.length = rest'.length) :
    iirDefault input states (first ++ rest) outSize n sections = iirDefault input states (first ++ rest') outSize n sections := by
  unfold iirDefault iir
  have hlen : (first ++ rest).length = (first ++ rest').length := by simp [hl]
  have hin : iirInside states (first ++ rest) n.toNat sections.toNat (2 : BitVec 64).toNat (0 : BitVec 64).toNat =
      iirInside states (first ++ rest') n.toNat sections.toNat (2 : BitVec 64).toNat (0 : BitVec 64).toNat := by
    unfold iirInside
    rw [hlen]
  rw [hlen, hin]
  have hc : ∀ i, i < 5 → (first ++ rest).getD i 0 = (first ++ rest').getD i 0 := by
    intro i hi
    rw [List.getD_eq_getElem?_getD, List.getD_eq_getElem?_getD, List.getElem?_append_left (by omega),
      List.getElem?_append_left (by omega)]
  have hf : Biquad.iirFilterBiquadsSingleChannel (input.take n.toNat) (fun i => states.getD i 0) (fun i => (first ++ rest).getD i 0)
        sections.toNat (2 : BitVec 64).toNat (0 : BitVec 64).toNat =
      Biquad.iirFilterBiquadsSingleChannel (input.take n.toNat) (fun i => states.getD i 0) (fun i => (first ++ rest').getD i 0)
        sections.toNat (2 : BitVec 64).toNat (0 : BitVec 64).toNat := by
    unfold Biquad.iirFilterBiquadsSingleChannel
    rw [biquad_congr _ _ hc]
    split
    · rfl
    · exact sectionLoop_congr _ _ hc _ _ _ _ _
  rw [hf]

/-- Two sections: the second one doubles the signal if the strides are given, and does nothing otherwise. -/
theorem iir_default_differs :
    (match iir [1, (2 : ℚ)] [0, 0, 0, 0] [1, 0, 0, 0, 0, 2, 0, 0, 0, 0] 2 2 2 2 5 with | .ok r => r.1 | _ => []) = [2, 4] ∧
    (match iirDefault [1, (2 : ℚ)] [0, 0, 0, 0] [1, 0, 0, 0, 0, 2, 0, 0, 0, 0] 2 2 2 with | .ok r => r.1 | _ => []) = [1, 2] := by
  decide +kernel

/-- Without the argument `coeffStride`, an array with less than five coefficients is accepted. -/
theorem iir_default_undefined (input states coeffs : List K) (outSize n sections : Nat) (hn : n ≤ input.length) (ho : n ≤ outSize)
    (h0 : 0 < n) (hn' : n < 2 ^ 63) (h1 : sections * 2 < 2 ^ 63) (hs : sections * 2 ≤ states.length) (hsec : 0 < sections)
    (hc : coeffs.length < 5) :
    iirDefault input states coeffs outSize (BitVec.ofNat 64 n) (BitVec.ofNat 64 sections) = .ub := by
  unfold iirDefault iir
  have e2 : (2 : BitVec 64) = BitVec.ofNat 64 2 := rfl
  have e0 : ((0 : BitVec 64) * BitVec.ofNat 64 sections).toInt = 0 := by simp
  rw [e0, e2, ← BitVec.ofNat_mul, toInt_ofNat n hn', toInt_ofNat _ h1]
  rw [if_neg (by omega), if_neg (by omega), if_neg (by omega), if_neg (by omega), if_neg]
  simp only [Bool.and_eq_true, decide_eq_true_eq, iirInside, List.all_eq_true, List.mem_range, Bool.or_eq_true, not_and]
  intro _ hall
  have e : (BitVec.ofNat 64 n).toNat = n := by rw [BitVec.toNat_ofNat, Nat.mod_eq_of_lt (by omega)]
  have := hall 0 (by rw [BitVec.toNat_ofNat, Nat.mod_eq_of_lt (by omega)]; exact hsec)
  rw [e] at this
  omega

example : iirDefault [1, (2 : ℚ)] [0, 0] [] 2 (BitVec.ofNat 64 2) (BitVec.ofNat 64 1) = .ub :=
  iir_default_undefined _ _ _ _ 2 1 (by decide) (by decide) (by decide) (by decide) (by decide) (by decide) (by decide) (by decide)

end Visr.PyVector
