import Mathlib.Data.Fintype.EquivFin
import Mathlib.Data.Fintype.Sets
import Mathlib.Data.BitVec
import Verif.TypeId.Model
import Verif.Registry.Props

/-!
# C89: parameter types and protocols are told apart by their identifiers
-/

namespace Visr.TypeId
open Visr

/-! ### Specification -/

/-- The FNV-1 hash with 64 bits, as published: multiply by the prime modulo 2^64, then combine with the octet. -/
def fnvStandard (octets : List Nat) : Nat :=
  octets.foldl (fun h o => (h * 1099511628211 % 2 ^ 64) ^^^ o) 14695981039346656037

/-- A name which can be a string literal of ASCII characters. -/
def Ascii (s : List Byte) : Prop := ∀ c ∈ s, c ≠ 0 ∧ c.toNat < 128

/-! ### Lemmas -/

theorem cString_of_ne {s : List Byte} (h : ∀ c ∈ s, c ≠ 0) : cString s = s := by
  unfold cString
  induction s with
  | nil => rfl
  | cons c s ih =>
    rw [List.takeWhile_cons_of_pos (by simpa using h c (by simp)), ih fun d hd => h d (by simp [hd])]

theorem widen_ascii (signed : Bool) {c : Byte} (h : c.toNat < 128) : (widen signed c).toNat = c.toNat := by
  unfold widen
  cases signed
  · simp only [Bool.false_eq_true, if_false]
    rw [BitVec.toNat_setWidth]
    omega
  · simp only [if_true]
    rw [BitVec.toNat_signExtend, BitVec.toNat_setWidth]
    have : c.msb = false := by rw [BitVec.msb_eq_decide]; simp; omega
    rw [this]
    simp only [Bool.false_eq_true, if_false]
    omega

theorem fnv1_ascii (signed : Bool) (s : List Byte) (hs : ∀ c ∈ s, c.toNat < 128) (h : BitVec 64) :
    (fnv1 signed h s).toNat =
      (s.map BitVec.toNat).foldl (fun h o => (h * 1099511628211 % 2 ^ 64) ^^^ o) h.toNat := by
  induction s generalizing h with
  | nil => rfl
  | cons c s ih =>
    rw [fnv1, ih (fun c hc => hs c (by simp [hc])), List.map_cons, List.foldl_cons, BitVec.toNat_xor, BitVec.toNat_mul,
      widen_ascii _ (hs c (by simp))]
    rfl

theorem mul_cancel {a b : BitVec 64} (h : a * 1099511628211#64 = b * 1099511628211#64) : a = b := by
  have e := congrArg (· * 14886173955864302971#64) h
  have hi : (1099511628211#64 : BitVec 64) * 14886173955864302971#64 = 1#64 := by decide
  simp only [BitVec.mul_assoc, hi, BitVec.mul_one] at e
  exact e

theorem xor_cancel {a b c : BitVec 64} (h : a ^^^ c = b ^^^ c) : a = b := by
  have := congrArg (· ^^^ c) h
  simpa [BitVec.xor_assoc] using this

theorem fnv1_inj (signed : Bool) (s : List Byte) {a b : BitVec 64} (h : fnv1 signed a s = fnv1 signed b s) : a = b := by
  induction s generalizing a b with
  | nil => exact h
  | cons c s ih => exact mul_cancel (xor_cancel (ih h))

theorem fnv1_append (signed : Bool) (h : BitVec 64) (s t : List Byte) :
    fnv1 signed h (s ++ t) = fnv1 signed (fnv1 signed h s) t := by
  induction s generalizing h with
  | nil => rfl
  | cons c s ih => exact ih _

theorem widen_inj (signed : Bool) {c d : Byte} (h : widen signed c = widen signed d) : c = d := by
  have : (widen signed c).setWidth 8 = (widen signed d).setWidth 8 := by rw [h]
  have e : ∀ c : Byte, (widen signed c).setWidth 8 = c := by
    cases signed <;> decide +kernel
  rw [e, e] at this
  exact this

/-! ### Theorems -/

/-- **C89.** For all names of ASCII characters, the identifier is the published FNV-1 hash, on all platforms. -/
theorem hash_standard (signed : Bool) (s : List Byte) (hs : Ascii s) :
    (hash signed s).toNat = fnvStandard (s.map BitVec.toNat) := by
  unfold hash
  rw [cString_of_ne (fun c hc => (hs c hc).1)]
  exact fnv1_ascii signed s (fun c hc => (hs c hc).2) _

example : Ascii (bytes "FloatVector".toList) := by unfold Ascii; decide +kernel

/-- All names of the library consist of ASCII characters. -/
theorem names_ascii (c : Cls) : ∀ ch ∈ c.name, 0 < ch.toNat ∧ ch.toNat < 128 := by cases c <;> decide +kernel

theorem protocols_ascii (p : Proto) : ∀ ch ∈ p.name, 0 < ch.toNat ∧ ch.toNat < 128 := by cases p <;> decide +kernel

theorem hash_name (signed : Bool) (n : List Char) (h : ∀ ch ∈ n, 0 < ch.toNat ∧ ch.toNat < 128) :
    (hash signed (bytes n)).toNat = fnvStandard (n.map Char.toNat) := by
  have e : (bytes n).map BitVec.toNat = n.map Char.toNat := by
    unfold bytes
    rw [List.map_map]
    apply List.map_congr_left
    intro ch hch
    have := h ch hch
    simp only [Function.comp, BitVec.toNat_ofNat]
    omega
  rw [hash_standard signed (bytes n) ?_, e]
  intro b hb
  unfold bytes at hb
  rw [List.mem_map] at hb
  obtain ⟨ch, hch, rfl⟩ := hb
  have := h ch hch
  constructor
  · intro e0
    have := congrArg BitVec.toNat e0
    rw [show ((0 : Byte)).toNat = 0 from rfl, BitVec.toNat_ofNat] at this
    omega
  · simp only [BitVec.toNat_ofNat]; omega

/-- **C89.** The identifiers of all parameter types and protocols of the library are the published FNV-1 hashes of their
names, read from left to right, on all platforms. -/
theorem identifiers_standard (signed : Bool) :
    (∀ c : Cls, (c.id signed).toNat = fnvStandard (c.name.map Char.toNat)) ∧
      (∀ p : Proto, (p.id signed).toNat = fnvStandard (p.name.map Char.toNat)) :=
  ⟨fun c => hash_name signed _ (names_ascii c), fun p => hash_name signed _ (protocols_ascii p)⟩

/-- C89: with other characters, platforms with signed and unsigned `char` calculate different identifiers for the same
name. -/
theorem hash_depends_on_platform : hash true [0xE4#8] ≠ hash false [0xE4#8] := by decide +kernel

/-- **C89.** Two names of any length which differ in a single character never have the same identifier. -/
theorem one_character (signed : Bool) (s t : List Byte) (c d : Byte) (hs : ∀ x ∈ s ++ t, x ≠ 0) (hc : c ≠ 0) (hd : d ≠ 0)
    (hcd : c ≠ d) : hash signed (s ++ c :: t) ≠ hash signed (s ++ d :: t) := by
  have hz : ∀ e, e ≠ 0 → cString (s ++ e :: t) = s ++ e :: t := by
    intro e he
    apply cString_of_ne
    intro x hx
    simp only [List.mem_append, List.mem_cons] at hx
    rcases hx with hx | rfl | hx
    · exact hs x (by simp [hx])
    · exact he
    · exact hs x (by simp [hx])
  intro h
  unfold hash at h
  rw [hz c hc, hz d hd, fnv1_append, fnv1_append, fnv1, fnv1] at h
  have h := fnv1_inj signed t h
  apply hcd
  apply widen_inj signed
  rw [BitVec.xor_comm _ (widen signed c), BitVec.xor_comm _ (widen signed d)] at h
  exact xor_cancel h

example : ∀ x ∈ bytes "SparseGainRoutingL".toList ++ bytes "st".toList, x ≠ 0 := by decide +kernel

/-- C89: a common beginning or end of two names cannot make their identifiers equal: names with a common end have the same
identifier exactly if they have it without that end. -/
theorem common_end (signed : Bool) (s t u : List Byte) (hs : ∀ x ∈ s, x ≠ 0) (ht : ∀ x ∈ t, x ≠ 0) (hu : ∀ x ∈ u, x ≠ 0) :
    hash signed (s ++ u) = hash signed (t ++ u) ↔ hash signed s = hash signed t := by
  have hz : ∀ v : List Byte, (∀ x ∈ v, x ≠ 0) → cString (v ++ u) = v ++ u := fun v hv =>
    cString_of_ne fun x hx => (List.mem_append.1 hx).elim (hv x) (hu x)
  unfold hash
  rw [hz s hs, hz t ht, cString_of_ne hs, cString_of_ne ht, fnv1_append, fnv1_append]
  exact ⟨fnv1_inj signed u, fun h => by rw [h]⟩

/-- C89: there are names with the same identifier. -/
theorem collisions (signed : Bool) : ∃ s t, Ascii s ∧ Ascii t ∧ s ≠ t ∧ hash signed s = hash signed t := by
  have : ¬ Function.Injective (fun n : Nat => hash signed (List.replicate n 65#8)) := by
    intro h
    have : Finite (BitVec 64) :=
      Finite.of_injective BitVec.toFin fun a b h => BitVec.eq_of_toNat_eq (congrArg Fin.val h)
    exact not_injective_infinite_finite _ h
  rw [Function.Injective] at this
  push Not at this
  obtain ⟨m, n, h, hne⟩ := this
  refine ⟨_, _, ?_, ?_, ?_, h⟩
  · intro c hc; rw [List.eq_of_mem_replicate hc]; decide
  · intro c hc; rw [List.eq_of_mem_replicate hc]; decide
  · intro e
    have := congrArg List.length e
    simp at this
    exact hne this

/-- All classes of the library. -/
def allClasses : List Cls :=
  [.filterRouting, .filterRoutingList, .biquadFloat, .biquadDouble, .biquadListFloat, .biquadListDouble,
    .biquadMatrixFloat, .biquadMatrixDouble, .interpolation, .timeFrequencyFloat, .timeFrequencyDouble, .listenerPosition,
    .bool, .int, .uint, .float, .double, .complexFloat, .complexDouble, .signalRouting, .matrixFloat, .matrixDouble,
    .matrixComplexFloat, .matrixComplexDouble, .sparseGainRouting, .sparseGainRoutingList, .string, .objectVector,
    .indexedVectorFloat, .indexedVectorDouble, .indexedString, .vectorFloat, .vectorDouble, .vectorComplexFloat,
    .vectorComplexDouble, .panningMatrix, .lateReverb]

theorem mem_allClasses (c : Cls) : c ∈ allClasses := by cases c <;> decide

theorem ids_nodup (signed : Bool) : (allClasses.map (Cls.id signed)).Nodup := by cases signed <;> decide +kernel

/-- **C89.** The identifiers of all parameter classes and of all protocols of the library are distinct, on all platforms. -/
theorem library_ids (signed : Bool) : (∀ c d : Cls, c.id signed = d.id signed → c = d) ∧
    (∀ p q : Proto, p.id signed = q.id signed → p = q) ∧ ∀ c : Cls, c.id true = c.id false := by
  refine ⟨fun c d h => List.inj_on_of_nodup_map (ids_nodup signed) (mem_allClasses c) (mem_allClasses d) h, ?_, ?_⟩
  · intro p q
    cases signed <;> cases p <;> cases q <;> decide +kernel
  · intro c
    have : ∀ c ∈ allClasses, c.id true = c.id false := by decide +kernel
    exact this c (mem_allClasses c)

theorem id_toNat_inj {signed : Bool} {c d : Cls} (h : (c.id signed).toNat = (d.id signed).toNat) : c = d :=
  (library_ids signed).1 c d (BitVec.eq_of_toNat_eq h)

theorem create_registered (signed : Bool) (cs : List Cls) (ops : List (Registry.POp Cls)) (u : Nat) :
    Registry.pcreate (Registry.ptable (ops ++ cs.map fun c => .register (c.id signed).toNat c)) u =
      if Registry.ptypeExists (Registry.ptable ops) u then Registry.pcreate (Registry.ptable ops) u
      else match cs.find? (fun c => (c.id signed).toNat == u) with
        | some c => .ok c
        | none => .throw .invalidArgument := by
  induction cs generalizing ops with
  | nil =>
    simp only [List.map_nil, List.append_nil, List.find?_nil]
    split
    · rfl
    · rename_i h
      unfold Registry.ptypeExists at h
      unfold Registry.pcreate
      cases hp : Registry.plookup (Registry.ptable ops) u with
      | none => rfl
      | some f => rw [hp] at h; exact absurd rfl h
  | cons c cs ih =>
    have e : ops ++ (c :: cs).map (fun c => Registry.POp.register (c.id signed).toNat c) =
        (ops ++ [.register (c.id signed).toNat c]) ++ cs.map fun c => .register (c.id signed).toNat c := by simp
    rw [e, ih]
    obtain ⟨h1, h2, h3⟩ := Registry.parameter_registered ops (c.id signed).toNat c
    by_cases hu : u = (c.id signed).toNat
    · subst hu
      rw [h1, if_pos rfl, h2, List.find?_cons_of_pos (by simp)]
    · rw [(h3 u hu).1, (h3 u hu).2, List.find?_cons_of_neg (by simpa using fun h => hu h.symm)]

/-- **C89.** Registering: whatever has been registered before, constructing a registrar for any classes makes each of their
identifiers known; the factory then creates parameters of the class itself, unless another class was registered for the
identifier before. Other identifiers are as before. -/
theorem registrar (signed : Bool) (cs : List Cls) (ops : List (Registry.POp Cls)) (u : Nat) :
    (∀ c ∈ cs, u = (c.id signed).toNat → Registry.pcreate (Registry.ptable (ops ++ registrations signed cs)) u =
      if Registry.ptypeExists (Registry.ptable ops) u then Registry.pcreate (Registry.ptable ops) u else .ok c) ∧
    ((∀ c ∈ cs, u ≠ (c.id signed).toNat) → Registry.pcreate (Registry.ptable (ops ++ registrations signed cs)) u =
      Registry.pcreate (Registry.ptable ops) u) := by
  unfold registrations
  rw [create_registered]
  constructor
  · intro c hc hu
    subst hu
    congr 1
    cases hf : cs.reverse.find? (fun d => (d.id signed).toNat == (c.id signed).toNat) with
    | none =>
      rw [List.find?_eq_none] at hf
      exact absurd (by simp) (hf c (by simpa using hc))
    | some d =>
      have := List.find?_some hf
      simp only [beq_iff_eq] at this
      rw [id_toNat_inj this]
  · intro h
    have hf : cs.reverse.find? (fun d => (d.id signed).toNat == u) = none := by
      rw [List.find?_eq_none]
      intro c hc
      simpa using fun e => h c (by simpa using hc) e.symm
    rw [hf]
    split
    · rfl
    · rename_i h
      unfold Registry.ptypeExists at h
      unfold Registry.pcreate
      cases hp : Registry.plookup (Registry.ptable ops) u with
      | none => rfl
      | some f => rw [hp] at h; exact absurd rfl h

/-- **C89.** Unregistering: destroying a registrar makes exactly the identifiers of its classes unknown, also those which
something else had registered before. -/
theorem registrar_destroyed (signed : Bool) (cs : List Cls) (ops : List (Registry.POp Cls)) (u : Nat) :
    Registry.pcreate (Registry.ptable (ops ++ unregistrations signed cs)) u =
      if u ∈ cs.map (fun c => (c.id signed).toNat) then .throw .invalidArgument
      else Registry.pcreate (Registry.ptable ops) u := by
  unfold unregistrations
  induction cs generalizing ops with
  | nil => simp
  | cons c cs ih =>
    have e : ops ++ (c :: cs).map (fun c => Registry.POp.unregister (c.id signed).toNat) =
        (ops ++ [.unregister (c.id signed).toNat]) ++ cs.map fun c => .unregister (c.id signed).toNat := by simp
    rw [e, ih]
    obtain ⟨-, h2, h3⟩ := Registry.parameter_unregistered ops (c.id signed).toNat
    by_cases hu : u = (c.id signed).toNat
    · subst hu
      have hm : (c.id signed).toNat ∈ (c :: cs).map (fun c => (c.id signed).toNat) := by simp
      rw [h2, if_pos hm]
      split <;> rfl
    · rw [(h3 u hu).1]
      simp only [List.map_cons, List.mem_cons, hu, false_or]

/-- **C89.** After the initialisation of both libraries, the factory creates a parameter of class `c` for the identifier of
`c`, for all classes but these: biquad coefficients, lists of biquad coefficients, and the late reverberation parameter, for
which it throws `std::invalid_argument` although they have identifiers. -/
theorem initialised_partial (signed : Bool) (c : Cls) :
    Registry.pcreate (Registry.ptable (registrations signed pmlClasses ++ registrations signed panningClasses))
      (c.id signed).toNat =
      if c ∈ [Cls.biquadFloat, .biquadDouble, .biquadListFloat, .biquadListDouble, .lateReverb] then
        .throw .invalidArgument
      else .ok c := by
  have key : ∀ (cs : List Cls), Registry.pcreate (Registry.ptable (registrations signed cs)) (c.id signed).toNat =
      if c ∈ cs then .ok c else .throw .invalidArgument := by
    intro cs
    have := registrar signed cs [] (c.id signed).toNat
    rw [List.nil_append] at this
    by_cases h : c ∈ cs
    · rw [if_pos h, this.1 c h rfl]; rfl
    · rw [if_neg h, this.2 fun d hd e => h (id_toNat_inj e ▸ hd)]; rfl
  have hall : registrations signed pmlClasses ++ registrations signed panningClasses =
      registrations signed (panningClasses ++ pmlClasses) := by
    simp [registrations]
  rw [hall, key]
  cases c <;> rfl

/-- A concrete case: a registrar for two classes, one of them registered before. -/
example : Registry.pcreate (Registry.ptable ([.register (Cls.float.id true).toNat .float] ++
      registrations true [.float, .string])) (Cls.string.id true).toNat = .ok .string ∧
    Registry.pcreate (Registry.ptable ([.register (Cls.float.id true).toNat .float] ++ unregistrations true [.float]))
      (Cls.float.id true).toNat = .throw .invalidArgument := by decide +kernel

end Visr.TypeId
