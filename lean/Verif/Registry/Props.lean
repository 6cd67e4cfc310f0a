import Verif.Registry.Lemmas

/-! # C31 Protocol registry

The theorems are about `table ops`, the table after any history `ops` of registrations and
unregistrations, successful or not.  They are stated through the query functions only. -/

namespace Visr.Registry

variable {P I O : Type u}

/-- Names and types are in one-to-one correspondence. -/
theorem name_type_inverse (ops : List (Op P I O)) (n : String) (t : Nat) :
    typeFromName (table ops) n = .ok t ↔ typeToName (table ops) t = .ok n := by
  rw [typeFromName_ok (inv_table ops), typeToName_ok (inv_table ops)]

/-- A query fails with `out_of_range` exactly if the type, or the name, is not registered. -/
theorem query_fails (ops : List (Op P I O)) (t : Nat) (n : String) :
    (typeToName (table ops) t = .throw .outOfRange ↔ typeExists (table ops) t = false) ∧
    (typeFromName (table ops) n = .throw .outOfRange ↔
      ∀ u, typeExists (table ops) u = true → typeToName (table ops) u ≠ .ok n) ∧
    (createProtocol (table ops) t = .throw .outOfRange ↔ typeExists (table ops) t = false) ∧
    (createInput (table ops) t = .throw .outOfRange ↔ typeExists (table ops) t = false) ∧
    (createOutput (table ops) t = .throw .outOfRange ↔ typeExists (table ops) t = false) := by
  refine ⟨?_, ?_, ?_, ?_, ?_⟩
  · unfold typeToName typeExists
    cases lookup (table ops) t <;> simp
  · constructor
    · intro h u _ hu
      rw [← name_type_inverse, h] at hu
      cases hu
    · intro h
      cases hf : typeFromName (table ops) n with
      | ok u =>
        rw [name_type_inverse] at hf
        refine absurd hf (h u ?_)
        unfold typeToName at hf
        unfold typeExists
        cases hl : lookup (table ops) u <;> simp_all
      | throw e =>
        unfold typeFromName at hf
        split at hf <;> simp_all
      | ub =>
        unfold typeFromName at hf
        split at hf <;> simp_all
  · unfold createProtocol typeExists
    cases lookup (table ops) t <;> simp
  · unfold createInput typeExists
    cases lookup (table ops) t <;> simp
  · unfold createOutput typeExists
    cases lookup (table ops) t <;> simp

/-- A registration is accepted exactly if neither the type nor the name is taken. -/
theorem register_accepted (ops : List (Op P I O)) (t : Nat) (c : Creator P I O) :
    (step (table ops) (.register t c)).2 = .ok () ↔
      typeExists (table ops) t = false ∧ typeFromName (table ops) c.name = .throw .outOfRange := by
  have h0 : (step (table ops) (.register t c)).2 = .ok () ↔
      register (table ops) t c = .ok ((t, c) :: table ops) := by
    unfold step
    rcases register_cases (table ops) t c with h | h <;> simp [h]
  rw [h0, register_ok_iff]
  have h1 : typeFromName (table ops) c.name = .throw .outOfRange ↔
      ∀ e ∈ table ops, e.2.name ≠ c.name := by
    unfold typeFromName
    cases hf : (table ops).find? (fun e => e.2.name == c.name) with
    | none =>
      rw [List.find?_eq_none] at hf
      simpa using hf
    | some e =>
      have he := List.mem_of_find?_eq_some hf
      have hn : e.2.name = c.name := by simpa using List.find?_some hf
      simp only [reduceCtorEq, false_iff]
      intro h
      exact h e he hn
  rw [h1]
  unfold typeExists
  rw [lookup_eq_get]
  cases get (table ops) t <;> simp

/-- A registration that is not accepted throws `invalid_argument` and changes nothing. -/
theorem register_rejected (ops : List (Op P I O)) (t : Nat) (c : Creator P I O)
    (h : (step (table ops) (.register t c)).2 ≠ .ok ()) :
    step (table ops) (.register t c) = (table ops, .throw .invalidArgument) := by
  unfold step at h ⊢
  rcases register_cases (table ops) t c with hr | hr
  · simp [hr] at h
  · simp [hr]

/-- After an accepted registration, the new type has the given name and creation functions, and
every other type has what it had before. -/
theorem registered (ops : List (Op P I O)) (t : Nat) (c : Creator P I O)
    (h : (step (table ops) (.register t c)).2 = .ok ()) :
    let tab := table (ops ++ [.register t c])
    (typeExists tab t = true ∧ typeToName tab t = .ok c.name ∧ typeFromName tab c.name = .ok t ∧
      createProtocol tab t = .ok c.protocol ∧ createInput tab t = .ok c.input ∧
      createOutput tab t = .ok c.output) ∧
    (∀ u, u ≠ t → typeExists tab u = typeExists (table ops) u ∧
      typeToName tab u = typeToName (table ops) u ∧
      createProtocol tab u = createProtocol (table ops) u ∧
      createInput tab u = createInput (table ops) u ∧
      createOutput tab u = createOutput (table ops) u) ∧
    (∀ n, n ≠ c.name → typeFromName tab n = typeFromName (table ops) n) ∧
    numberOfProtocols tab = numberOfProtocols (table ops) + 1 := by
  intro tab
  have ht : tab = (t, c) :: table ops := by
    have : tab = (step (table ops) (.register t c)).1 := by
      simp only [tab, table, final_append, final_cons, final_nil]
    rw [this]
    unfold step at h ⊢
    rcases register_cases (table ops) t c with hr | hr
    · simp [hr]
    · simp [hr] at h
  have hl : ∀ u, lookup tab u = if t = u then some c else lookup (table ops) u := by
    intro u
    rw [lookup_eq_get, ht, get_cons]
    rfl
  refine ⟨⟨?_, ?_, ?_, ?_, ?_, ?_⟩, ?_, ?_, ?_⟩
  · simp [typeExists, hl]
  · simp [typeToName, hl]
  · rw [show tab = table (ops ++ [.register t c]) from rfl, name_type_inverse]
    show typeToName tab t = _
    simp [typeToName, hl]
  · simp [createProtocol, hl]
  · simp [createInput, hl]
  · simp [createOutput, hl]
  · intro u hu
    have hu' : lookup tab u = lookup (table ops) u := by rw [hl, if_neg (Ne.symm hu)]
    simp [typeExists, typeToName, createProtocol, createInput, createOutput, hu']
  · intro n hn
    rw [ht]
    unfold typeFromName
    rw [List.find?_cons_of_neg (by simpa using Ne.symm hn)]
  · rw [ht]; rfl

/-- Unregistering never fails; afterwards the type and its name are free, and everything else is
as before. -/
theorem unregistered (ops : List (Op P I O)) (t : Nat) :
    let tab := table (ops ++ [.unregister t])
    (step (table ops) (.unregister t)).2 = .ok () ∧
    typeExists tab t = false ∧
    (∀ n, typeToName (table ops) t = .ok n → typeFromName tab n = .throw .outOfRange) ∧
    (∀ u, u ≠ t → typeExists tab u = typeExists (table ops) u ∧
      typeToName tab u = typeToName (table ops) u ∧
      createProtocol tab u = createProtocol (table ops) u ∧
      createInput tab u = createInput (table ops) u ∧
      createOutput tab u = createOutput (table ops) u) := by
  intro tab
  have ht : tab = unregister (table ops) t := by
    simp only [tab, table, final_append, final_cons, final_nil]; rfl
  have hl : ∀ u, lookup tab u = if t = u then none else lookup (table ops) u := by
    intro u
    rw [ht, lookup_eq_get, lookup_eq_get]
    exact get_eraseP (inv_table ops).types t u
  have hother : ∀ u, u ≠ t → typeExists tab u = typeExists (table ops) u ∧
      typeToName tab u = typeToName (table ops) u ∧
      createProtocol tab u = createProtocol (table ops) u ∧
      createInput tab u = createInput (table ops) u ∧
      createOutput tab u = createOutput (table ops) u := by
    intro u hu
    have hu' : lookup tab u = lookup (table ops) u := by rw [hl, if_neg (Ne.symm hu)]
    simp [typeExists, typeToName, createProtocol, createInput, createOutput, hu']
  refine ⟨rfl, by simp [typeExists, hl], ?_, hother⟩
  intro n hn
  refine ((query_fails (ops ++ [.unregister t]) t n).2.1).mpr ?_
  intro u hu hun
  by_cases hut : u = t
  · subst hut
    have : typeExists tab u = false := by simp [typeExists, hl]
    exact absurd hu (by rw [show table (ops ++ [.unregister u]) = tab from rfl, this]; simp)
  · have h2 : typeToName (table ops) u = .ok n := by
      rw [← (hother u hut).2.1]; exact hun
    rw [← name_type_inverse] at h2 hn
    rw [h2] at hn
    cases hn
    exact hut rfl

/-- `numberOfProtocols` is the number of types that exist. -/
theorem number_counts (ops : List (Op P I O)) :
    ∃ l : List Nat, l.Nodup ∧ (∀ t, t ∈ l ↔ typeExists (table ops) t = true) ∧
      numberOfProtocols (table ops) = l.length := by
  refine ⟨(table ops).map Prod.fst, (inv_table ops).types, ?_, by simp [numberOfProtocols]⟩
  intro t
  unfold typeExists
  rw [lookup_eq_get]
  have := get_none_iff (l := table ops) (t := t)
  cases hg : get (table ops) t with
  | none => simp [this.mp hg]
  | some c =>
    simp only [Option.isSome_some, iff_true]
    by_contra hc
    rw [this.mpr hc] at hg
    cases hg

/-- A concrete history: two protocols, a duplicate type, a duplicate name, and reuse of a name
after its protocol has been unregistered. -/
example :
    let mk (n : String) (k : Nat) : Creator Nat Nat Nat := ⟨n, k, k + 1, k + 2⟩
    let ops : List (Op Nat Nat Nat) := [.register 7 (mk "DoubleBuffering" 10),
      .register 3 (mk "MessageQueue" 20), .register 7 (mk "SharedData" 30),
      .register 8 (mk "MessageQueue" 40)]
    (run step [] ops).2 = [.ok (), .ok (), .throw .invalidArgument, .throw .invalidArgument] ∧
    typeFromName (table ops) "MessageQueue" = .ok 3 ∧
    typeToName (table ops) 7 = .ok "DoubleBuffering" ∧
    typeFromName (table (ops ++ [.unregister 3, .register 8 (mk "MessageQueue" 40)])) "MessageQueue"
      = .ok 8 ∧
    createOutput (table ops) 3 = .ok 22 := by
  decide +kernel

/-! ## Parameter types -/

section param
variable {F : Type u}

theorem ptable_nodup (ops : List (POp F)) : ((ptable ops).map Prod.fst).Nodup := by
  refine final_induction (P := fun tab : PTable F => (tab.map Prod.fst).Nodup) ?_ (by simp) ops
  intro s i h
  cases i with
  | register t f =>
    show ((pregister s t f).map Prod.fst).Nodup
    unfold pregister
    split
    · exact h
    · rename_i hn
      have hg : get s t = none := by
        cases hgs : get s t with
        | none => rfl
        | some a => exact absurd (show (plookup s t).isSome from by
            rw [show plookup s t = get s t from rfl, hgs]; rfl) hn
      rw [List.map_cons, List.nodup_cons]
      exact ⟨get_none_iff.mp hg, h⟩
  | unregister t => exact eraseP_keys_nodup h t

/-- After a registration the type exists.  It is created by the function registered first since
the type was last unregistered: registering a type a second time has no effect. -/
theorem parameter_registered (ops : List (POp F)) (t : Nat) (f : F) :
    let tab := ptable (ops ++ [.register t f])
    ptypeExists tab t = true ∧
    pcreate tab t = (if ptypeExists (ptable ops) t then pcreate (ptable ops) t else .ok f) ∧
    ∀ u, u ≠ t → pcreate tab u = pcreate (ptable ops) u ∧
      ptypeExists tab u = ptypeExists (ptable ops) u := by
  intro tab
  have ht : tab = pregister (ptable ops) t f := by
    simp only [tab, ptable, final_append, final_cons, final_nil]; rfl
  have hl : ∀ u, plookup tab u = if t = u ∧ plookup (ptable ops) t = none then some f
      else plookup (ptable ops) u := by
    intro u
    rw [ht]
    unfold pregister
    cases h : plookup (ptable ops) t with
    | some a => simp
    | none =>
      simp only [Option.isSome_none, Bool.false_eq_true, if_false, and_true]
      exact get_cons _ _ _
  refine ⟨?_, ?_, ?_⟩
  · unfold ptypeExists
    rw [hl]
    cases h : plookup (ptable ops) t <;> simp
  · unfold pcreate ptypeExists
    rw [hl]
    cases h : plookup (ptable ops) t <;> simp
  · intro u hu
    unfold pcreate ptypeExists
    rw [hl, if_neg (fun h => hu h.1.symm)]
    exact ⟨rfl, rfl⟩

/-- After an unregistration the type cannot be created; other types are as before. -/
theorem parameter_unregistered (ops : List (POp F)) (t : Nat) :
    let tab := ptable (ops ++ [.unregister t])
    ptypeExists tab t = false ∧ pcreate tab t = .throw .invalidArgument ∧
    ∀ u, u ≠ t → pcreate tab u = pcreate (ptable ops) u ∧
      ptypeExists tab u = ptypeExists (ptable ops) u := by
  intro tab
  have ht : tab = punregister (ptable ops) t := by
    simp only [tab, ptable, final_append, final_cons, final_nil]; rfl
  have hl : ∀ u, plookup tab u = if t = u then none else plookup (ptable ops) u := by
    intro u
    rw [ht]
    exact get_eraseP (ptable_nodup ops) t u
  refine ⟨by simp [ptypeExists, hl], by simp [pcreate, hl], ?_⟩
  intro u hu
  unfold pcreate ptypeExists
  rw [hl, if_neg (Ne.symm hu)]
  exact ⟨rfl, rfl⟩

/-- Consequence for two libraries that register the same type: the second registration is
silently ignored, and when either library unregisters the type, it is gone for both. -/
theorem parameter_shared_type_lost (t : Nat) (f g : F) :
    pcreate (ptable [.register t f, .register t g]) t = .ok f ∧
    pcreate (ptable [.register t f, .register t g, .unregister t]) t = .throw .invalidArgument := by
  have h1 := parameter_registered [.register t f] t g
  have h2 := parameter_registered [] t f
  have h3 := parameter_unregistered [.register t f, .register t g] t
  refine ⟨?_, h3.2.1⟩
  have e1 := h1.2.1
  have e2 := h2.2.1
  simp only [List.nil_append, List.singleton_append] at e1 e2 h2
  rw [h2.1, if_pos rfl] at e1
  exact e1.trans e2

example : pcreate (ptable [.register 1 "a", .register 2 "b", .unregister 1]) 2 = .ok "b" ∧
    pcreate (ptable [.register 1 "a", .register 2 "b", .unregister 1]) 1
      = .throw .invalidArgument := by decide

end param

end Visr.Registry
