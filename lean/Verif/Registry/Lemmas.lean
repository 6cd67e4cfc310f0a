import Verif.Registry.Model
import Mathlib.Tactic.Common
import Mathlib.Data.List.Nodup

/-! # Lemmas on the registries -/

namespace Visr.Registry

section keyed
variable {α : Type u} {β : Type v}

/-- Lookup in an association list. -/
def get (l : List (Nat × α)) (t : Nat) : Option α := (l.find? (fun e => e.1 == t)).map Prod.snd

theorem get_cons (p : Nat × α) (l : List (Nat × α)) (t : Nat) :
    get (p :: l) t = if p.1 = t then some p.2 else get l t := by
  unfold get
  by_cases h : p.1 = t <;> simp [h]

theorem get_some_mem {l : List (Nat × α)} {t : Nat} {a : α} (h : get l t = some a) : (t, a) ∈ l := by
  induction l with
  | nil => simp [get] at h
  | cons p l ih =>
    rw [get_cons] at h
    split at h
    · rename_i hp
      cases h; cases p; simp_all
    · exact List.mem_cons_of_mem _ (ih h)

theorem get_none_iff {l : List (Nat × α)} {t : Nat} : get l t = none ↔ t ∉ l.map Prod.fst := by
  induction l with
  | nil => simp [get]
  | cons p l ih =>
    rw [get_cons]
    by_cases h : p.1 = t
    · simp [h]
    · simp [h, ih, Ne.symm h]

theorem get_of_mem {l : List (Nat × α)} (hn : (l.map Prod.fst).Nodup) {t : Nat} {a : α}
    (h : (t, a) ∈ l) : get l t = some a := by
  induction l with
  | nil => simp at h
  | cons p l ih =>
    rw [get_cons]
    rw [List.map_cons, List.nodup_cons] at hn
    rcases List.mem_cons.mp h with h | h
    · subst h; simp
    · have : p.1 ≠ t := by
        intro e
        exact hn.1 (e ▸ List.mem_map.mpr ⟨_, h, rfl⟩)
      rw [if_neg this]
      exact ih hn.2 h

theorem get_eraseP {l : List (Nat × α)} (hn : (l.map Prod.fst).Nodup) (t u : Nat) :
    get (l.eraseP (fun e => e.1 == t)) u = if t = u then none else get l u := by
  induction l with
  | nil => simp [get]
  | cons p l ih =>
    rw [List.map_cons, List.nodup_cons] at hn
    by_cases hp : p.1 = t
    · rw [List.eraseP_cons_of_pos (by simpa using hp), get_cons]
      by_cases htu : t = u
      · subst htu
        rw [if_pos rfl, get_none_iff, ← hp]
        exact hn.1
      · rw [if_neg htu, if_neg (by rw [hp]; exact htu)]
    · rw [List.eraseP_cons_of_neg (by simpa using hp), get_cons, get_cons, ih hn.2]
      by_cases htu : t = u
      · subst htu
        simp [hp]
      · simp [htu]

theorem eraseP_keys_nodup {l : List (Nat × α)} (hn : (l.map Prod.fst).Nodup) (t : Nat) :
    ((l.eraseP (fun e => e.1 == t)).map Prod.fst).Nodup :=
  ((List.eraseP_sublist).map _).nodup hn

end keyed

variable {P I O : Type u}

theorem lookup_eq_get (tab : Table P I O) (t : Nat) : lookup tab t = get tab t := rfl

/-- Types and names of a table are unique. -/
structure Inv (tab : Table P I O) : Prop where
  types : (tab.map Prod.fst).Nodup
  names : (tab.map (fun e => e.2.name)).Nodup

theorem register_ok_iff (tab tab' : Table P I O) (t : Nat) (c : Creator P I O) :
    register tab t c = .ok tab' ↔
      get tab t = none ∧ (∀ e ∈ tab, e.2.name ≠ c.name) ∧ tab' = (t, c) :: tab := by
  unfold register
  rw [lookup_eq_get]
  cases h : get tab t with
  | some d => simp
  | none =>
    simp only [Option.isSome_none, Bool.false_eq_true, if_false, true_and]
    by_cases h2 : (tab.find? (fun e => e.2.name == c.name)).isSome
    · rw [if_pos h2]
      rw [List.find?_isSome] at h2
      obtain ⟨e, he, hn⟩ := h2
      constructor
      · intro h; cases h
      · rintro ⟨h, -⟩
        exact absurd (by simpa using hn) (h e he)
    · rw [if_neg h2]
      have h3 : ∀ e ∈ tab, e.2.name ≠ c.name := by
        intro e he hn
        exact h2 (List.find?_isSome.mpr ⟨e, he, by simpa using hn⟩)
      constructor
      · intro h; cases h; exact ⟨h3, rfl⟩
      · rintro ⟨-, rfl⟩; rfl

theorem register_cases (tab : Table P I O) (t : Nat) (c : Creator P I O) :
    register tab t c = .ok ((t, c) :: tab) ∨ register tab t c = .throw .invalidArgument := by
  unfold register
  split
  · exact .inr rfl
  · split
    · exact .inr rfl
    · exact .inl rfl

theorem inv_step {tab : Table P I O} (h : Inv tab) (op : Op P I O) : Inv (step tab op).1 := by
  cases op with
  | register t c =>
    unfold step
    rcases register_cases tab t c with hr | hr
    · have := (register_ok_iff _ _ _ _).mp hr
      simp only [hr]
      refine ⟨?_, ?_⟩
      · simp only [List.map_cons, List.nodup_cons]
        exact ⟨get_none_iff.mp this.1, h.types⟩
      · simp only [List.map_cons, List.nodup_cons]
        refine ⟨?_, h.names⟩
        intro hm
        obtain ⟨e, he, hn⟩ := List.mem_map.mp hm
        exact this.2.1 e he hn
    · simp only [hr]; exact h
  | unregister t =>
    exact ⟨eraseP_keys_nodup h.types t, ((List.eraseP_sublist).map _).nodup h.names⟩

theorem inv_nil : Inv ([] : Table P I O) := ⟨List.nodup_nil, List.nodup_nil⟩

theorem inv_table (ops : List (Op P I O)) : Inv (table ops) :=
  final_induction (P := fun tab : Table P I O => Inv tab) (fun _ i h => inv_step h i) inv_nil ops

theorem name_unique {tab : Table P I O} (h : Inv tab) {e f : Nat × Creator P I O} (he : e ∈ tab)
    (hf : f ∈ tab) (hn : e.2.name = f.2.name) : e = f :=
  List.inj_on_of_nodup_map h.names he hf hn

theorem typeFromName_ok {tab : Table P I O} (h : Inv tab) (n : String) (t : Nat) :
    typeFromName tab n = .ok t ↔ ∃ c, (t, c) ∈ tab ∧ c.name = n := by
  unfold typeFromName
  cases hf : tab.find? (fun e => e.2.name == n) with
  | none =>
    rw [List.find?_eq_none] at hf
    simp only [reduceCtorEq, false_iff]
    rintro ⟨c, hc, hn⟩
    exact hf _ hc (by simpa using hn)
  | some e =>
    have he := List.mem_of_find?_eq_some hf
    have hn : e.2.name = n := by simpa using List.find?_some hf
    simp only [Outcome.ok.injEq]
    constructor
    · rintro rfl
      exact ⟨e.2, he, hn⟩
    · rintro ⟨c, hc, hcn⟩
      rw [name_unique h he hc (by rw [hn, hcn])]

theorem typeToName_ok {tab : Table P I O} (h : Inv tab) (n : String) (t : Nat) :
    typeToName tab t = .ok n ↔ ∃ c, (t, c) ∈ tab ∧ c.name = n := by
  unfold typeToName
  rw [lookup_eq_get]
  cases hg : get tab t with
  | none =>
    simp only [reduceCtorEq, false_iff]
    rintro ⟨c, hc, -⟩
    rw [get_of_mem h.types hc] at hg
    cases hg
  | some c =>
    simp only [Outcome.ok.injEq]
    constructor
    · rintro rfl
      exact ⟨c, get_some_mem hg, rfl⟩
    · rintro ⟨d, hd, rfl⟩
      rw [get_of_mem h.types hd] at hg
      cases hg; rfl

end Visr.Registry
