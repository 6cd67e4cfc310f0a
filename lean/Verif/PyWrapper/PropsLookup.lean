import Verif.PyWrapper.Props

/-!
# C96: names in modules, repeated imports, separate search paths
-/

namespace Visr.PyWrapper
open Visr Visr.Flow Visr.Wiring

/-- Specification: `c` is what the names lead to from `o`, one attribute after the other. -/
inductive Leads : Obj → List Word → Obj → Prop
  | here {o} : Leads o [] o
  | next {o o' c n ns} : o.attr n = some o' → Leads o' ns c → Leads o (n :: ns) c

/-- **C96.** A nested name is found if and only if each of its parts is an attribute of the one before; what is found is
the last. -/
theorem lookup_leads (o c : Obj) (ns : List Word) : lookup o ns = some c ↔ Leads o ns c := by
  constructor
  · intro h
    induction ns generalizing o with
    | nil =>
      simp only [lookup, Option.some.injEq] at h
      exact h ▸ .here
    | cons n ns ih =>
      unfold lookup at h
      cases ha : o.attr n with
      | none => rw [ha] at h; cases h
      | some o' => rw [ha] at h; exact .next ha (ih o' h)
  · intro h
    induction h with
    | here => rfl
    | next ha _ ih => unfold lookup; rw [ha]; exact ih

/-- **C96.** A class name with a part that does not exist is refused. -/
theorem missing_class_refused {py : Python} {there : Word → Bool} {st : Interp} {name : String}
    {moduleName className posArgs kwArgs paths : Word} {base : Nat} {m : Obj}
    (hm : (loadModuleText py there st moduleName paths).1 = .ok m)
    (hc : ∀ c, ¬ Leads m ((splitDots [] className).map trim) c) :
    (wrapper py there st name moduleName className posArgs kwArgs paths base).1 = .throw .runtimeError := by
  have hl : lookup m ((splitDots [] className).map trim) = none := by
    cases h : lookup m ((splitDots [] className).map trim) with
    | none => rfl
    | some c => exact absurd ((lookup_leads _ _ _).1 h) (hc c)
  unfold wrapper
  cases h : loadModuleText py there st moduleName paths with
  | mk r st' =>
    rw [h] at hm
    dsimp only at hm
    subst hm
    simp only [hl]

/-- **C96.** A loaded module is remembered: later loads of this name give it whatever the files and paths are then. -/
theorem module_remembered {py py' : Python} {st : Interp} {n : Word} {paths paths' : List Word} {o : Obj}
    (h : (loadModule py st n paths).1 = .ok o) :
    (loadModule py' (loadModule py st n paths).2 n paths').1 = .ok o := by
  have key : (loadModule py st n paths).2.imported.find? (fun m => m.1 = n) = some (n, o) := by
    unfold loadModule loadModule2 importModule at h ⊢
    dsimp only at h ⊢
    cases hf : st.imported.find? (fun m => m.1 = n) with
    | some m =>
      rw [hf] at h
      dsimp only at h ⊢
      rw [hf]
      have h1 : m.1 = n := by simpa using List.find?_some hf
      have h2 : m.2 = o := by injection h
      rw [← h1, ← h2]
    | none =>
      rw [hf] at h
      dsimp only at h ⊢
      cases hs : (st.sysPath ++ paths).findSome? (fun d => py.find d n) with
      | none => rw [hs] at h; cases h
      | some o' =>
        rw [hs] at h
        dsimp only at h ⊢
        have : o' = o := by injection h
        rw [this]
        simp
  have := (module_loaded py' (loadModule py st n paths).2 n paths').1
  rw [this, key]
  rfl

/-- **C96.** With two texts of paths, modules are searched in the directories of the second, and these remain part of the
system path. -/
theorem additional_path_searched {py : Python} {there : Word → Bool} {st : Interp} {n paths additional : Word}
    {l a : List Word} (hl : pathList there paths = .ok l) (ha : pathList there additional = .ok a) :
    loadModuleText2 py there st n paths additional = loadModule py st n a ∧
    (loadModuleText2 py there st n paths additional).2.sysPath = st.sysPath ++ a := by
  have e : loadModuleText2 py there st n paths additional = loadModule py st n a := by
    unfold loadModuleText2
    rw [hl, ha]
    rfl
  exact ⟨e, e ▸ (module_loaded py st n a).2⟩

/-! ## Examples -/

/-- A module with a class 7 in a submodule. -/
def nested : Obj := .mk [(['s'], .mk [(['C'], .mk [] (some 7))] none)] none

example : Leads nested [['s'], ['C']] (.mk [] (some 7)) := .next rfl (.next rfl .here)

example (c : Obj) : ¬ Leads nested [['s'], ['D']] c := by
  rw [← lookup_leads]
  simp [lookup, nested, Obj.attr, Obj.attrs]

/-- Files which only contain this module. -/
def files : Python := ⟨fun d n => if d = ['d'] ∧ n = ['m'] then some nested else none, fun _ => none, fun _ => none,
  fun _ _ _ _ => none⟩

example : (loadModule files ⟨[], []⟩ ['m'] [['d']]).1 = .ok nested := by
  rw [(module_loaded _ _ _ _).1]
  rfl

example : pathList (fun _ => true) ['d', ',', 'e'] = .ok [['d'], ['e']] := by decide

end Visr.PyWrapper
