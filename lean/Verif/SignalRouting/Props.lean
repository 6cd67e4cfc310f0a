import Verif.SignalRouting.Model
import Mathlib.Tactic.Common
import Mathlib.Algebra.BigOperators.Group.Finset.Basic

/-!
# Signal routing mixes exactly the routed inputs (C10)
-/

namespace Visr.SignalRouting
open Visr
open Visr.RoutingParameter (Entry cInvalidIndex)

/-! ## Specification -/

/-- Which inputs are routed to which outputs. -/
abbrev Routes := Nat → Nat → Prop

/-- An entry that can be used by a component of the given size. -/
def InRange (inputs outputs : Nat) (e : Entry) : Prop := e.input < inputs ∧ e.output < outputs

/-- The routes in force after an operation. `setAll` replaces all routes; if it meets an entry out of range it throws, and
the entries before that one remain. An update through the control port (`process (some es)`) is taken as a whole or
not at all. -/
def specStep (inputs outputs : Nat) (control : Bool) (R : Routes) : Op → Routes
  | .set i o => fun o' i' => R o' i' ∨ (o' = o ∧ i' = i ∧ InRange inputs outputs ⟨i, o⟩)
  | .setAll es => fun o' i' => ∃ pre e post, es = pre ++ e :: post ∧ e = ⟨i', o'⟩ ∧
      (∀ x ∈ pre ++ [e], InRange inputs outputs x)
  | .remove i o => fun o' i' => R o' i' ∧ ¬ (o' = o ∧ i' = i)
  | .process none => R
  | .process (some es) => fun o' i' =>
      (control = true ∧ (∀ x ∈ es, InRange inputs outputs x) ∧ (⟨i', o'⟩ : Entry) ∈ es) ∨
      (¬ (control = true ∧ ∀ x ∈ es, InRange inputs outputs x) ∧ R o' i')

/-- Routes after a history, starting without any. -/
def routesAfter (inputs outputs : Nat) (control : Bool) (ops : List Op) : Routes :=
  ops.foldl (specStep inputs outputs control) (fun _ _ => False)

/-- The operation uses no `cInvalidIndex` as the input of an entry. -/
def NoInvalid : Op → Prop
  | .set i _ => i ≠ cInvalidIndex
  | .setAll es => ∀ e ∈ es, e.input ≠ cInvalidIndex
  | .remove i _ => i ≠ cInvalidIndex
  | .process none => True
  | .process (some es) => ∀ e ∈ es, e.input ≠ cInvalidIndex

/-! ## Refinement -/

theorem mem_insertTuple (e y : Nat × Nat) (t : List (Nat × Nat)) : y ∈ insertTuple e t ↔ y = e ∨ y ∈ t := by
  induction t with
  | nil => simp [insertTuple]
  | cons x t ih =>
    simp only [insertTuple]
    split
    · simp
    · split
      · rw [List.mem_cons, ih, List.mem_cons]; tauto
      · rename_i h1 h2
        have : e = x := by
          simp only [tupleLt, Bool.or_eq_true, Bool.and_eq_true, decide_eq_true_eq, beq_iff_eq, not_or, not_and] at h1 h2
          ext <;> omega
        subst this; simp

theorem insertTuple_nodup (e : Nat × Nat) (t : List (Nat × Nat)) (h : t.Pairwise (fun a b => tupleLt a b = true)) :
    (insertTuple e t).Pairwise (fun a b => tupleLt a b = true) := by
  have htrans : ∀ a b c : Nat × Nat, tupleLt a b = true → tupleLt b c = true → tupleLt a c = true := by
    intro a b c h1 h2
    simp only [tupleLt, Bool.or_eq_true, Bool.and_eq_true, decide_eq_true_eq, beq_iff_eq] at *
    omega
  induction t with
  | nil => simp [insertTuple]
  | cons x t ih =>
    have hx := List.pairwise_cons.1 h
    simp only [insertTuple]
    split
    · rename_i hlt
      refine List.pairwise_cons.2 ⟨fun y hy => ?_, h⟩
      rcases List.mem_cons.1 hy with rfl | hy
      · exact hlt
      · exact htrans _ _ _ hlt (hx.1 y hy)
    · split
      · rename_i hlt
        refine List.pairwise_cons.2 ⟨fun y hy => ?_, ih hx.2⟩
        rcases (mem_insertTuple e y t).1 hy with rfl | hy
        · exact hlt
        · exact hx.1 y hy
      · exact h

/-- The table is the sorted list of the routes. -/
structure Rel (s : State) (R : Routes) : Prop where
  sorted : s.table.Pairwise (fun a b => tupleLt a b = true)
  mem : ∀ o i, (o, i) ∈ s.table ↔ R o i
  range : ∀ o i, (o, i) ∈ s.table → i < s.inputs ∧ o < s.outputs

theorem indexOk_iff (s : State) (ho : s.outputs ≤ cInvalidIndex) (i o : Nat) (hi : i ≠ cInvalidIndex) :
    indexOk s i o = true ↔ InRange s.inputs s.outputs ⟨i, o⟩ := by
  have h1 : (i != cInvalidIndex) = true := by simpa using hi
  simp only [indexOk, h1, Bool.true_and, InRange, ge_iff_le, Bool.and_eq_true, Bool.not_eq_true', decide_eq_false_iff_not,
    Bool.or_eq_false_iff, beq_eq_false_iff_ne]
  omega

theorem insertAll_spec (s : State) (ho : s.outputs ≤ cInvalidIndex) (es : List Entry)
    (hv : ∀ e ∈ es, e.input ≠ cInvalidIndex) (t : List (Nat × Nat))
    (ht : t.Pairwise (fun a b => tupleLt a b = true)) (hr : ∀ o i, (o, i) ∈ t → i < s.inputs ∧ o < s.outputs) :
    (insertAll s es t).1.Pairwise (fun a b => tupleLt a b = true) ∧
    (∀ o i, (o, i) ∈ (insertAll s es t).1 → i < s.inputs ∧ o < s.outputs) ∧
    (∀ o i, (o, i) ∈ (insertAll s es t).1 ↔ (o, i) ∈ t ∨ ∃ pre e post, es = pre ++ e :: post ∧ e = ⟨i, o⟩ ∧
      (∀ x ∈ pre ++ [e], InRange s.inputs s.outputs x)) ∧
    ((insertAll s es t).2 = .ok () ↔ ∀ e ∈ es, InRange s.inputs s.outputs e) ∧
    ((insertAll s es t).2 = .ok () ∨ (insertAll s es t).2 = .throw .invalidArgument) := by
  induction es generalizing t with
  | nil => simp [insertAll]; exact ⟨ht, hr⟩
  | cons e es ih =>
    have he := indexOk_iff s ho e.input e.output (hv e (by simp))
    simp only [insertAll]
    split
    · rename_i hok
      have hin := he.1 hok
      obtain ⟨h1, h2, h3, h4, h5⟩ := ih (fun x hx => hv x (by simp [hx])) (insertTuple (e.output, e.input) t)
        (insertTuple_nodup _ _ ht) (by
          intro o i hm
          rcases (mem_insertTuple _ _ _).1 hm with h | h
          · injection h with a b
            subst a b; exact hin
          · exact hr o i h)
      refine ⟨h1, h2, fun o i => ?_, ?_, h5⟩
      · rw [h3 o i, mem_insertTuple]
        constructor
        · rintro ((h | h) | ⟨pre, x, post, h, hx, hall⟩)
          · injection h with a b
            exact .inr ⟨[], e, es, rfl, by cases e; simp_all, by simpa using hin⟩
          · exact .inl h
          · refine .inr ⟨e :: pre, x, post, by rw [h]; rfl, hx, ?_⟩
            intro y hy
            rw [List.cons_append, List.mem_cons] at hy
            rcases hy with rfl | hy
            · exact hin
            · exact hall y hy
        · rintro (h | ⟨pre, x, post, h, hx, hall⟩)
          · exact .inl (.inr h)
          · cases pre with
            | nil =>
              simp only [List.nil_append, List.cons.injEq] at h
              left; left
              rw [h.1, hx]
            | cons y pre =>
              simp only [List.cons_append, List.cons.injEq] at h
              exact .inr ⟨pre, x, post, h.2, hx, fun z hz => hall z (by simp only [List.cons_append, List.mem_cons]; exact .inr hz)⟩
      · rw [h4]
        constructor
        · intro h x hx
          rcases List.mem_cons.1 hx with rfl | hx
          · exact hin
          · exact h x hx
        · intro h x hx; exact h x (by simp [hx])
    · rename_i hok
      have hnin : ¬ InRange s.inputs s.outputs e := fun h => hok (he.2 h)
      refine ⟨ht, hr, fun o i => ?_, ?_, .inr rfl⟩
      · constructor
        · exact Or.inl
        · rintro (h | ⟨pre, x, post, h, hx, hall⟩)
          · exact h
          · exfalso
            cases pre with
            | nil =>
              simp only [List.nil_append, List.cons.injEq] at h
              exact hnin (by rw [h.1]; exact hall x (by simp))
            | cons y pre =>
              simp only [List.cons_append, List.cons.injEq] at h
              exact hnin (by rw [h.1]; exact hall y (by simp))
      · constructor
        · intro h; cases h
        · intro h; exact absurd (h e (by simp)) hnin

theorem rel_step {s : State} {R : Routes} (ho : s.outputs ≤ cInvalidIndex) (h : Rel s R) (op : Op) (hv : NoInvalid op) :
    Rel (step s op).1 (specStep s.inputs s.outputs s.hasControl R op) ∧ (step s op).1.inputs = s.inputs ∧
      (step s op).1.outputs = s.outputs ∧ (step s op).1.hasControl = s.hasControl := by
  cases op with
  | set i o =>
    have hio := indexOk_iff s ho i o hv
    simp only [step, setRouting]
    split
    · rename_i hok
      have hin := hio.1 hok
      refine ⟨⟨insertTuple_nodup _ _ h.sorted, fun o' i' => ?_, fun o' i' hm => ?_⟩, rfl, rfl, rfl⟩
      · simp only [specStep, mem_insertTuple, h.mem, Prod.mk.injEq]
        tauto
      · rcases (mem_insertTuple _ _ _).1 hm with hx | hx
        · injection hx with a b; subst a b; exact hin
        · exact h.range o' i' hx
    · rename_i hok
      have hnin : ¬ InRange s.inputs s.outputs ⟨i, o⟩ := fun hh => hok (hio.2 hh)
      refine ⟨⟨h.sorted, fun o' i' => ?_, h.range⟩, rfl, rfl, rfl⟩
      simp only [specStep, h.mem]; tauto
  | setAll es =>
    obtain ⟨h1, h2, h3, -, -⟩ := insertAll_spec s ho es hv [] List.Pairwise.nil (by simp)
    refine ⟨⟨h1, fun o i => ?_, h2⟩, rfl, rfl, rfl⟩
    simp only [step, setRoutings, specStep]
    rw [h3 o i]; simp
  | remove i o =>
    have hio := indexOk_iff s ho i o hv
    simp only [step, removeRouting]
    split
    · refine ⟨⟨h.sorted.filter _, fun o' i' => ?_, fun o' i' hm => h.range o' i' (List.mem_filter.1 hm).1⟩, rfl, rfl, rfl⟩
      simp only [specStep, List.mem_filter, h.mem, bne_iff_ne, ne_eq, Prod.mk.injEq]
    · rename_i hok
      have hnin : ¬ InRange s.inputs s.outputs ⟨i, o⟩ := fun hh => hok (hio.2 hh)
      refine ⟨⟨h.sorted, fun o' i' => ?_, h.range⟩, rfl, rfl, rfl⟩
      simp only [specStep, h.mem]
      constructor
      · intro hr
        refine ⟨hr, ?_⟩
        rintro ⟨rfl, rfl⟩
        exact hnin (h.range _ _ ((h.mem _ _).2 hr))
      · exact And.left
  | process new =>
    cases new with
    | none =>
      simp only [step, specStep]
      have : controlUpdate s none = s := by unfold controlUpdate; split <;> simp_all
      rw [this]; exact ⟨h, rfl, rfl, rfl⟩
    | some es =>
      obtain ⟨h1, h2, h3, h4, h5⟩ := insertAll_spec s ho es hv [] List.Pairwise.nil (by simp)
      simp only [step, specStep]
      cases hc : s.hasControl with
      | false =>
        have : controlUpdate s (some es) = s := by unfold controlUpdate; rw [hc]
        rw [this]
        refine ⟨⟨h.sorted, fun o' i' => ?_, h.range⟩, rfl, rfl, hc⟩
        simp [h.mem]
      | true =>
        by_cases hall : ∀ x ∈ es, InRange s.inputs s.outputs x
        · have hok := h4.2 hall
          have : controlUpdate s (some es) = { s with table := (insertAll s es []).1 } := by
            unfold controlUpdate; rw [hc]
            simp only
            split
            · rename_i t heq; rw [heq]
            · rename_i t o hne heq; rw [heq] at hok; exact absurd hok hne
          rw [this]
          refine ⟨⟨h1, fun o' i' => ?_, h2⟩, rfl, rfl, hc⟩
          simp only [h3]
          constructor
          · rintro (hx | ⟨pre, e, post, hes, he, -⟩)
            · simp at hx
            · exact .inl ⟨trivial, hall, by rw [hes, he]; simp⟩
          · rintro (⟨-, -, hm⟩ | ⟨hx, -⟩)
            · obtain ⟨pre, post, hes⟩ := List.append_of_mem hm
              exact .inr ⟨pre, _, post, hes, rfl, fun x hx => hall x (by
                rw [hes]; simp only [List.mem_append, List.mem_cons, List.not_mem_nil, or_false] at hx ⊢; tauto)⟩
            · exact absurd ⟨trivial, hall⟩ hx
        · have hnok : (insertAll s es []).2 ≠ .ok () := fun hh => hall (h4.1 hh)
          have : controlUpdate s (some es) = s := by
            unfold controlUpdate; rw [hc]
            rcases heq : insertAll s es [] with ⟨t, o⟩
            rw [heq] at hnok
            cases o with
            | ok u => exact absurd rfl hnok
            | throw e => simp [heq]
            | ub => simp [heq]
          rw [this]
          refine ⟨⟨h.sorted, fun o' i' => ?_, h.range⟩, rfl, rfl, hc⟩
          simp only [h.mem]
          constructor
          · intro hr; exact .inr ⟨fun hh => hall hh.2, hr⟩
          · rintro (⟨-, hh, -⟩ | ⟨-, hr⟩)
            · exact absurd hh hall
            · exact hr

theorem rel_after (inputs outputs : Nat) (ho : outputs ≤ cInvalidIndex) (control : Bool) (ops : List Op)
    (hv : ∀ op ∈ ops, NoInvalid op) :
    let s := final step (setup inputs outputs control) ops
    Rel s (routesAfter inputs outputs control ops) ∧ s.inputs = inputs ∧ s.outputs = outputs ∧ s.hasControl = control := by
  suffices h : ∀ (s : State) (R : Routes), Rel s R → s.inputs = inputs → s.outputs = outputs → s.hasControl = control →
      Rel (final step s ops) (ops.foldl (specStep inputs outputs control) R) ∧ (final step s ops).inputs = inputs ∧
      (final step s ops).outputs = outputs ∧ (final step s ops).hasControl = control from
    h _ _ ⟨List.Pairwise.nil, by simp [setup], by simp [setup]⟩ rfl rfl rfl
  induction ops with
  | nil => intro s R h h1 h2 h3; exact ⟨h, h1, h2, h3⟩
  | cons op ops ih =>
    intro s R h h1 h2 h3
    obtain ⟨a, b, c, d⟩ := rel_step (by rw [h2]; exact ho) h op (hv op (by simp))
    rw [h1, h2, h3] at a
    rw [final_cons, List.foldl_cons]
    exact ih (fun x hx => hv x (by simp [hx])) _ _ a (by rw [b, h1]) (by rw [c, h2]) (by rw [d, h3])

theorem mix_spec {α : Type u} [AddCommMonoid α] (s : State) (x : Nat → Nat → α) (t : List (Nat × Nat))
    (hr : ∀ o i, (o, i) ∈ t → i < s.inputs ∧ o < s.outputs) (y : Nat → Nat → α) :
    ∃ y', mix s x t y = .ok y' ∧
      ∀ o k, y' o k = y o k + ((t.filter (fun e => decide (e.1 = o))).map (fun e => x e.2 k)).sum := by
  induction t generalizing y with
  | nil => exact ⟨y, rfl, by simp⟩
  | cons e t ih =>
    obtain ⟨o0, i0⟩ := e
    obtain ⟨y', h1, h2⟩ := ih (fun o i hm => hr o i (by simp [hm]))
      (fun o' k => if o' = o0 then y o' k + x i0 k else y o' k)
    refine ⟨y', ?_, ?_⟩
    · rw [mix, if_pos (hr o0 i0 (by simp))]; exact h1
    · intro o k
      rw [h2 o k, List.filter_cons]
      by_cases ho : o = o0
      · subst ho; simp [add_assoc]
      · rw [if_neg ho, if_neg (by simpa using fun hh => ho hh.symm)]

open Classical in
/-- C10, **partial** (no entry whose input is `cInvalidIndex`, see below): whatever operations came before, the routes in
force are those of the specification, and the block is computed without fault as follows: sample `k` of output `o` is the
sum of the samples `k` of exactly the inputs routed to `o`. In particular, by the definition of `specStep`, an update
through the control port with any entry out of range leaves the previous routes in force. -/
theorem signalRouting_mixes_partial {α : Type u} [AddCommMonoid α] (inputs outputs : Nat) (ho : outputs ≤ cInvalidIndex)
    (control : Bool) (ops : List Op) (new : Option (List Entry)) (hv : ∀ op ∈ ops ++ [Op.process new], NoInvalid op)
    (x : Nat → Nat → α) :
    ∃ y, (process (final step (setup inputs outputs control) ops) new x).2 = .ok y ∧
      ∀ o k, y o k =
        ∑ i ∈ (Finset.range inputs).filter (fun i => routesAfter inputs outputs control (ops ++ [Op.process new]) o i),
          x i k := by
  obtain ⟨h, h1, h2, h3⟩ := rel_after inputs outputs ho control (ops ++ [Op.process new]) hv
  rw [final_append] at h h1 h2 h3
  simp only [final_cons, final_nil, step] at h h1 h2 h3
  obtain ⟨y, hy1, hy2⟩ := mix_spec (controlUpdate (final step (setup inputs outputs control) ops) new) x _ h.range
    (fun _ _ => 0)
  refine ⟨y, hy1, fun o k => ?_⟩
  rw [hy2 o k, zero_add]
  generalize hs : controlUpdate (final step (setup inputs outputs control) ops) new = s at *
  have hnd : s.table.Nodup := h.sorted.imp (by
    intro a b hab hh
    subst hh
    simp [tupleLt] at hab)
  have hnd2 : ((s.table.filter (fun e => decide (e.1 = o))).map Prod.snd).Nodup := by
    refine List.Nodup.map_on ?_ (hnd.filter _)
    intro a ha b hb hab
    simp only [List.mem_filter, decide_eq_true_eq] at ha hb
    exact Prod.ext (by rw [ha.2, hb.2]) hab
  have hsum := List.sum_toFinset (fun i => x i k) hnd2
  rw [List.map_map] at hsum
  rw [show ((s.table.filter (fun e => decide (e.1 = o))).map (fun e => x e.2 k)) =
    (s.table.filter (fun e => decide (e.1 = o))).map ((fun i => x i k) ∘ Prod.snd) from rfl, ← hsum]
  apply Finset.sum_congr _ (fun _ _ => rfl)
  ext i
  simp only [List.mem_toFinset, List.mem_map, List.mem_filter, decide_eq_true_eq, Finset.mem_filter, Finset.mem_range]
  constructor
  · rintro ⟨⟨o', i'⟩, ⟨hm, rfl⟩, rfl⟩
    refine ⟨?_, (h.mem _ _).1 hm⟩
    have := (h.range _ _ hm).1
    rw [h1] at this; exact this
  · rintro ⟨-, hm⟩
    exact ⟨(o, i), ⟨(h.mem _ _).2 hm, rfl⟩, rfl⟩

/-- Non-vacuity: two inputs mixed into output 0, a refused and an accepted control update. -/
example : let ops : List Op := [.set 0 0, .set 1 0, .process (some [⟨7, 0⟩])]
    (∀ op ∈ ops ++ [Op.process (some [⟨1, 1⟩])], NoInvalid op) ∧
    (final step (setup 2 2 true) ops).table = [(0, 0), (0, 1)] ∧
    (final step (setup 2 2 true) (ops ++ [Op.process (some [⟨1, 1⟩])])).table = [(1, 1)] := by
  refine ⟨?_, by decide, by decide⟩
  intro op hop
  simp only [List.cons_append, List.nil_append, List.mem_cons, List.not_mem_nil, or_false] at hop
  rcases hop with rfl | rfl | rfl | rfl <;> simp [NoInvalid, cInvalidIndex]

/-- The missing case of C10 fails: an entry with the invalid index as input is accepted (the comment in
`signal_routing.cpp:130-131` calls it legal and equivalent to "no routing"), but the next `process` call reads outside the
array of input channel pointers. -/
theorem signalRouting_invalid_index_ub :
    let r := setRouting (setup 2 2 false) cInvalidIndex 0
    r.2 = .ok () ∧ (process r.1 none (fun _ _ => (0 : Int))).2 = .ub := by
  refine ⟨by decide, ?_⟩
  rw [show (setRouting (setup 2 2 false) cInvalidIndex 0).1 = ⟨2, 2, false, [(0, cInvalidIndex)]⟩ by decide]
  simp [process, controlUpdate, mix, cInvalidIndex]

/-- `setRouting( in, out )` adds a second route to the same output instead of replacing the previous one, contrary to its
documentation (`signal_routing.hpp:88-90`): both inputs are mixed. -/
theorem signalRouting_set_does_not_replace :
    (setRouting (setRouting (setup 2 1 false) 0 0).1 1 0).1.table = [(0, 0), (0, 1)] := by decide

/-- `setup` with an initial routing never creates the control port, even if it is requested. -/
theorem signalRouting_setup_drops_control (inputs outputs : Nat) (initial : List Entry) :
    (setupWith inputs outputs initial true).1.hasControl = false := rfl

/-- `setRouting` with a parameter object is not atomic: an entry out of range throws, but the old routes are gone. -/
theorem signalRouting_setAll_not_atomic :
    let s := (setRouting (setup 2 2 false) 0 0).1
    (setRoutings s [⟨5, 0⟩]).2 = .throw .invalidArgument ∧ (setRoutings s [⟨5, 0⟩]).1.table = [] ∧ s.table = [(0, 0)] := by
  decide

/-- `removeRouting` reports `true` exactly if the route existed, and afterwards it does not. -/
theorem signalRouting_remove {s : State} {R : Routes} (h : Rel s R) (i o : Nat) (hio : i < s.inputs ∧ o < s.outputs)
    (ho : s.outputs ≤ cInvalidIndex) (hi : s.inputs ≤ cInvalidIndex) :
    ∃ b, (removeRouting s i o).2 = .ok b ∧ (b = true ↔ R o i) ∧ (o, i) ∉ (removeRouting s i o).1.table := by
  have hok := (indexOk_iff s ho i o (by omega)).2 hio
  refine ⟨s.table.contains (o, i), by simp [removeRouting, hok], ?_, by simp [removeRouting, hok]⟩
  rw [List.contains_iff_mem, h.mem]

end Visr.SignalRouting
