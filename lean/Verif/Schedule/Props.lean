import Verif.Schedule.Spec
import Verif.Schedule.Lemmas

/-!
# C22: schedules are complete and respect data dependencies
-/

namespace Visr.Schedule
open Visr Relation

/-! ## The dependency graph -/

theorem mem_predecessors {c : Conns} {a p : Nat} : p ∈ predecessors c a ↔ Feeds c p a := by
  unfold predecessors Feeds
  simp only [mem_toSet, List.mem_append, List.mem_filterMap]
  constructor
  · rintro (⟨⟨⟨x, xc⟩, y⟩, hk, h⟩ | ⟨⟨y, ⟨x, xc⟩⟩, hk, h⟩)
    · cases xc <;> simp at h
      obtain ⟨h1, rfl⟩ := h
      exact Or.inl ⟨_, hk, rfl, h1⟩
    · cases xc <;> simp at h
      obtain ⟨h1, rfl⟩ := h
      exact Or.inr ⟨_, hk, rfl, h1⟩
  · rintro (⟨⟨s, r⟩, hk, h1, h2⟩ | ⟨⟨r, s⟩, hk, h1, h2⟩)
    · refine Or.inl ⟨_, hk, ?_⟩
      simp only at h1 h2
      simp [h1, h2]
    · refine Or.inr ⟨_, hk, ?_⟩
      simp only at h1 h2
      simp [h1, h2]

/-- The edges created for a vertex. -/
def edgesOf (c : Conns) (v : Node) (a : Nat) : List (Node × Node) :=
  let es := if (predecessors c a).isEmpty then [(.source, v)] else (predecessors c a).map fun p => (.proc p, v)
  if (successors c a).isEmpty ∧ v ≠ .sink then es ++ [(v, .sink)] else es

theorem predEdges_ok {atoms : List Nat} {v : Node} {ps : List Nat} (h : ∀ p ∈ ps, p ∈ atoms) :
    predEdges atoms v ps = .ok (ps.map fun p => (.proc p, v)) := by
  induction ps with
  | nil => rfl
  | cons p ps ih =>
    unfold predEdges
    rw [if_pos (h p (by simp)), ih (fun q hq => h q (by simp [hq]))]
    rfl

theorem vertexEdges_ok {c : Conns} {atoms : List Nat} {v : Node} {a : Nat} (h : ∀ p, Feeds c p a → p ∈ atoms) :
    vertexEdges c atoms v a = .ok (edgesOf c v a) := by
  unfold vertexEdges edgesOf
  simp only []
  rw [predEdges_ok (fun p hp => h p (mem_predecessors.1 hp))]
  by_cases hp : (predecessors c a).isEmpty = true <;> simp [hp]

theorem edgesLoop_ok {c : Conns} {atoms : List Nat} {vs : List (Node × Nat)} (h : ∀ a p, Feeds c p a → p ∈ atoms) :
    edgesLoop c atoms vs = .ok (vs.flatMap fun v => edgesOf c v.1 v.2) := by
  induction vs with
  | nil => rfl
  | cons v vs ih =>
    obtain ⟨v, a⟩ := v
    unfold edgesLoop
    rw [vertexEdges_ok (h a), ih]
    rfl

theorem mem_edgesOf {c : Conns} {v u w : Node} {a : Nat} :
    (u, w) ∈ edgesOf c v a ↔
      (w = v ∧ ((u = .source ∧ predecessors c a = []) ∨ ∃ p, u = .proc p ∧ Feeds c p a)) ∨
      (u = v ∧ w = .sink ∧ successors c a = [] ∧ v ≠ .sink) := by
  unfold edgesOf
  have h1 : (u, w) ∈ (if (predecessors c a).isEmpty then [(Node.source, v)]
      else (predecessors c a).map fun p => (Node.proc p, v)) ↔
      w = v ∧ ((u = .source ∧ predecessors c a = []) ∨ ∃ p, u = .proc p ∧ Feeds c p a) := by
    by_cases hp : predecessors c a = []
    · have hno : ∀ p, ¬ Feeds c p a := fun p hf => by
        have := mem_predecessors.2 hf
        rw [hp] at this
        cases this
      simp [hp, hno]; tauto
    · have : (predecessors c a).isEmpty = false := by
        cases h : predecessors c a with
        | nil => exact absurd h hp
        | cons _ _ => rfl
      simp only [this, Bool.false_eq_true, if_false, List.mem_map, Prod.mk.injEq, hp, and_false, false_or]
      constructor
      · rintro ⟨p, hp, rfl, rfl⟩
        exact ⟨rfl, p, rfl, mem_predecessors.1 hp⟩
      · rintro ⟨rfl, p, rfl, hf⟩
        exact ⟨p, mem_predecessors.2 hf, rfl, rfl⟩
  simp only []
  split_ifs with h2 h3 <;> simp_all

/-- Facts about the graph built by `initialise`. -/
theorem initialise_ok {flow : Comp} {c : Conns} (hw : WellFormed flow c) :
    ∃ g, initialise flow c = .ok g ∧ g.verts = .source :: .sink :: flow.atoms.map .proc ∧
      (∀ u w, g.E u w → u ∈ g.verts ∧ w ∈ g.verts) ∧
      (∀ u, ¬ g.E u .source) ∧ (∀ w, ¬ g.E .sink w) ∧
      (∀ u b, g.E u (.proc b) → u = .source ∨ ∃ a, u = .proc a ∧ Feeds c a b) ∧
      (∀ a b, Feeds c a b → b ∈ flow.atoms → g.E (.proc a) (.proc b)) := by
  have hs : ∀ a p, Feeds c p a → p ∈ flow.atoms := fun a p h => hw.senders p a h
  unfold initialise
  simp only
  rw [edgesLoop_ok hs]
  refine ⟨_, rfl, rfl, ?_, ?_, ?_, ?_, ?_⟩
  all_goals
    unfold Graph.E
    simp only [List.flatMap_cons, List.mem_append, List.mem_flatMap, List.mem_map, mem_edgesOf, mem_toSet]
  · rintro u w (h | ⟨_, ⟨b, hb, rfl⟩, h⟩)
    · rcases h with ⟨rfl, ⟨rfl, _⟩ | ⟨p, rfl, hf⟩⟩ | ⟨_, _, _, h⟩
      · simp
      · simp [hs _ _ hf]
      · simp at h
    · rcases h with ⟨rfl, ⟨rfl, _⟩ | ⟨p, rfl, hf⟩⟩ | ⟨rfl, rfl, _⟩
      · simp [hb]
      · simp [hb, hs _ _ hf]
      · simp [hb]
  · rintro u (h | ⟨_, ⟨b, hb, rfl⟩, h⟩)
    · rcases h with ⟨h, _⟩ | ⟨_, h, _⟩ <;> cases h
    · rcases h with ⟨h, _⟩ | ⟨_, h, _⟩ <;> cases h
  · rintro w (h | ⟨_, ⟨b, hb, rfl⟩, h⟩)
    · rcases h with ⟨_, ⟨h, _⟩ | ⟨p, h, _⟩⟩ | ⟨_, _, _, h⟩
      · cases h
      · cases h
      · exact h rfl
    · rcases h with ⟨_, ⟨h, _⟩ | ⟨p, h, _⟩⟩ | ⟨h, _⟩ <;> cases h
  · rintro u b (h | ⟨_, ⟨b', hb, rfl⟩, h⟩)
    · rcases h with ⟨h, _⟩ | ⟨_, h, _⟩ <;> cases h
    · rcases h with ⟨h, h2⟩ | ⟨_, h, _⟩
      · cases h
        rcases h2 with ⟨h, _⟩ | h
        · exact Or.inl h
        · exact Or.inr h
      · cases h
  · intro a b hf hb
    exact Or.inr ⟨_, ⟨b, hb, rfl⟩, Or.inl ⟨rfl, Or.inr ⟨a, rfl, hf⟩⟩⟩

/-- The graph has a cycle iff the flow has one. -/
theorem cyclic_iff {flow : Comp} {c : Conns} (hw : WellFormed flow c) {g : Graph}
    (h1 : ∀ u, ¬ g.E u .source) (h2 : ∀ w, ¬ g.E .sink w)
    (h3 : ∀ u b, g.E u (.proc b) → u = .source ∨ ∃ a, u = .proc a ∧ Feeds c a b)
    (h4 : ∀ a b, Feeds c a b → b ∈ flow.atoms → g.E (.proc a) (.proc b)) : g.Cyclic ↔ CyclicFlow c := by
  constructor
  · rintro ⟨x, hx⟩
    have key : ∀ x b, TransGen g.E x (.proc b) → x = .source ∨ ∃ a, x = .proc a ∧ TransGen (Feeds c) a b := by
      intro x b h
      induction h using TransGen.head_induction_on with
      | single h =>
        rcases h3 _ _ h with h | ⟨a, h, hf⟩
        · exact Or.inl h
        · exact Or.inr ⟨a, h, TransGen.single hf⟩
      | head h _ ih =>
        rcases ih with rfl | ⟨a, rfl, ha⟩
        · exact absurd h (h1 _)
        · rcases h3 _ _ h with h | ⟨a', h, hf⟩
          · exact Or.inl h
          · exact Or.inr ⟨a', h, TransGen.head hf ha⟩
    cases x with
    | source =>
      obtain ⟨y, _, hy⟩ := TransGen.tail'_iff.1 hx
      exact absurd hy (h1 y)
    | sink =>
      obtain ⟨y, hy, _⟩ := TransGen.head'_iff.1 hx
      exact absurd hy (h2 y)
    | proc b =>
      rcases key _ _ hx with h | ⟨a, h, ha⟩
      · cases h
      · cases h
        exact ⟨b, ha⟩
  · rintro ⟨a, ha⟩
    have key : ∀ a b, b ∈ flow.atoms → TransGen (Feeds c) a b → TransGen g.E (.proc a) (.proc b) := by
      intro a b hb h
      induction h with
      | single h => exact TransGen.single (h4 _ _ h hb)
      | tail _ h ih => exact TransGen.tail (ih (hw.senders _ _ h)) (h4 _ _ h hb)
    obtain ⟨b, hb, _⟩ := TransGen.head'_iff.1 ha
    exact ⟨.proc a, key a a (hw.senders _ _ hb) ha⟩

/-! ## The schedule -/

theorem mem_processors {a : Nat} {l : List Node} : a ∈ processors l ↔ .proc a ∈ l := by
  induction l with
  | nil => simp [processors]
  | cons n ns ih => cases n <;> simp [processors, ih]

theorem nodup_processors {l : List Node} (h : l.Nodup) : (processors l).Nodup := by
  induction l with
  | nil => simp [processors]
  | cons n ns ih =>
    rw [List.nodup_cons] at h
    cases n with
    | source => exact ih h.2
    | sink => exact ih h.2
    | proc a => exact List.nodup_cons.2 ⟨fun hm => h.1 (mem_processors.1 hm), ih h.2⟩

theorem processors_append (l l' : List Node) : processors (l ++ l') = processors l ++ processors l' := by
  induction l with
  | nil => rfl
  | cons n ns ih => cases n <;> simp [processors, ih]

/-- **C22.** For every composite flow whose connections refer to its own components: if no component depends on its own
output, the schedule is created, contains every atomic component exactly once, and executes every component after all
components it receives audio or parameters from; otherwise the flow is rejected with `invalid_argument`. -/
theorem schedule_correct (flow : Comp) (c : Conns) (hw : WellFormed flow c) :
    (¬ CyclicFlow c → ∃ l, schedule flow c = .ok l ∧ Admissible flow.atoms c l) ∧
    (CyclicFlow c → schedule flow c = .throw .invalidArgument) := by
  obtain ⟨g, hg, hverts, hcl, h1, h2, h3, h4⟩ := initialise_ok hw
  have hcyc := cyclic_iff hw h1 h2 h3 h4
  obtain ⟨s, hs, hnd, hback, hmem, hord⟩ := search_spec hcl
  have hcl' : ∀ u w, g.E u w → w ∈ g.verts := fun u w h => (hcl u w h).2
  have hsrc : Node.source ∈ g.verts := by rw [hverts]; simp
  have hanc : ∀ x, Dfs.start.color x = .gray → TransGen g.E x .source := fun x hx => absurd hx (start_gray x)
  obtain ⟨s0, hs0⟩ := visit_total hcl' g.verts.length .source .start hsrc rfl (whites_le _ _) (good_start g) hanc
  have hg0 := (visit_spec hcl' _ _ _ _ hsrc (good_start g) rfl hanc hs0).1
  unfold schedule
  rw [hg]
  simp only
  unfold sequentialSchedule checkAcyclicGraph
  rw [hs0, hs]
  constructor
  · intro hnc
    have hb : s.back = [] := hback.2 (fun h => hnc (hcyc.1 h))
    have hb0 : s0.back = [] := by
      by_contra hne
      exact hnc (hcyc.1 (hg0.sound hne))
    have hvn : g.verts.Nodup := by
      rw [hverts, List.nodup_cons, List.nodup_cons]
      refine ⟨by simp, by simp, hw.nodup.map ?_⟩
      intro a b hab
      cases hab
      rfl
    have hlen : s.out.length = (toSet flow.atoms).length + 2 := by
      rw [((List.perm_ext_iff_of_nodup hnd hvn).2 hmem).length_eq, hverts, length_toSet hw.nodup]
      simp
    simp only [hb0, hb, hlen, List.isEmpty_nil, ne_eq, not_true_eq_false, if_false]
    refine ⟨_, rfl, ?_⟩
    have hmem' : ∀ a, a ∈ processors s.out ↔ a ∈ flow.atoms := by
      intro a
      rw [mem_processors, hmem, hverts]
      simp
    refine ⟨(List.perm_ext_iff_of_nodup (nodup_processors hnd) hw.nodup).2 hmem', nodup_processors hnd, ?_⟩
    intro a b hf hb'
    have hE := h4 a b hf hb'
    have ha : Node.proc a ∈ s.out := (hmem _).2 (hcl _ _ hE).1
    obtain ⟨x, y, hxy⟩ := List.append_of_mem ha
    obtain ⟨y1, y2, rfl⟩ := List.append_of_mem (hord hb x _ y hxy _ hE)
    refine ⟨processors x, processors y1, processors y2, ?_⟩
    rw [hxy]
    simp [processors_append, processors]
  · intro hc
    have hb : s.back ≠ [] := fun h => hback.1 h (hcyc.2 hc)
    cases h0 : s0.back with
    | nil => simp [hb, h0]
    | cons _ _ => simp [h0]

/-- The same for `AudioSignalFlow::initialiseSchedule`; a flow consisting of one atomic component is always accepted. -/
theorem initialiseSchedule_correct (flow : Comp) (c : Conns) (hw : WellFormed flow c) :
    (¬ CyclicFlow c → ∃ l, initialiseSchedule flow c = .ok l ∧ Admissible flow.atoms c l) ∧
    (CyclicFlow c → (∃ a cs, flow = .composite a cs) → initialiseSchedule flow c = .throw .invalidArgument) := by
  cases flow with
  | composite a cs =>
    exact ⟨(schedule_correct _ c hw).1, fun h _ => (schedule_correct _ c hw).2 h⟩
  | atom a =>
    refine ⟨?_, fun _ ⟨b, cs, h⟩ => by cases h⟩
    intro hnc
    refine ⟨[a], rfl, List.Perm.refl _, by simp, ?_⟩
    intro x y hf hy
    have hx := hw.senders x y hf
    simp only [Comp.atoms, List.mem_singleton] at hx hy
    subst hx; subst hy
    exact absurd ⟨_, TransGen.single hf⟩ hnc

mutual
theorem mem_atoms (a : Nat) : (flow : Comp) → (a ∈ flow.atoms ↔ AtomIn flow a)
  | .atom b => by
    simp only [Comp.atoms, List.mem_singleton]
    constructor
    · rintro rfl; exact .atom _
    · intro h; cases h; rfl
  | .composite x cs => by
    rw [Comp.atoms, mem_atomsOfList a cs]
    constructor
    · rintro ⟨c, hc, h⟩; exact .child hc h
    · intro h
      cases h with
      | child hc h => exact ⟨_, hc, h⟩
theorem mem_atomsOfList (a : Nat) : (cs : List Comp) → (a ∈ atomsOfList cs ↔ ∃ c ∈ cs, AtomIn c a)
  | [] => by simp [atomsOfList]
  | c :: cs => by
    rw [atomsOfList, List.mem_append, mem_atoms a c, mem_atomsOfList a cs]
    simp
end

/-- **C22.** A schedule executes the atomic components at all levels of the component tree, each once, and nothing
else. -/
theorem schedule_runs_every_atom (flow : Comp) (c : Conns) (hw : WellFormed flow c) (l : List Nat)
    (h : initialiseSchedule flow c = .ok l) : l.Nodup ∧ ∀ a, a ∈ l ↔ AtomIn flow a := by
  by_cases hc : CyclicFlow c
  · cases flow with
    | atom a =>
      cases h
      exact ⟨by simp, fun b => by rw [← mem_atoms]; simp [Comp.atoms]⟩
    | composite a cs =>
      have := (schedule_correct _ c hw).2 hc
      rw [initialiseSchedule, this] at h
      cases h
  · obtain ⟨l', hl', ha⟩ := (initialiseSchedule_correct flow c hw).1 hc
    rw [h] at hl'
    cases hl'
    exact ⟨ha.nodup, fun a => by rw [ha.perm.mem_iff, mem_atoms]⟩

/-- A nested flow: source 11 and filter 5 in a composite, mixer 7 outside; the filter receives audio from the source,
the mixer audio from the filter and a parameter from the source, and the external input feeds the filter. -/
def demoFlow : Comp := .composite 1 [.atom 7, .composite 2 [.atom 5, .atom 11]]

/-- See `demoFlow`. -/
def demoConns : Conns :=
  ⟨[(⟨11, false⟩, ⟨5, false⟩), (⟨5, false⟩, ⟨7, false⟩), (⟨1, true⟩, ⟨5, false⟩), (⟨7, false⟩, ⟨1, true⟩)],
   [(⟨7, false⟩, ⟨11, false⟩)]⟩

example : schedule demoFlow demoConns = .ok [11, 5, 7] := by decide +kernel

theorem demo_wellFormed : WellFormed demoFlow demoConns := by
  refine ⟨by decide, ?_⟩
  rintro a b (⟨k, hk, h, _⟩ | ⟨k, hk, h, _⟩) <;> simp [demoConns] at hk <;>
    rcases hk with rfl | rfl | rfl | rfl <;> cases h <;> decide

/-- With a feedback connection the flow is rejected. -/
def demoCycle : Conns := { demoConns with param := [(⟨11, false⟩, ⟨7, false⟩)] }

example : schedule demoFlow demoCycle = .throw .invalidArgument := by decide +kernel

example : CyclicFlow demoCycle :=
  ⟨11, TransGen.tail (TransGen.tail (TransGen.single (Or.inl ⟨_, by simp [demoCycle, demoConns]; exact Or.inl rfl, rfl, rfl⟩))
    (b := 5) (Or.inl ⟨(⟨5, false⟩, ⟨7, false⟩), by simp [demoCycle, demoConns], rfl, rfl⟩))
    (b := 7) (Or.inr ⟨(⟨11, false⟩, ⟨7, false⟩), by simp [demoCycle], rfl, rfl⟩)⟩

/-- The search in `checkAcyclicGraph` starts at the source vertex only and misses a cycle that no source leads to; it is
`topological_sort` that detects it. -/
theorem checkAcyclicGraph_misses_cycles :
    ∃ g, initialise (.composite 1 [.atom 2, .atom 3])
        ⟨[(⟨2, false⟩, ⟨3, false⟩), (⟨3, false⟩, ⟨2, false⟩)], []⟩ = .ok g ∧ checkAcyclicGraph g = some true := by
  refine ⟨_, rfl, ?_⟩
  decide +kernel

/-- A connection from a component outside the flow is undefined behaviour: the exception is constructed but not thrown
(`scheduling_graph.cpp:165-169`). -/
theorem schedule_unknown_sender_ub (flow : Comp) (c : Conns) (a : Nat) (hf : Feeds c a flow.addr)
    (ha : a ∉ flow.atoms) : schedule flow c = .ub := by
  have hp : predEdges flow.atoms .sink (predecessors c flow.addr) = .ub := by
    have hm := mem_predecessors.2 hf
    generalize predecessors c flow.addr = ps at hm
    induction ps with
    | nil => cases hm
    | cons p ps ih =>
      unfold predEdges
      by_cases hpa : p ∈ flow.atoms
      · rw [if_pos hpa]
        have : a ∈ ps := by
          rcases List.mem_cons.1 hm with rfl | h
          · exact absurd hpa ha
          · exact h
        rw [ih this]
      · rw [if_neg hpa]
  have hne : (predecessors c flow.addr).isEmpty = false := by
    have hm := mem_predecessors.2 hf
    cases h : predecessors c flow.addr with
    | nil => rw [h] at hm; cases hm
    | cons _ _ => rfl
  have : initialise flow c = .ub := by
    simp [initialise, edgesLoop, vertexEdges, hne, hp]
  simp [schedule, this]

example : schedule (.composite 1 [.atom 2]) ⟨[(⟨3, false⟩, ⟨1, true⟩)], []⟩ = .ub :=
  schedule_unknown_sender_ub _ _ 3 (Or.inl ⟨_, List.mem_singleton.2 rfl, rfl, rfl⟩) (by decide)

end Visr.Schedule
