import Mathlib.Tactic.FieldSimp
import Mathlib.Tactic.Ring
import Verif.Clock.Lemmas

/-!
# C98: the clock of the components counts the processed blocks
-/

namespace Visr.Clock
open Visr

/-! ### The trees of components -/

/-- A component without a parent is the top of its tree, the others belong to the tree of their parent. -/
theorem tree_equations (ops : List Op) (s : State) (h : run init ops = .ok s) (c : Nat) (context : Context) :
    ((created ops)[c]? = some (context, none) → InTree ops c c) ∧
      (∀ p r, (created ops)[c]? = some (context, some p) → (InTree ops r c ↔ InTree ops r p)) := by
  induction ops using List.reverseRecOn generalizing s with
  | nil => simp [created]
  | append_singleton a o ih =>
    obtain ⟨s', h1, h2⟩ := run_snoc h
    have I := inv_run h1
    by_cases ho : created [o] = []
    · have e : created (a ++ [o]) = created a := by rw [created_append, ho, List.append_nil]
      rw [e]
      obtain ⟨i1, i2⟩ := ih s' h1
      exact ⟨fun hc => (inTree_same ho _ _).mpr (i1 hc), fun p r hc => by
        rw [inTree_same ho, inTree_same ho]; exact i2 p r hc⟩
    · cases o with
      | flow d b => exfalso; exact ho rfl
      | process f l b => exfalso; exact ho rfl
      | component ctx parent =>
        have e : created (a ++ [Op.component ctx parent]) = created a ++ [(ctx, parent)] := by rw [created_append]; rfl
        have ht : tops (created a ++ [(ctx, parent)]) = tops (created a) ++ [match parent with
          | none => (tops (created a)).length
          | some p => (tops (created a)).getD p 0] := tops_snoc _ _
        have old : ∀ r d, d < (created a).length → (InTree (a ++ [Op.component ctx parent]) r d ↔ InTree a r d) := by
          intro r d hd
          unfold InTree
          rw [e, ht, List.getElem?_append_left (by rwa [tops_length])]
        obtain ⟨i1, i2⟩ := ih s' h1
        rw [e]
        rcases Nat.lt_or_ge c (created a).length with hl | hg
        · rw [List.getElem?_append_left hl]
          refine ⟨fun hc => (old _ _ hl).mpr (i1 hc), fun p r hc => ?_⟩
          rw [old _ _ hl, i2 p r hc]
          -- the parent existed before
          have hi := I.top c (by rw [I.len]; exact hl)
          obtain ⟨r0, -, -, -, q1, -⟩ := hi
          have hp := ((i2 p r0 hc).mp q1).lt
          rw [old _ _ hp]
        · constructor
          · intro hc
            have hlt := (List.getElem?_eq_some_iff.mp hc).1
            simp only [List.length_append, List.length_singleton] at hlt
            have ec : c = (created a).length := by omega
            subst ec
            simp at hc
            unfold InTree
            rw [e, ht, List.getElem?_append_right (by rw [tops_length]), tops_length]
            simp [hc.2]
          · intro p r hc
            have hlt := (List.getElem?_eq_some_iff.mp hc).1
            simp only [List.length_append, List.length_singleton] at hlt
            have ec : c = (created a).length := by omega
            subst ec
            simp at hc
            obtain ⟨-, rfl⟩ := hc
            have hp : p < (created a).length := by
              simp only [step, construct] at h2
              cases hq : s'.comps[p]? with
              | none => rw [hq] at h2; cases h2
              | some pk => rw [← I.len]; exact (List.getElem?_eq_some_iff.mp hq).1
            rw [old _ _ hp]
            unfold InTree
            rw [e, ht, List.getElem?_append_right (by rw [tops_length]), tops_length]
            have hp' : p < (tops (created a)).length := by rwa [tops_length]
            simp [List.getElem?_eq_getElem hp']

/-! ### What the clock shows -/

theorem read_of {s : State} {c : Nat} {x : Option Nat × Nat} {k : Counter} (h1 : s.comps[c]? = some x)
    (h2 : s.counters[x.2]? = some k) : read s c = k.read := by
  unfold read; rw [h1]; dsimp only; rw [h2]

/-- **C98.** For all histories: after a signal flow has been accepted for a component of a tree, and as long as no further
signal flow is accepted in this tree, the clocks of all components of the tree show the number of blocks completed by the
signal flows of this tree since then; the number of samples is this number times the period of the context of the top
component, and the rendering time follows from the samples and the sampling frequency of this context. The numbers are those
of 64-bit integers. -/
theorem counted_partial (pre post : List Op) (c r d : Nat) (s : State) (context : Context) (parent : Option Nat)
    (h : run init (pre ++ .flow c true :: post) = .ok s)
    (hc : InTree (pre ++ .flow c true :: post) r c) (hd : InTree (pre ++ .flow c true :: post) r d)
    (hpost : ∀ o ∈ post, starts (pre ++ .flow c true :: post) r o = false)
    (hr : (created (pre ++ .flow c true :: post))[r]? = some (context, parent)) :
    ∃ n, n = post.countP (completes (pre ++ .flow c true :: post) r) ∧
      read s d = .ok
        { blockCount := n % 2 ^ 64
          sampleCount := n * context.period % 2 ^ 64
          renderingTime := (n * context.period % 2 ^ 64 : Nat) / (context.samplingFrequency : ℚ) } := by
  refine ⟨_, rfl, ?_⟩
  obtain ⟨x, k, h1, h2, h3⟩ := counter_run [] h d r hd
  rw [List.append_nil, List.foldl_append, List.foldl_cons] at h3
  have e : effect (pre ++ .flow c true :: post) r (pre.foldl (effect (pre ++ .flow c true :: post) r) none)
      (.flow c true) = some (0 % 2 ^ 64) := by
    unfold effect starts
    simp [hc]
  rw [e, foldl_count _ _ _ hpost, Nat.zero_add] at h3
  have I := inv_run h
  obtain ⟨r0, x0, ctx, k0, q1, q2, q3, q4, q5, q6⟩ := I.top d (by rw [I.len]; exact hd.lt)
  have er : r0 = r := q1.unique hd
  subst er
  rw [h1] at q4
  cases q4
  rw [h2] at q5
  cases q5
  rw [hr] at q3
  cases q3
  rw [read_of h1 h2]
  unfold Counter.read
  rw [h3]
  dsimp only
  rw [← q6, Nat.mod_mul_mod, mul_one_div]

/-- Two blocks of a tree with two components, where another block fails. -/
def exampleOps : List Op :=
  [.component ⟨64, 48000⟩ none, .component ⟨64, 48000⟩ (some 0), .flow 0 true, .process 0 [1] false, .process 0 [1] true,
    .process 0 [1] false]

example : ∃ s, run init exampleOps = .ok s ∧ read s 1 = .ok ⟨2, 128, 1 / 375⟩ := ⟨_, rfl, by decide +kernel⟩

example : InTree exampleOps 0 1 ∧ InTree exampleOps 0 0 := by decide +kernel

/-- C98: as long as no signal flow has been accepted in its tree, reading the clock of a component is undefined, because
the counter has not been initialised. -/
theorem undefined_before_start (ops : List Op) (s : State) (h : run init ops = .ok s) (r d : Nat) (hd : InTree ops r d)
    (hs : ∀ o ∈ ops, starts ops r o = false) : read s d = .ub := by
  obtain ⟨x, k, h1, h2, h3⟩ := counter_run [] h d r hd
  rw [List.append_nil, foldl_none _ _ _ hs] at h3
  rw [read_of h1 h2]
  unfold Counter.read
  rw [h3]

example : ∃ s, run init [.component ⟨64, 48000⟩ none, .flow 0 false] = .ok s ∧ read s 0 = .ub := ⟨_, rfl, rfl⟩

/-- **C98.** All components of a tree always read the same time, whatever contexts they were given. -/
theorem same_time (ops : List Op) (s : State) (h : run init ops = .ok s) (r c d : Nat) (hc : InTree ops r c)
    (hd : InTree ops r d) : read s c = read s d := by
  have I := inv_run h
  obtain ⟨x, k, h1, h2, _⟩ := counter_run [] h c r hc
  obtain ⟨y, l, g1, g2, _⟩ := counter_run [] h d r hd
  have e := (I.same c d r r x y hc hd h1 g1).mpr rfl
  rw [e, g2] at h2
  cases h2
  rw [read_of h1 (by rw [e]; exact g2), read_of g1 g2]

/-- **C98.** While a block is processed, all components of the signal flow read the time before the call, whether the block
fails or not: what a component reads does not depend on the components called before it. -/
theorem time_of_block_start (s s' : State) (f : Nat) (called : List Nat) (fails : Bool) (rs : List (Outcome Reading))
    (h : process s f called fails = .ok (s', rs)) :
    rs.length = called.length ∧ ∀ (i c : Nat), called[i]? = some c → rs[i]? = some (read s c) := by
  unfold process at h
  have key : rs = called.map (read s) := by
    cases hf : s.flows[f]? with
    | none => rw [hf] at h; cases h
    | some d =>
      rw [hf] at h
      dsimp only at h
      cases hp : s.comps[d]? with
      | none => rw [hp] at h; cases h
      | some pk =>
        rw [hp] at h
        cases fails <;> simp at h <;> exact h.2.symm
  subst key
  exact ⟨by simp, fun i c hi => by simp [hi]⟩

example : ∃ s s' rs, run init exampleOps = .ok s ∧ process s 0 [1, 0] false = .ok (s', rs) ∧
    rs = [.ok ⟨2, 128, 1 / 375⟩, .ok ⟨2, 128, 1 / 375⟩] ∧ read s' 1 = .ok ⟨3, 192, 1 / 250⟩ :=
  ⟨_, _, _, rfl, rfl, by decide +kernel, by decide +kernel⟩

/-- C98: a block which fails, and a signal flow which is not accepted, leave all clocks as they are. -/
theorem failure_keeps_time (s s' : State) :
    (∀ f called rs, process s f called true = .ok (s', rs) → s' = s) ∧
      (∀ c, createFlow s c false = .ok s' → s' = s) := by
  constructor
  · intro f called rs h
    unfold process at h
    cases hf : s.flows[f]? with
    | none => rw [hf] at h; cases h
    | some d =>
      rw [hf] at h
      dsimp only at h
      cases hp : s.comps[d]? with
      | none => rw [hp] at h; cases h
      | some pk => rw [hp] at h; simp at h; exact h.1.symm
  · intro c h
    unfold createFlow at h
    cases hp : s.comps[c]? with
    | none => rw [hp] at h; cases h
    | some pk => rw [hp] at h; simp at h; exact h.symm

/-- **C98.** The clocks of different trees are independent: blocks and signal flows of one tree do not change what the
components of the others read. -/
theorem trees_independent (ops : List Op) (o : Op) (s s' : State) (h : run init ops = .ok s) (ho : step s o = .ok s')
    (r d : Nat) (hd : InTree ops r d) (h1 : starts (ops ++ [o]) r o = false) (h2 : completes (ops ++ [o]) r o = false) :
    read s' d = read s d := by
  have h' : run init (ops ++ [o]) = .ok s' := by
    rw [run_append, h]
    simp only [Outcome.bind, run]
    rw [ho]
  obtain ⟨x, k, g1, g2, g3⟩ := counter_run [o] h d r hd
  obtain ⟨y, l, k1, k2, k3⟩ := counter_run [] h' d r (inTree_mono _ hd)
  rw [List.append_nil, List.foldl_append, ← g3] at k3
  have e : l.blocks = k.blocks := by
    rw [k3]
    show effect _ r _ o = _
    unfold effect
    rw [h1, h2]
    rfl
  obtain ⟨r0, x0, ctx, k0, q1, q2, q3, q4, q5, q6⟩ := (inv_run h).top d (by rw [(inv_run h).len]; exact hd.lt)
  obtain ⟨r1, x1, ctx1, l0, p1, p2, p3, p4, p5, p6⟩ := (inv_run h').top d
    (by rw [(inv_run h').len]; exact (inTree_mono [o] hd).lt)
  have er : r0 = r := q1.unique hd
  have er1 : r1 = r := p1.unique (inTree_mono [o] hd)
  subst er er1
  rw [g1] at q4; cases q4
  rw [g2] at q5; cases q5
  rw [k1] at p4; cases p4
  rw [k2] at p5; cases p5
  have ec : ctx1 = ctx := by
    have := getElem?_of_prefix (b := created (ops ++ [o])) (by rw [created_append]; exact List.prefix_append _ _) q3
    rw [p3] at this
    cases this
    rfl
  have : l = k := by
    cases l; cases k
    simp only at e q6 p6
    simp only [Counter.mk.injEq]
    exact ⟨by rw [p6, q6, ec], e⟩
  rw [read_of k1 k2, read_of g1 g2, this]

/-- Another tree is created and used next to the one of the example. -/
def otherOps : List Op := exampleOps ++ [.component ⟨32, 44100⟩ none]

example : ∃ s s', run init otherOps = .ok s ∧ step s (.flow 2 true) = .ok s' ∧ InTree otherOps 0 1 ∧
    starts (otherOps ++ [.flow 2 true]) 0 (.flow 2 true) = false ∧
    completes (otherOps ++ [.flow 2 true]) 0 (.flow 2 true) = false :=
  ⟨_, _, rfl, rfl, by decide +kernel, by decide +kernel, by decide +kernel⟩

/-- C98: as long as no further signal flow is accepted and the number of samples stays below 2^64, a later reading is
never earlier. -/
theorem monotone_partial (pre post more : List Op) (c r d : Nat) (s s' : State) (context : Context) (parent : Option Nat)
    (h : run init (pre ++ .flow c true :: post) = .ok s)
    (h' : run init (pre ++ .flow c true :: (post ++ more)) = .ok s')
    (hc : InTree (pre ++ .flow c true :: post) r c) (hd : InTree (pre ++ .flow c true :: post) r d)
    (hpost : ∀ o ∈ post ++ more, starts (pre ++ .flow c true :: (post ++ more)) r o = false)
    (hr : (created (pre ++ .flow c true :: post))[r]? = some (context, parent))
    (hn : (post ++ more).length < 2 ^ 64) (hp : (post ++ more).length * context.period < 2 ^ 64) :
    ∃ a b, read s d = .ok a ∧ read s' d = .ok b ∧ a.blockCount ≤ b.blockCount ∧ a.sampleCount ≤ b.sampleCount ∧
      a.renderingTime ≤ b.renderingTime := by
  have e : pre ++ Op.flow c true :: (post ++ more) = (pre ++ Op.flow c true :: post) ++ more := by simp
  rw [e] at h' hpost
  have hsub : ∀ o ∈ post, starts (pre ++ .flow c true :: post) r o = false := by
    intro o ho
    by_contra hb
    have hb' : starts (pre ++ .flow c true :: post) r o = true := by simpa using hb
    have h0 := hpost o (by simp [ho])
    cases o with
    | component ctx p => simp [starts] at hb'
    | process f l b => simp [starts] at hb'
    | flow x acc =>
      cases acc with
      | false => simp [starts] at hb'
      | true =>
        simp only [starts, decide_eq_true_eq] at hb'
        simp only [starts, decide_eq_false_iff_not] at h0
        exact h0 (inTree_mono _ hb')
  obtain ⟨n, hn1, ha⟩ := counted_partial pre post c r d s context parent h hc hd hsub hr
  rw [← e] at h' hpost
  obtain ⟨m, hm1, hb⟩ := counted_partial pre (post ++ more) c r d s' context parent h'
    (by rw [e]; exact inTree_mono _ hc) (by rw [e]; exact inTree_mono _ hd) hpost (by
      rw [e, created_append]; exact getElem?_of_prefix (List.prefix_append _ _) hr)
  have hm2 : m ≤ (post ++ more).length := by rw [hm1]; exact List.countP_le_length
  have hle : n ≤ m := by
    rw [hm1, hn1, e, List.countP_append]
    refine Nat.le_trans ?_ (Nat.le_add_right _ _)
    apply List.countP_mono_left
    intro o _ ho
    cases o with
    | component ctx p => simp [completes] at ho
    | flow x acc => simp [completes] at ho
    | process f l b =>
      cases b with
      | true => simp [completes] at ho
      | false =>
        simp only [completes] at ho ⊢
        cases hf : (flowsOf (pre ++ Op.flow c true :: post))[f]? with
        | none => rw [hf] at ho; simp at ho
        | some x =>
          rw [hf] at ho
          rw [flowsOf_append, getElem?_of_prefix (List.prefix_append _ _) hf]
          simp only [decide_eq_true_eq] at ho ⊢
          exact inTree_mono _ ho
  have hmp : m * context.period < 2 ^ 64 := Nat.lt_of_le_of_lt (Nat.mul_le_mul_right _ hm2) hp
  have hnp : n * context.period ≤ m * context.period := Nat.mul_le_mul_right _ hle
  refine ⟨_, _, ha, hb, ?_, ?_, ?_⟩
  · show n % 2 ^ 64 ≤ m % 2 ^ 64
    rw [Nat.mod_eq_of_lt (by omega), Nat.mod_eq_of_lt (by omega)]; exact hle
  · show n * context.period % 2 ^ 64 ≤ m * context.period % 2 ^ 64
    rw [Nat.mod_eq_of_lt (by omega), Nat.mod_eq_of_lt hmp]; exact hnp
  · show ((n * context.period % 2 ^ 64 : Nat) : ℚ) / _ ≤ ((m * context.period % 2 ^ 64 : Nat) : ℚ) / _
    rw [Nat.mod_eq_of_lt (by omega), Nat.mod_eq_of_lt hmp]
    gcongr

/-! ### Where the documentation is not met -/

/-- C98 is false of the code where the documentation says that the clock cannot be reset: a second signal flow for the same
component sets the clock of the first one back. -/
theorem second_flow_resets : ∃ s s', run init exampleOps = .ok s ∧ run init (exampleOps ++ [.flow 0 true]) = .ok s' ∧
    read s 1 = .ok ⟨2, 128, 1 / 375⟩ ∧ read s' 1 = .ok ⟨0, 0, 0⟩ :=
  ⟨_, _, rfl, rfl, by decide +kernel, by decide +kernel⟩

/-- C98: with two signal flows for the same component, the clock counts the blocks of both: after one block each, the
second one reads that two blocks have been processed. -/
theorem two_flows_add : ∃ s, run init [.component ⟨64, 48000⟩ none, .flow 0 true, .flow 0 true, .process 0 [0] false,
    .process 1 [0] false] = .ok s ∧ read s 0 = .ok ⟨2, 128, 1 / 375⟩ := ⟨_, rfl, by decide +kernel⟩

/-- C98: the context of a component inside a composite component has no influence on its clock: a component which is
constructed with a period of 32 samples reads 64 samples after the first block. -/
theorem inner_context_unused : ∃ s, run init [.component ⟨64, 48000⟩ none, .component ⟨32, 48000⟩ (some 0), .flow 0 true,
    .process 0 [1] false] = .ok s ∧ read s 1 = .ok ⟨1, 64, 1 / 750⟩ := ⟨_, rfl, by decide +kernel⟩

/-- C98: the number of samples is not monotonic: for all periods which are powers of two it returns to zero after 2^64
samples, although the number of blocks has not. -/
theorem samples_wrap (k : Nat) (hk : 0 < k) (hk' : k ≤ 64) (fs : Nat) :
    ∃ rd, (Counter.mk ⟨2 ^ k, fs⟩ (some (2 ^ (64 - k)))).read = .ok rd ∧ rd.blockCount ≠ 0 ∧ rd.sampleCount = 0 ∧
      rd.renderingTime = 0 ∧ rd.blockCount < 2 ^ 64 := by
  have e : 2 ^ (64 - k) * 2 ^ k % 2 ^ 64 = 0 := by rw [← Nat.pow_add, Nat.sub_add_cancel hk']; exact Nat.mod_self _
  refine ⟨_, rfl, ?_, e, ?_, ?_⟩
  · exact Nat.pos_iff_ne_zero.mp (Nat.pow_pos (by decide))
  · show ((2 ^ (64 - k) * 2 ^ k % 2 ^ 64 : Nat) : ℚ) * _ = 0
    rw [e]; simp
  · exact Nat.pow_lt_pow_right (by decide) (by omega)

end Visr.Clock
