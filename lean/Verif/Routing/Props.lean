import Verif.Routing.Lemmas

/-! # C40 Routing lists are keyed maps

`filterAfter one ops` and `gainAfter one ops` are the entries of a list, in the order of iteration,
after any history of additions, removals and JSON messages. -/

namespace Visr.Routing

variable {G : Type}

/-! ## Specification of JSON messages -/

/-- The value of a sequence at position `k`; a sequence of one element is repeated. -/
def seqAt {α : Type} (seq : List α) (k : Nat) : Option α := if seq.length = 1 then seq[0]? else seq[k]?

/-- The sequence is a scalar or has `n` elements. -/
def Fits {α : Type} (seq : List α) (n : Nat) : Prop := seq.length = 1 ∨ seq.length = n

/-- A node as the documentation allows it: `n` entries, given by the inputs or the outputs. -/
structure FilterNode.Good (nd : FilterNode G) (n : Nat) : Prop where
  width : 0 < n
  input : Fits nd.input n
  output : Fits nd.output n
  filter : Fits nd.filter n
  gain : Fits nd.gain n
  some : nd.input.length = n ∨ nd.output.length = n

/-- The entries denoted by a node. -/
def FilterNode.Expands (nd : FilterNode G) (rows : List (FilterRouting G)) : Prop :=
  ∃ n, nd.Good n ∧ rows.length = n ∧ ∀ k e, rows[k]? = some e →
    seqAt nd.input k = some e.inputIndex ∧ seqAt nd.output k = some e.outputIndex ∧
    seqAt nd.filter k = some e.filterIndex ∧ seqAt nd.gain k = some e.gainLinear

/-- A node of a gain routing as the documentation allows it: `n` different entries. -/
structure GainNode.Good (nd : GainNode G) (n : Nat) : Prop where
  width : 0 < n
  index : nd.index.length = n
  row : Fits nd.row n
  column : Fits nd.column n
  gain : Fits nd.gain n

/-- The entries denoted by a node. -/
def GainNode.Expands (nd : GainNode G) (rows : List (GainRouting G)) : Prop :=
  ∃ n, nd.Good n ∧ rows.length = n ∧ ∀ k e, rows[k]? = some e →
    nd.index[k]? = some e.entryIndex ∧ seqAt nd.row k = some e.rowIndex ∧
    seqAt nd.column k = some e.columnIndex ∧ seqAt nd.gain k = some e.gain

/-! ## Auxiliary facts -/

private abbrev fkey (e : FilterRouting G) : Nat × Nat := (e.inputIndex, e.outputIndex)
private abbrev gkey (e : GainRouting G) : Nat := e.entryIndex

theorem filterRows_sorted (n : FilterNode G) (ks : List Nat) (l l' : List (FilterRouting G))
    (hs : Sorted filterLt l) (h : filterRows n l ks = .ok l') : Sorted filterLt l' := by
  induction ks generalizing l with
  | nil => cases h; exact hs
  | cons k ks ih =>
    unfold filterRows at h
    split at h
    · rename_i e he
      obtain ⟨m, hm, hms, -, -⟩ := addRouting_spec filterOrder hs e
      rw [hm] at h
      exact ih m hms h
    · cases h
    · cases h

theorem filterNodes_sorted (ns : List (FilterNode G)) (l l' : List (FilterRouting G))
    (hs : Sorted filterLt l) (h : filterNodes ns l = .ok l') : Sorted filterLt l' := by
  induction ns generalizing l with
  | nil => cases h; exact hs
  | cons n ns ih =>
    unfold filterNodes at h
    split at h
    · split at h
      · rename_i m hm
        exact ih m (filterRows_sorted n _ l m hs hm) h
      · cases h
      · cases h
    · cases h
    · cases h

theorem filter_sorted (one : G) (ops : List (FilterOp G)) : Sorted filterLt (filterAfter one ops) := by
  refine final_induction (P := fun l => Sorted filterLt l) ?_ List.Pairwise.nil ops
  intro s op hs
  cases op with
  | add e =>
    obtain ⟨l', h1, h2, -⟩ := addRouting_spec filterOrder hs e
    simp only [filterStep, h1]; exact h2
  | removeEntry e => exact (removeRouting_spec filterOrder hs e).1
  | remove i o => exact (removeRouting_spec filterOrder hs _).1
  | parseJson ns =>
    unfold filterStep
    split
    · rename_i hc; cases hc
    · rename_i hc; cases hc
    · rename_i hc; cases hc
    · rename_i m hc
      cases hc
      split
      · rename_i l' hl
        exact filterNodes_sorted _ [] l' List.Pairwise.nil hl
      · exact hs
      · exact hs

theorem gainRows_sorted (n : GainNode G) (ks : List Nat) (l l' : List (GainRouting G))
    (hs : Sorted gainLt l) (h : gainRows n l ks = .ok l') : Sorted gainLt l' := by
  induction ks generalizing l with
  | nil => cases h; exact hs
  | cons k ks ih =>
    unfold gainRows at h
    split at h
    · rename_i e he
      obtain ⟨m, hm, hms, -, -⟩ := addRouting_spec gainOrder hs e
      rw [hm] at h
      exact ih m hms h
    · cases h
    · cases h

theorem gainNodes_sorted (ns : List (GainNode G)) (l l' : List (GainRouting G))
    (hs : Sorted gainLt l) (h : gainNodes ns l = .ok l') : Sorted gainLt l' := by
  induction ns generalizing l with
  | nil => cases h; exact hs
  | cons n ns ih =>
    unfold gainNodes at h
    split at h
    · split at h
      · rename_i m hm
        exact ih m (gainRows_sorted n _ l m hs hm) h
      · cases h
      · cases h
    · cases h
    · cases h

theorem gain_sorted (one : G) (ops : List (GainOp G)) : Sorted gainLt (gainAfter one ops) := by
  refine final_induction (P := fun l => Sorted gainLt l) ?_ List.Pairwise.nil ops
  intro s op hs
  cases op with
  | add e =>
    obtain ⟨l', h1, h2, -⟩ := addRouting_spec gainOrder hs e
    simp only [gainStep, h1]; exact h2
  | removeEntry e => exact (removeRouting_spec gainOrder hs e).1
  | remove i o => exact (removeRouting_spec gainOrder hs _).1
  | clear => exact List.Pairwise.nil
  | parseJson ns =>
    show Sorted gainLt (match gainFromJson ns with
      | .ok l' => (l', Outcome.ok true)
      | .throw x => (s, .throw x)
      | .ub => (s, .ub)).1
    split
    · rename_i l' hl
      exact gainNodes_sorted _ [] l' List.Pairwise.nil hl
    · exact hs
    · exact hs

/-- Membership and entries. -/
theorem mem_iff_entryAt {α : Type} {κ : Type} [DecidableEq κ] {lt : α → α → Bool} {key : α → κ}
    (h : KeyOrder lt key) {l : List α} (hs : Sorted lt l) (e : α) :
    e ∈ l ↔ entryAt key l (key e) = some e :=
  ⟨fun he => entryAt_of_mem h hs he, fun he => (entryAt_mem he).1⟩

/-! ## Filter routing lists -/

/-- Two entries of a list never have the same input and output; iteration is in increasing order. -/
theorem filter_unique (one : G) (ops : List (FilterOp G)) :
    (filterAfter one ops).Pairwise (fun a b => a.inputIndex < b.inputIndex ∨
      (a.inputIndex = b.inputIndex ∧ a.outputIndex < b.outputIndex)) := by
  refine List.Pairwise.imp ?_ (filter_sorted one ops)
  intro a b h
  unfold filterLt at h
  split_ifs at h
  · left; assumption
  · right
    refine ⟨by omega, by simpa using h⟩

/-- `getEntry` returns the entry with the given input and output, if there is one. -/
theorem filter_getEntry (one : G) (ops : List (FilterOp G)) (i o : Nat) (e : FilterRouting G) :
    filterGetEntry one (filterAfter one ops) i o = some e ↔
      e ∈ filterAfter one ops ∧ e.inputIndex = i ∧ e.outputIndex = o := by
  unfold filterGetEntry
  rw [find_eq_entryAt filterOrder]
  constructor
  · intro h
    have := entryAt_mem h
    exact ⟨this.1, by simpa using this.2⟩
  · rintro ⟨h, rfl, rfl⟩
    exact entryAt_of_mem filterOrder (filter_sorted one ops) h

/-- Adding an entry never fails; it replaces the entry for the same input and output, and keeps
all others. -/
theorem filter_add (one : G) (ops : List (FilterOp G)) (e : FilterRouting G) :
    (filterStep one (filterAfter one ops) (.add e)).2 = .ok true ∧
    ∀ d, d ∈ filterAfter one (ops ++ [.add e]) ↔
      d = e ∨ (d ∈ filterAfter one ops ∧
        ¬ (d.inputIndex = e.inputIndex ∧ d.outputIndex = e.outputIndex)) := by
  have hs := filter_sorted one ops
  obtain ⟨l', h1, h2, h3, -⟩ := addRouting_spec filterOrder hs e
  have ha : filterAfter one (ops ++ [.add e]) = l' := by
    simp only [filterAfter, final_append, final_cons, final_nil]
    show (filterStep one (filterAfter one ops) (.add e)).1 = l'
    simp only [filterStep, h1]
  refine ⟨by simp only [filterStep, h1], ?_⟩
  intro d
  rw [ha, mem_iff_entryAt filterOrder h2, h3]
  by_cases hk : fkey e = fkey d
  · rw [if_pos hk]
    have hk' := Prod.mk.inj hk
    constructor
    · intro h; cases h; exact .inl rfl
    · rintro (rfl | ⟨-, hn⟩)
      · rfl
      · exact absurd ⟨hk'.1.symm, hk'.2.symm⟩ hn
  · rw [if_neg hk, ← mem_iff_entryAt filterOrder hs]
    constructor
    · intro h
      refine .inr ⟨h, fun hc => hk ?_⟩
      simp [fkey, hc.1, hc.2]
    · rintro (rfl | ⟨h, -⟩)
      · exact absurd rfl hk
      · exact h

/-- Removing an entry, given by input and output or by another entry, removes exactly the entry
for this input and output; the result tells whether there was one. -/
theorem filter_remove (one : G) (ops : List (FilterOp G)) (i o f : Nat) (g : G) :
    filterStep one (filterAfter one ops) (.remove i o) =
      filterStep one (filterAfter one ops) (.removeEntry ⟨i, o, f, g⟩) ∧
    (∀ d, d ∈ filterAfter one (ops ++ [.remove i o]) ↔
      d ∈ filterAfter one ops ∧ ¬ (d.inputIndex = i ∧ d.outputIndex = o)) ∧
    ∃ b, (filterStep one (filterAfter one ops) (.remove i o)).2 = .ok b ∧
      (b = true ↔ ∃ d ∈ filterAfter one ops, d.inputIndex = i ∧ d.outputIndex = o) := by
  have hs := filter_sorted one ops
  obtain ⟨r1, r2, r3, -⟩ := removeRouting_spec filterOrder hs ⟨i, o, cInvalidIndex, one⟩
  obtain ⟨q1, q2, q3, -⟩ := removeRouting_spec filterOrder hs ⟨i, o, f, g⟩
  refine ⟨?_, ?_, ?_⟩
  · simp only [filterStep, filterRemove]
    rw [r3, q3, sorted_ext filterOrder r1 q1 (fun k => by rw [r2, q2])]
  · intro d
    have ha : filterAfter one (ops ++ [.remove i o]) =
        (removeRouting filterLt (filterAfter one ops) ⟨i, o, cInvalidIndex, one⟩).1 := by
      simp only [filterAfter, final_append, final_cons, final_nil]; rfl
    rw [ha, mem_iff_entryAt filterOrder r1, r2]
    by_cases hk : (i, o) = fkey d
    · have hk' := Prod.mk.inj hk
      rw [if_pos hk]
      simp [hk'.1, hk'.2]
    · rw [if_neg hk, ← mem_iff_entryAt filterOrder hs]
      constructor
      · intro h
        exact ⟨h, fun hc => hk (by simp [fkey, hc.1, hc.2])⟩
      · exact fun h => h.1
  · refine ⟨_, rfl, ?_⟩
    simp only [filterRemove]
    rw [r3]
    constructor
    · intro h
      obtain ⟨d, hd⟩ := Option.isSome_iff_exists.mp h
      have := entryAt_mem hd
      exact ⟨d, this.1, by simpa using this.2⟩
    · rintro ⟨d, hd, rfl, rfl⟩
      rw [entryAt_of_mem filterOrder hs hd]
      rfl

/-- The constructor from an initialiser list rejects lists with two entries for the same input and
output, and otherwise contains exactly the given entries. -/
theorem filter_construct (es : List (FilterRouting G)) :
    ((es.map (fun e => (e.inputIndex, e.outputIndex))).Nodup →
      ∃ l, ofList filterLt es = .ok l ∧ l.Perm es) ∧
    (¬ (es.map (fun e => (e.inputIndex, e.outputIndex))).Nodup →
      ofList filterLt es = .throw .invalidArgument) := by
  obtain ⟨h1, h2⟩ := ofList_spec filterOrder es
  refine ⟨fun h => ?_, h2⟩
  obtain ⟨l, a, -, b⟩ := h1 h
  exact ⟨l, a, b⟩

theorem pick_eq {α : Type} (seq : List α) (k : Nat) (a : α) :
    pick seq k = .ok a ↔ seqAt seq k = some a := by
  unfold pick seqAt
  split <;> (rename_i h; rw [h]; simp)

theorem fits_seqAt {α : Type} {seq : List α} {n : Nat} (h : Fits seq n) {k : Nat} (hk : k < n) :
    ∃ a, seqAt seq k = some a := by
  unfold seqAt
  by_cases h1 : seq.length = 1
  · rw [if_pos h1]
    exact ⟨_, List.getElem?_eq_getElem (by omega)⟩
  · rw [if_neg h1]
    have := h.resolve_left h1
    exact ⟨_, List.getElem?_eq_getElem (by omega)⟩

theorem filterCount_good {nd : FilterNode G} {n : Nat} (h : nd.Good n) : filterCount nd = .ok n := by
  obtain ⟨hw, hi, ho, hf, hg, hs⟩ := h
  unfold Fits at *
  unfold filterCount
  have : (if nd.output.length ≠ nd.input.length then
      if nd.input.length = 1 then Outcome.ok nd.output.length
      else if nd.output.length ≠ 1 then .throw .invalidArgument
      else .ok nd.input.length
    else .ok nd.input.length) = .ok n := by
    split_ifs <;> first | (exact congrArg Outcome.ok (by omega)) | (exfalso; omega)
  simp only [this]
  rw [if_neg (by omega), if_neg (by omega)]

theorem filterRows_good (nd : FilterNode G) (n : Nat) (h : nd.Good n) (ks : List Nat)
    (hk : ∀ k ∈ ks, k < n) (l : List (FilterRouting G)) (hs : Sorted filterLt l) :
    ∃ (rows : List (FilterRouting G)) (l' : List (FilterRouting G)), rows.length = ks.length ∧ filterRows nd l ks = .ok l' ∧ Sorted filterLt l' ∧
      (∀ (j k : Nat) (e : FilterRouting G), ks[j]? = some k → rows[j]? = some e →
        seqAt nd.input k = some e.inputIndex ∧ seqAt nd.output k = some e.outputIndex ∧
        seqAt nd.filter k = some e.filterIndex ∧ seqAt nd.gain k = some e.gainLinear) ∧
      ∀ k, entryAt fkey l' k = (rows.reverse.find? (fun e => decide (fkey e = k))).or
        (entryAt fkey l k) := by
  induction ks generalizing l with
  | nil => exact ⟨[], l, rfl, rfl, hs, by simp, by simp⟩
  | cons k ks ih =>
    have hkn := hk k (by simp)
    obtain ⟨i, hi⟩ := fits_seqAt h.input hkn
    obtain ⟨o, ho⟩ := fits_seqAt h.output hkn
    obtain ⟨f, hf⟩ := fits_seqAt h.filter hkn
    obtain ⟨g, hg⟩ := fits_seqAt h.gain hkn
    have hrow : filterRow nd k = .ok ⟨i, o, f, g⟩ := by
      unfold filterRow
      rw [(pick_eq _ _ _).mpr hi, (pick_eq _ _ _).mpr ho, (pick_eq _ _ _).mpr hf,
        (pick_eq _ _ _).mpr hg]
      rfl
    obtain ⟨m, hm, hms, hme, -⟩ := addRouting_spec filterOrder hs ⟨i, o, f, g⟩
    obtain ⟨rows, l', r1, r2, r3, r4, r5⟩ := ih (fun k hk' => hk k (List.mem_cons_of_mem _ hk')) m hms
    refine ⟨⟨i, o, f, g⟩ :: rows, l', by simp [r1], ?_, r3, ?_, ?_⟩
    · unfold filterRows
      rw [hrow]
      simp only [hm]
      exact r2
    · intro j k' e hj he
      cases j with
      | zero =>
        simp only [List.getElem?_cons_zero, Option.some.injEq] at hj he
        subst hj; subst he
        exact ⟨hi, ho, hf, hg⟩
      | succ j => exact r4 j k' e (by simpa using hj) (by simpa using he)
    · intro q
      rw [r5, List.reverse_cons, List.find?_append]
      have hmq := hme q
      cases rows.reverse.find? (fun e => decide (fkey e = q)) with
      | some a => simp
      | none =>
        simp only [Option.none_or, List.find?_cons, List.find?_nil]
        have : entryAt fkey m q = if (i, o) = q then some ⟨i, o, f, g⟩ else entryAt fkey l q := hmq
        rw [this]
        by_cases hk : (i, o) = q <;> simp [fkey, hk]

theorem filterNodes_good (ns : List (FilterNode G)) (hg : ∀ nd ∈ ns, ∃ n, nd.Good n)
    (l : List (FilterRouting G)) (hs : Sorted filterLt l) :
    ∃ (rows : List (List (FilterRouting G))) (l' : List (FilterRouting G)),
      List.Forall₂ FilterNode.Expands ns rows ∧ filterNodes ns l = .ok l' ∧
      Sorted filterLt l' ∧
      ∀ k, entryAt fkey l' k = (rows.flatten.reverse.find? (fun e => decide (fkey e = k))).or
        (entryAt fkey l k) := by
  induction ns generalizing l with
  | nil => exact ⟨[], l, .nil, rfl, hs, by simp⟩
  | cons nd ns ih =>
    obtain ⟨n, hn⟩ := hg nd (by simp)
    obtain ⟨rows, m, r1, r2, r3, r4, r5⟩ := filterRows_good nd n hn (List.range n) (by simp) l hs
    obtain ⟨rest, l', s1, s2, s3, s4⟩ := ih (fun nd h => hg nd (List.mem_cons_of_mem _ h)) m r3
    refine ⟨rows :: rest, l', .cons ⟨n, hn, by simpa using r1, ?_⟩ s1, ?_, s3, ?_⟩
    · intro k e he
      have hkl : k < n := by
        have := (List.getElem?_eq_some_iff.mp he).1
        simpa [r1] using this
      exact r4 k k e (by simp [hkl]) he
    · unfold filterNodes
      rw [filterCount_good hn]
      simp only [r2]
      exact s2
    · intro k
      rw [s4, r5, List.flatten_cons, List.reverse_append, List.find?_append, Option.or_assoc]

/-- A JSON message that follows the documentation is accepted; the list then contains the entries
denoted by its nodes, where later entries replace earlier ones for the same input and output, and
nothing else. -/
theorem filter_json_partial (one : G) (ops : List (FilterOp G)) (ns : List (FilterNode G))
    (hg : ∀ nd ∈ ns, ∃ n, nd.Good n) :
    ∃ rows, List.Forall₂ FilterNode.Expands ns rows ∧
      (filterStep one (filterAfter one ops) (.parseJson ns)).2 = .ok true ∧
      ∀ i o, filterGetEntry one (filterAfter one (ops ++ [.parseJson ns])) i o =
        rows.flatten.reverse.find? (fun e => e.inputIndex = i ∧ e.outputIndex = o) := by
  obtain ⟨rows, l', h1, h2, h3, h4⟩ := filterNodes_good ns hg [] List.Pairwise.nil
  have hj : filterFromJson ns = .ok l' := h2
  have ha : filterAfter one (ops ++ [.parseJson ns]) = l' := by
    simp only [filterAfter, final_append, final_cons, final_nil]
    show (filterStep one (filterAfter one ops) (.parseJson ns)).1 = l'
    simp only [filterStep, hj]
  refine ⟨rows, h1, by simp only [filterStep, hj], ?_⟩
  intro i o
  rw [ha]
  unfold filterGetEntry
  rw [find_eq_entryAt filterOrder]
  have := h4 (i, o)
  rw [show entryAt fkey ([] : List (FilterRouting G)) (i, o) = none from rfl, Option.or_none] at this
  simpa [fkey, Prod.mk.injEq] using this

/-- A JSON message that is rejected leaves the list as it was. -/
theorem filter_json_atomic (one : G) (l : List (FilterRouting G)) (ns : List (FilterNode G)) (x : Exn)
    (h : (filterStep one l (.parseJson ns)).2 = .throw x) :
    (filterStep one l (.parseJson ns)).1 = l := by
  unfold filterStep at h ⊢
  cases hj : filterFromJson ns with
  | ok l' => simp [hj] at h
  | throw y => simp [hj]
  | ub => simp [hj]

/-- The documentation demands that non-scalar sequences have the same size.  A filter sequence that
is too short is not rejected but read beyond its end; one that is too long is cut off. -/
theorem filter_json_unchecked (one : G) (g : G) :
    (filterStep one [] (.parseJson [⟨[0, 1, 2], [0, 1, 2], [0, 1], [g]⟩])).2 = .ub ∧
    filterStep one [] (.parseJson [⟨[0, 1], [0, 1], [5, 6, 7], [g]⟩]) =
      ([⟨0, 0, 5, g⟩, ⟨1, 1, 6, g⟩], .ok true) := by
  constructor <;> rfl

/-! ## Sparse gain routing lists -/

/-- Two entries of a list never have the same entry index; iteration is in increasing order. -/
theorem gain_unique (one : G) (ops : List (GainOp G)) :
    (gainAfter one ops).Pairwise (fun a b => a.entryIndex < b.entryIndex) := by
  refine List.Pairwise.imp ?_ (gain_sorted one ops)
  intro a b h
  simpa [gainLt] using h

/-- `getEntry` returns the entry with the given index, if there is one. -/
theorem gain_getEntry (one : G) (ops : List (GainOp G)) (i : Nat) (e : GainRouting G) :
    gainGetEntry one (gainAfter one ops) i = some e ↔ e ∈ gainAfter one ops ∧ e.entryIndex = i := by
  unfold gainGetEntry
  rw [find_eq_entryAt gainOrder]
  constructor
  · intro h
    have := entryAt_mem h
    exact ⟨this.1, this.2⟩
  · rintro ⟨h, rfl⟩
    exact entryAt_of_mem gainOrder (gain_sorted one ops) h

/-- Adding an entry never fails; it replaces the entry with the same index and keeps all others. -/
theorem gain_add (one : G) (ops : List (GainOp G)) (e : GainRouting G) :
    (gainStep one (gainAfter one ops) (.add e)).2 = .ok true ∧
    ∀ d, d ∈ gainAfter one (ops ++ [.add e]) ↔
      d = e ∨ (d ∈ gainAfter one ops ∧ d.entryIndex ≠ e.entryIndex) := by
  have hs := gain_sorted one ops
  obtain ⟨l', h1, h2, h3, -⟩ := addRouting_spec gainOrder hs e
  have ha : gainAfter one (ops ++ [.add e]) = l' := by
    simp only [gainAfter, final_append, final_cons, final_nil]
    show (gainStep one (gainAfter one ops) (.add e)).1 = l'
    simp only [gainStep, h1]
  refine ⟨by simp only [gainStep, h1], ?_⟩
  intro d
  rw [ha, mem_iff_entryAt gainOrder h2, h3]
  by_cases hk : e.entryIndex = d.entryIndex
  · rw [if_pos hk]
    constructor
    · intro h; cases h; exact .inl rfl
    · rintro (rfl | ⟨-, hn⟩)
      · rfl
      · exact absurd hk.symm hn
  · rw [if_neg hk, ← mem_iff_entryAt gainOrder hs]
    constructor
    · intro h
      exact .inr ⟨h, fun hc => hk hc.symm⟩
    · rintro (rfl | ⟨h, -⟩)
      · exact absurd rfl hk
      · exact h

/-- Removing an entry removes exactly the entry with the same index; the result tells whether
there was one.  Clearing removes everything. -/
theorem gain_remove (one : G) (ops : List (GainOp G)) (e : GainRouting G) :
    (∀ d, d ∈ gainAfter one (ops ++ [.removeEntry e]) ↔
      d ∈ gainAfter one ops ∧ d.entryIndex ≠ e.entryIndex) ∧
    (∃ b, (gainStep one (gainAfter one ops) (.removeEntry e)).2 = .ok b ∧
      (b = true ↔ ∃ d ∈ gainAfter one ops, d.entryIndex = e.entryIndex)) ∧
    gainAfter one (ops ++ [.clear]) = [] := by
  have hs := gain_sorted one ops
  obtain ⟨r1, r2, r3, -⟩ := removeRouting_spec gainOrder hs e
  refine ⟨?_, ?_, ?_⟩
  · intro d
    have ha : gainAfter one (ops ++ [.removeEntry e]) =
        (removeRouting gainLt (gainAfter one ops) e).1 := by
      simp only [gainAfter, final_append, final_cons, final_nil]; rfl
    rw [ha, mem_iff_entryAt gainOrder r1, r2]
    by_cases hk : e.entryIndex = d.entryIndex
    · rw [if_pos hk]
      simp [hk]
    · rw [if_neg hk, ← mem_iff_entryAt gainOrder hs]
      exact ⟨fun h => ⟨h, Ne.symm hk⟩, fun h => h.1⟩
  · refine ⟨_, rfl, ?_⟩
    rw [r3]
    constructor
    · intro h
      obtain ⟨d, hd⟩ := Option.isSome_iff_exists.mp h
      have := entryAt_mem hd
      exact ⟨d, this.1, this.2⟩
    · rintro ⟨d, hd, hde⟩
      rw [← hde, entryAt_of_mem gainOrder hs hd]
      rfl
  · simp only [gainAfter, final_append, final_cons, final_nil]; rfl

/-- The constructor from an initialiser list rejects lists with duplicated entry indices, and
otherwise contains exactly the given entries. -/
theorem gain_construct (es : List (GainRouting G)) :
    ((es.map (fun e => e.entryIndex)).Nodup → ∃ l, ofList gainLt es = .ok l ∧ l.Perm es) ∧
    (¬ (es.map (fun e => e.entryIndex)).Nodup → ofList gainLt es = .throw .invalidArgument) := by
  obtain ⟨h1, h2⟩ := ofList_spec gainOrder es
  refine ⟨fun h => ?_, h2⟩
  obtain ⟨l, a, -, b⟩ := h1 h
  exact ⟨l, a, b⟩

/-- `removeRouting( inputIdx, outputIdx )` is documented to remove the routing from an input to an
output.  It removes the entry whose *entry index* is the given input index, whatever its row and
column are, and does not find a routing with these row and column indices. -/
theorem gain_remove_by_position_wrong (one : G) (i o r c n : Nat) (g : G) (hn : n ≠ i) :
    gainStep one [⟨i, r, c, g⟩] (.remove i o) = ([], .ok true) ∧
    gainStep one [⟨n, o, i, g⟩] (.remove i o) = ([⟨n, o, i, g⟩], .ok false) ∧
    gainStep one [⟨n, i, o, g⟩] (.remove i o) = ([⟨n, i, o, g⟩], .ok false) := by
  have he : ∀ (a b : GainRouting G), a.entryIndex ≠ b.entryIndex → equiv gainLt a b = false := by
    intro a b h
    by_contra hc
    exact h ((gainOrder.eqv a b).mp (by simpa using hc))
  have he2 : ∀ (a b : GainRouting G), a.entryIndex = b.entryIndex → equiv gainLt a b = true :=
    fun a b h => (gainOrder.eqv a b).mpr h
  refine ⟨?_, ?_, ?_⟩
  · simp [gainStep, gainRemove, removeRouting, find, erase, he2]
  · simp [gainStep, gainRemove, removeRouting, find, he, hn]
  · simp [gainStep, gainRemove, removeRouting, find, he, hn]

theorem gainCount_good {nd : GainNode G} {n : Nat} (h : nd.Good n) : gainCount nd = .ok n := by
  obtain ⟨hw, hi, hr, hc, hg⟩ := h
  unfold Fits at *
  unfold gainCount
  have : (if nd.row.length ≠ nd.index.length then
      if nd.index.length = 1 then Outcome.ok nd.index.length
      else if nd.row.length ≠ 1 then .throw .invalidArgument
      else .ok nd.index.length
    else .ok nd.index.length) = .ok n := by
    split_ifs <;> first | (exact congrArg Outcome.ok (by omega)) | (exfalso; omega)
  simp only [this]
  rw [if_neg (by omega), if_neg (by omega)]

theorem gainRows_good (nd : GainNode G) (n : Nat) (h : nd.Good n) (ks : List Nat)
    (hk : ∀ k ∈ ks, k < n) (l : List (GainRouting G)) (hs : Sorted gainLt l) :
    ∃ (rows : List (GainRouting G)) (l' : List (GainRouting G)), rows.length = ks.length ∧ gainRows nd l ks = .ok l' ∧ Sorted gainLt l' ∧
      (∀ (j k : Nat) (e : GainRouting G), ks[j]? = some k → rows[j]? = some e →
        nd.index[k]? = some e.entryIndex ∧ seqAt nd.row k = some e.rowIndex ∧
        seqAt nd.column k = some e.columnIndex ∧ seqAt nd.gain k = some e.gain) ∧
      ∀ k, entryAt gkey l' k = (rows.reverse.find? (fun e => decide (gkey e = k))).or
        (entryAt gkey l k) := by
  induction ks generalizing l with
  | nil => exact ⟨[], l, rfl, rfl, hs, by simp, by simp⟩
  | cons k ks ih =>
    have hkn := hk k (by simp)
    have hi : ∃ i, nd.index[k]? = some i := ⟨_, List.getElem?_eq_getElem (by rw [h.index]; exact hkn)⟩
    obtain ⟨i, hi⟩ := hi
    obtain ⟨o, ho⟩ := fits_seqAt h.row hkn
    obtain ⟨f, hf⟩ := fits_seqAt h.column hkn
    obtain ⟨g, hg⟩ := fits_seqAt h.gain hkn
    have hrow : gainRow nd k = .ok ⟨i, o, f, g⟩ := by
      unfold gainRow pickExact
      rw [hi, (pick_eq _ _ _).mpr ho, (pick_eq _ _ _).mpr hf, (pick_eq _ _ _).mpr hg]
      rfl
    obtain ⟨m, hm, hms, hme, -⟩ := addRouting_spec gainOrder hs ⟨i, o, f, g⟩
    obtain ⟨rows, l', r1, r2, r3, r4, r5⟩ := ih (fun k hk' => hk k (List.mem_cons_of_mem _ hk')) m hms
    refine ⟨⟨i, o, f, g⟩ :: rows, l', by simp [r1], ?_, r3, ?_, ?_⟩
    · unfold gainRows
      rw [hrow]
      simp only [hm]
      exact r2
    · intro j k' e hj he
      cases j with
      | zero =>
        simp only [List.getElem?_cons_zero, Option.some.injEq] at hj he
        subst hj; subst he
        exact ⟨hi, ho, hf, hg⟩
      | succ j => exact r4 j k' e (by simpa using hj) (by simpa using he)
    · intro q
      rw [r5, List.reverse_cons, List.find?_append]
      have hmq := hme q
      cases rows.reverse.find? (fun e => decide (gkey e = q)) with
      | some a => simp
      | none =>
        simp only [Option.none_or, List.find?_cons, List.find?_nil]
        have : entryAt gkey m q = if i = q then some ⟨i, o, f, g⟩ else entryAt gkey l q := hmq
        rw [this]
        by_cases hk : i = q <;> simp [gkey, hk]

theorem gainNodes_good (ns : List (GainNode G)) (hg : ∀ nd ∈ ns, ∃ n, nd.Good n)
    (l : List (GainRouting G)) (hs : Sorted gainLt l) :
    ∃ (rows : List (List (GainRouting G))) (l' : List (GainRouting G)),
      List.Forall₂ GainNode.Expands ns rows ∧ gainNodes ns l = .ok l' ∧
      Sorted gainLt l' ∧
      ∀ k, entryAt gkey l' k = (rows.flatten.reverse.find? (fun e => decide (gkey e = k))).or
        (entryAt gkey l k) := by
  induction ns generalizing l with
  | nil => exact ⟨[], l, .nil, rfl, hs, by simp⟩
  | cons nd ns ih =>
    obtain ⟨n, hn⟩ := hg nd (by simp)
    obtain ⟨rows, m, r1, r2, r3, r4, r5⟩ := gainRows_good nd n hn (List.range n) (by simp) l hs
    obtain ⟨rest, l', s1, s2, s3, s4⟩ := ih (fun nd h => hg nd (List.mem_cons_of_mem _ h)) m r3
    refine ⟨rows :: rest, l', .cons ⟨n, hn, by simpa using r1, ?_⟩ s1, ?_, s3, ?_⟩
    · intro k e he
      have hkl : k < n := by
        have := (List.getElem?_eq_some_iff.mp he).1
        simpa [r1] using this
      exact r4 k k e (by simp [hkl]) he
    · unfold gainNodes
      rw [gainCount_good hn]
      simp only [r2]
      exact s2
    · intro k
      rw [s4, r5, List.flatten_cons, List.reverse_append, List.find?_append, Option.or_assoc]

/-- A JSON message that follows the documentation is accepted; the list then contains the entries
denoted by its nodes, where later entries replace earlier ones with the same index, and nothing
else. -/
theorem gain_json_partial (one : G) (ops : List (GainOp G)) (ns : List (GainNode G))
    (hg : ∀ nd ∈ ns, ∃ n, nd.Good n) :
    ∃ rows, List.Forall₂ GainNode.Expands ns rows ∧
      (gainStep one (gainAfter one ops) (.parseJson ns)).2 = .ok true ∧
      ∀ i, gainGetEntry one (gainAfter one (ops ++ [.parseJson ns])) i =
        rows.flatten.reverse.find? (fun e => e.entryIndex = i) := by
  obtain ⟨rows, l', h1, h2, h3, h4⟩ := gainNodes_good ns hg [] List.Pairwise.nil
  have hj : gainFromJson ns = .ok l' := h2
  have ha : gainAfter one (ops ++ [.parseJson ns]) = l' := by
    simp only [gainAfter, final_append, final_cons, final_nil]
    show (gainStep one (gainAfter one ops) (.parseJson ns)).1 = l'
    simp only [gainStep, hj]
  refine ⟨rows, h1, by simp only [gainStep, hj], ?_⟩
  intro i
  rw [ha]
  unfold gainGetEntry
  rw [find_eq_entryAt gainOrder]
  have := h4 i
  rw [show entryAt gkey ([] : List (GainRouting G)) i = none from rfl, Option.or_none] at this
  exact this

/-- A JSON message that is rejected leaves the list as it was. -/
theorem gain_json_atomic (one : G) (l : List (GainRouting G)) (ns : List (GainNode G)) (x : Exn)
    (h : (gainStep one l (.parseJson ns)).2 = .throw x) :
    (gainStep one l (.parseJson ns)).1 = l := by
  unfold gainStep at h ⊢
  cases hj : gainFromJson ns with
  | ok l' => simp [hj] at h
  | throw y => simp [hj]
  | ub => simp [hj]

/-- Sequences of different sizes are documented to be rejected.  A list of rows for a single index
is cut off, a list of columns that is too short is read beyond its end, and so is an empty list of
rows. -/
theorem gain_json_unchecked (one : G) (g : G) :
    gainStep one [] (.parseJson [⟨[5], [1, 2, 3], [0], [g]⟩]) = ([⟨5, 1, 0, g⟩], .ok true) ∧
    (gainStep one [] (.parseJson [⟨[0, 1, 2], [0, 1, 2], [0, 1], [g]⟩])).2 = .ub ∧
    (gainStep one [] (.parseJson [⟨[0], [], [0], [g]⟩])).2 = .ub := by
  refine ⟨?_, ?_, ?_⟩ <;> rfl

/-! ## Examples -/

example : filterAfter 1 [.add ⟨1, 2, 0, 10⟩, .add ⟨0, 3, 1, 20⟩, .add ⟨1, 2, 5, 30⟩, .remove 7 7,
    .parseJson [⟨[0, 1], [4], [9, 8], [2]⟩], .add ⟨0, 0, 0, 1⟩, .remove 1 4] =
    [⟨0, 0, 0, 1⟩, ⟨0, 4, 9, 2⟩] := by decide

/-- A node that follows the documentation: two inputs, one output. -/
example : (⟨[0, 1], [4], [9, 8], [2]⟩ : FilterNode Nat).Good 2 := by
  refine ⟨?_, ?_, ?_, ?_, ?_, ?_⟩ <;> simp [Fits]

example : (⟨[3, 4], [1], [9, 8], [2]⟩ : GainNode Nat).Good 2 := by
  refine ⟨?_, ?_, ?_, ?_, ?_⟩ <;> simp [Fits]

end Visr.Routing
