import Verif.ChannelList.Lemmas

/-!
# Properties of channel ranges and channel lists (C01, C02, C45)
-/

namespace Visr.ChannelList
open Visr

/-! ## Specification -/

/-- `v` lies strictly before `stop` when walking in the direction of `step`. -/
def Before (step : Int) (v stop : Int) : Prop := (0 < step ∧ v < stop) ∨ (step < 0 ∧ stop < v)

/-- A step that can lead from `start` to `stop`: non-zero and not pointing away from `stop`. -/
def GoodStep (start stop : Nat) (step : Int) : Prop :=
  (0 < step ∧ start ≤ stop) ∨ (step < 0 ∧ stop ≤ start)

/-! ## C01 -/

/-- C01: the constructor accepts exactly the triples whose step is non-zero and does not point away from the end;
everything else throws `std::invalid_argument`. -/
theorem channelRange_construct (start stop : Nat) (step : Int) :
    (GoodStep start stop step → Range.mk? start stop step = .ok ⟨start, stop, step⟩) ∧
    (¬ GoodStep start stop step → Range.mk? start stop step = .throw .invalidArgument) := by
  have key : isValid start stop step = true ↔ GoodStep start stop step := by
    unfold isValid GoodStep
    split
    · subst_vars; simp
    · split <;> simp only [decide_eq_true_eq] <;> omega
  unfold Range.mk?
  constructor
  · intro h; rw [if_pos (key.2 h)]
  · intro h; rw [if_neg (fun hc => h (key.1 hc))]

example : GoodStep 9 2 (-3) := by unfold GoodStep; omega
example : ¬ GoodStep 2 9 (-3) := by unfold GoodStep; omega

/-- C01: `set` with an invalid triple throws and leaves the range unchanged, otherwise replaces all members. -/
theorem channelRange_set (r : Range) (start stop : Nat) (step : Int) :
    (GoodStep start stop step → r.set start stop step = (⟨start, stop, step⟩, .ok ())) ∧
    (¬ GoodStep start stop step → r.set start stop step = (r, .throw .invalidArgument)) := by
  have key : isValid start stop step = true ↔ GoodStep start stop step := by
    unfold isValid GoodStep
    split
    · subst_vars; simp
    · split <;> simp only [decide_eq_true_eq] <;> omega
  unfold Range.set
  constructor
  · intro h; rw [if_pos (key.2 h)]
  · intro h; rw [if_neg (fun hc => h (key.1 hc))]

/-- C01: every range the constructor accepts has a size `n` such that `start + k * step` lies before the end exactly
for `k < n`; `at(k)` returns that value for `k < n` (a non-negative number, so the cast to the unsigned index type is
exact), throws `std::out_of_range` for all other `k`, and the list built from the range is the whole progression. -/
theorem channelRange_progression {start stop : Nat} {step : Int} {r : Range}
    (h : Range.mk? start stop step = .ok r) :
    ∃ n, r.size = .ok n ∧
      (∀ k : Nat, k < n ↔ Before step (start + k * step) stop) ∧
      (∀ k : Nat, k < n → r.at k = .ok (start + k * step) ∧ 0 ≤ (start : Int) + k * step) ∧
      (∀ k : Nat, n ≤ k → r.at k = .throw .outOfRange) ∧
      ofRange r = .ok ((List.range n).map fun k : Nat => start + k * step) := by
  unfold Range.mk? at h
  split at h
  case isFalse => simp at h
  rename_i hv
  simp only [Outcome.ok.injEq] at h
  subst h
  have hsize : ∃ n, (⟨start, stop, step⟩ : Range).size = .ok n ∧
      (∀ k : Nat, k < n ↔ Before step (start + k * step) stop) := by
    refine ⟨_, by simp only [Range.size]; rw [if_pos hv], ?_⟩
    intro k
    unfold isValid at hv
    split at hv
    · simp at hv
    · split at hv
      · rename_i hpos
        simp only [decide_eq_true_eq] at hv
        rw [lt_ceil_up _ _ (by omega) hpos]
        unfold Before
        constructor
        · intro; left; omega
        · intro; omega
      · simp only [decide_eq_true_eq] at hv
        have hneg : step < 0 := by omega
        rw [lt_ceil_down _ _ (by omega) hneg]
        unfold Before
        constructor
        · intro; right; omega
        · intro; omega
  obtain ⟨n, hn, hk⟩ := hsize
  refine ⟨n, hn, hk, ?_, ?_, ?_⟩
  · intro k hlt
    refine ⟨?_, ?_⟩
    · simp only [Range.at, hn, Range.get]
      rw [if_neg (by omega)]
      congr 1; ring
    · have := (hk k).1 hlt
      unfold Before at this
      rcases this with ⟨h1, h2⟩ | ⟨h1, h2⟩
      · have : 0 ≤ (k : Int) * step := by positivity
        omega
      · omega
  · intro k hge
    simp only [Range.at, hn]
    rw [if_pos hge]
  · simp only [ofRange, hn, appendLoop_eq]

/-- Non-vacuity: an accepted descending range whose end is not hit exactly. -/
example : Range.mk? 9 2 (-3) = .ok ⟨9, 2, -3⟩ ∧ (⟨9, 2, -3⟩ : Range).size = .ok 3 ∧
    (⟨9, 2, -3⟩ : Range).at 2 = .ok 3 := by decide

/-! ## C02 -/

/-- Some index is repeated three times in a row. -/
def HasTriple (l : List Nat) : Prop := ∃ pre x post, l = pre ++ x :: x :: x :: post

theorem HasTriple.cons {l : List Nat} (y : Nat) (h : HasTriple l) : HasTriple (y :: l) := by
  obtain ⟨pre, x, post, rfl⟩ := h
  exact ⟨y :: pre, x, post, rfl⟩

theorem HasTriple.append {l : List Nat} (ys : List Nat) (h : HasTriple l) : HasTriple (ys ++ l) := by
  obtain ⟨pre, x, post, rfl⟩ := h
  exact ⟨ys ++ pre, x, post, by simp⟩

private theorem print_parse_aux (l : List Nat) (hne : l ≠ []) (h3 : ¬ HasTriple l)
    (hb : ∀ c ∈ l, c < 2 ^ 30) :
    ∃ s, print l = .ok s ∧ parseGroups s = some (.ok (l.map fun n : Nat => (n : Int)), []) := by
  induction hn : l.length using Nat.strongRecOn generalizing l with
  | ind n ih =>
    subst hn
    match l, hne with
    | [x], _ =>
      refine ⟨printNat x, by rw [print], ?_⟩
      have hx : x < 2 ^ 30 := hb x (by simp)
      have hp : parseInt (printNat x) = some ((x : Int), []) := by
        have := parseInt_printNat x noDigit_nil (by rw [intMax_eq]; omega)
        simpa using this
      refine parseGroups_last (parseGroup_last hp (Or.inl rfl)) ?_ rfl
      simp only [expandGroup, List.map_cons, List.map_nil]
      rw [if_neg (by omega)]
    | x :: y :: rest, _ =>
      have hx : x < 2 ^ 30 := hb x (by simp)
      have hy : y < 2 ^ 30 := hb y (by simp)
      rw [print]
      obtain ⟨run, hr1, hr2, hr3, hr4⟩ := scanRun_spec ((y : Int) - x) y rest
      simp only
      generalize hsr : scanRun ((y : Int) - x) y rest = sr at *
      obtain ⟨last, cnt, tail⟩ := sr
      simp only at *
      split
      · rename_i hcnt
        -- a run of at least three elements
        have hlen : 1 ≤ run.length := by omega
        have hdne : (y : Int) - x ≠ 0 := by
          intro hd
          apply h3
          match run, hlen with
          | z :: run', _ =>
            simp only [List.map_cons, List.length_cons, List.range_succ_eq_map, List.cons.injEq] at hr4
            have hz := hr4.1
            rw [hd] at hz
            simp only [zero_mul, add_zero, Nat.cast_inj] at hz
            have hxy : x = y := by omega
            refine ⟨[], x, run' ++ tail, ?_⟩
            rw [hr1, hz, hxy]; simp
        have hlastmem : ∃ z ∈ rest, (z : Int) = last := by
          have hm : last ∈ run.map (fun n : Nat => (n : Int)) := by
            rw [hr4, List.mem_map]
            refine ⟨run.length - 1, by rw [List.mem_range]; omega, ?_⟩
            rw [hr3]
            have : ((run.length - 1 : Nat) : Int) = (run.length : Int) - 1 := by omega
            rw [this]; ring
          obtain ⟨z, hz, hz'⟩ := List.mem_map.1 hm
          exact ⟨z, by rw [hr1]; exact List.mem_append_left _ hz, hz'⟩
        obtain ⟨z, hzmem, hzlast⟩ := hlastmem
        have hz : z < 2 ^ 30 := hb z (by simp [hzmem])
        -- the printed group and its value
        have hgroup : ∀ r : List Char, GroupEnd r → ∃ g,
            parseGroup ((printNat x ++ (if (y : Int) - x ≠ 1 then ':' :: printInt ((y : Int) - x) else []) ++
              (':' :: printInt last)) ++ r) = some (g, r) ∧
            expandGroup g = .ok ((x :: y :: run).map fun n : Nat => (n : Int)) := by
          intro r hr
          have hseq : (x :: y :: run).map (fun n : Nat => (n : Int)) =
              (List.range (run.length + 1 + 1)).map fun k : Nat => (x : Int) + ((y : Int) - x) * k := by
            rw [List.range_succ_eq_map, List.range_succ_eq_map]
            simp only [List.map_cons, List.map_map, hr4, Nat.cast_zero, mul_zero, add_zero, List.cons.injEq, true_and]
            refine ⟨by simp, ?_⟩
            apply List.map_congr_left
            intro k _
            simp only [Function.comp, Nat.succ_eq_add_one]; push_cast; ring
          have hplast : parseInt (printInt last ++ r) = some (last, r) :=
            parseInt_printInt last hr.noDigit (by rw [inInt_iff]; omega)
          have hglast := parseGroup_last hplast hr
          have hlast0 : ¬ last < 0 := by omega
          have hlasteq : last = x + ((y : Int) - x) * ((run.length + 1 : Nat) : Int) := by
            rw [hr3]; push_cast; ring
          by_cases hd : (y : Int) - x ≠ 1
          · rw [if_pos hd]
            refine ⟨[(x : Int), (y : Int) - x, last], ?_, ?_⟩
            · have e1 : parseInt (printNat x ++ (':' :: (printInt ((y : Int) - x) ++ (':' :: (printInt last ++ r))))) =
                  some ((x : Int), ':' :: (printInt ((y : Int) - x) ++ (':' :: (printInt last ++ r)))) :=
                parseInt_printNat x (noDigit_cons (by decide)) (by rw [intMax_eq]; omega)
              have e2 : parseInt (printInt ((y : Int) - x) ++ (':' :: (printInt last ++ r))) =
                  some ((y : Int) - x, ':' :: (printInt last ++ r)) :=
                parseInt_printInt _ (noDigit_cons (by decide)) (by rw [inInt_iff]; omega)
              have := parseGroup_more e1 (parseGroup_more e2 hglast)
              simpa [List.append_assoc] using this
            · simp only [expandGroup]
              rw [if_neg (by omega), dif_neg hdne, hseq]
              split
              · rename_i hpos
                have hc : (((y : Int) - x).toNat : Int) = (y : Int) - x := by omega
                rw [upLoop_run _ _ (run.length + 1) _ _ (by rw [hlasteq, hc]) (by omega)
                  (by rw [hc, intMax_eq]; omega), hc]
              · have hc : ((-((y : Int) - x)).toNat : Int) = -((y : Int) - x) := by omega
                rw [downLoop_run _ _ (run.length + 1) _ _ (by rw [hlasteq, hc]; ring)
                  (by rw [intMax_eq]; omega) (by rw [hc, intMin_eq]; omega)]
                simp only [Outcome.ok.injEq]
                apply List.map_congr_left
                intro k _
                rw [hc]; ring
          · rw [if_neg hd]
            simp only [not_not] at hd
            refine ⟨[(x : Int), last], ?_, ?_⟩
            · have e1 : parseInt (printNat x ++ (':' :: (printInt last ++ r))) =
                  some ((x : Int), ':' :: (printInt last ++ r)) :=
                parseInt_printNat x (noDigit_cons (by decide)) (by rw [intMax_eq]; omega)
              have := parseGroup_more e1 hglast
              simpa [List.append_assoc] using this
            · simp only [expandGroup]
              rw [if_neg (by omega)]
              have e : last.toNat = x + (run.length + 1) := by rw [hlasteq, hd]; omega
              rw [e, Int.toNat_natCast, unitLoop_run, hseq, hd]
              simp only [Outcome.ok.injEq]
              apply List.map_congr_left
              intro k _
              ring
        split
        · -- the run ends the list
          refine ⟨_, rfl, ?_⟩
          obtain ⟨g, hg, he⟩ := hgroup [] (Or.inl rfl)
          rw [List.append_nil] at hg
          have := parseGroups_last hg he rfl
          rw [this, hr1]; simp
        · rename_i w ws
          have htail3 : ¬ HasTriple (w :: ws) := by
            intro hc
            apply h3
            rw [hr1]
            exact HasTriple.cons _ (HasTriple.cons _ (HasTriple.append _ hc))
          have htailb : ∀ c ∈ w :: ws, c < 2 ^ 30 := by
            intro c hc; apply hb; rw [hr1]; simp only [List.mem_cons, List.mem_append] at *; tauto
          have hl : (w :: ws).length < (x :: y :: rest).length := by
            rw [hr1]; simp only [List.length_cons, List.length_append]; omega
          obtain ⟨s, hs, hps⟩ := ih _ hl (w :: ws) (by simp) htail3 htailb rfl
          rw [hs]
          refine ⟨_, rfl, ?_⟩
          obtain ⟨g, hg, he⟩ := hgroup (',' :: s) (Or.inr ⟨s, rfl⟩)
          have := parseGroups_more hg he hps
          rw [this, hr1]; simp [Outcome.map]
      · -- no run: print one index
        have htail3 : ¬ HasTriple (y :: rest) := fun hc => h3 (HasTriple.cons _ hc)
        have htailb : ∀ c ∈ y :: rest, c < 2 ^ 30 := fun c hc => hb c (by simp only [List.mem_cons] at *; tauto)
        obtain ⟨s, hs, hps⟩ := ih (y :: rest).length (by simp) (y :: rest) (by simp) htail3 htailb rfl
        rw [hs]
        refine ⟨_, rfl, ?_⟩
        have e1 : parseInt (printNat x ++ (',' :: s)) = some ((x : Int), ',' :: s) :=
          parseInt_printNat x (noDigit_cons (by decide)) (by rw [intMax_eq]; omega)
        have e2 : expandGroup [(x : Int)] = .ok [(x : Int)] := by
          simp only [expandGroup]; rw [if_neg (by omega)]
        have := parseGroups_more (parseGroup_last e1 (Or.inr ⟨s, rfl⟩)) e2 hps
        rw [this]; simp [Outcome.map]

/-- C02: printing a non-empty channel list in which no index occurs three times in a row (and whose indices are below
2^30, so that the 32-bit arithmetic of the reader cannot overflow) yields a text which `IndexSequence` reads back as
the very same list. -/
theorem channelList_print_parse (l : List Nat) (hne : l ≠ []) (h3 : ¬ HasTriple l)
    (hb : ∀ c ∈ l, c < 2 ^ 30) :
    ∃ s, print l = .ok s ∧ parse s = .ok (l.map fun n : Nat => (n : Int)) := by
  obtain ⟨s, h1, h2⟩ := print_parse_aux l hne h3 hb
  exact ⟨s, h1, by simp [parse, h2, skipWs]⟩

/-- Non-vacuity: a list with ascending, descending and broken runs. -/
example : ¬ HasTriple [1, 2, 3, 9, 7, 5, 5, 0] ∧ ∀ c ∈ [1, 2, 3, 9, 7, 5, 5, 0], c < 2 ^ 30 := by
  refine ⟨?_, by decide⟩
  rintro ⟨pre, x, post, h⟩
  match pre, h with
  | [], h => simp at h; omega
  | [_], h => simp at h; omega
  | [_, _], h => simp at h; omega
  | [_, _, _], h => simp at h; omega
  | [_, _, _, _], h => simp at h; omega
  | [_, _, _, _, _], h => simp at h; omega
  | [_, _, _, _, _, _], h => simp at h
  | [_, _, _, _, _, _, _], h => simp at h
  | [_, _, _, _, _, _, _, _], h => simp at h
  | _ :: _ :: _ :: _ :: _ :: _ :: _ :: _ :: _ :: _, h => simp at h

/-- The excluded case is real: an index printed three times in a row becomes the run `x:0:x`, which the reader rejects
by throwing a C string. -/
theorem channelList_triple_not_readable (x : Nat) (hx : x < 2 ^ 30) :
    ∃ s, print [x, x, x] = .ok s ∧ parse s = .throw .cString := by
  have hs : print [x, x, x] = .ok (printNat x ++ ':' :: (printInt 0 ++ (':' :: (printInt x ++ [])))) := by
    have hsr : scanRun ((x : Int) - x) x [x] = ((x : Int), 1, []) := by simp [scanRun]
    rw [print]
    simp only
    generalize scanRun ((x : Int) - x) x [x] = sr at *
    subst hsr
    simp
  refine ⟨_, hs, ?_⟩
  have e1 := parseInt_printNat x (r := ':' :: (printInt 0 ++ (':' :: (printInt x ++ []))))
    (noDigit_cons (by decide)) (by rw [intMax_eq]; omega)
  have e2 := parseInt_printInt 0 (r := ':' :: (printInt x ++ [])) (noDigit_cons (by decide)) (by decide)
  have e3 := parseInt_printInt (x : Int) (r := []) noDigit_nil (by rw [inInt_iff]; omega)
  have hg := parseGroup_more e1 (parseGroup_more e2 (parseGroup_last e3 (Or.inl rfl)))
  have he : expandGroup [(x : Int), 0, x] = .throw .cString := by
    simp only [expandGroup]; rw [if_neg (by omega)]; simp
  have : parseGroups (printNat x ++ ':' :: (printInt 0 ++ (':' :: (printInt x ++ [])))) = some (.throw .cString, []) := by
    rw [parseGroups]
    split
    · rename_i h'; rw [hg] at h'; simp at h'
    · rename_i g' r1 h'
      rw [hg] at h'
      simp only [Option.some.injEq, Prod.mk.injEq] at h'
      obtain ⟨rfl, rfl⟩ := h'
      rw [he]
  simp only [parse, this]

/-- The other excluded case: printing an empty channel list is undefined behaviour. -/
theorem channelList_print_empty_ub : print [] = .ub := by rw [print]

end Visr.ChannelList
