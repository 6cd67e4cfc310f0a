import Verif.FloatSequence.Lemmas

/-!
# Sequences of numbers and ranges read from text (C78)
-/

namespace Visr.FloatSequence

open Visr.RealText
open Visr.MatrixText (Blank Number)

/-! ### Concrete texts -/

namespace Demo

/-- A digit as a number. -/
def d (c : Char) : Literal := ⟨.none, [c], none, none⟩

theorem d_ok (c : Char) (h : c.isDigit) : (d c).Ok :=
  ⟨by simp [d, h], by simp [d], Or.inl (by simp [d]), by simp [d]⟩

/-- `-2` -/
def m2 : Literal := ⟨.minus, ['2'], none, none⟩

theorem m2_ok : m2.Ok := ⟨by decide, (by intro f h; cases h), Or.inl (by decide), by intro x h; cases h⟩

theorem blank : Blank [' '] := by intro c hc; simp at hc; subst hc; decide
theorem noblank : Blank [] := by intro c hc; simp at hc

/-- `7, 1:3, 5:-2:0` -/
theorem entries : Entries [[7], [1, 3], [5, -2, 0]] "7, 1:3, 5:-2:0".toList := by
  have v : ∀ c n, (d c).val = n → (d c).val = n := fun _ _ h => h
  have e7 : Entry [7] ['7'] := by
    have := Entry.one (d '7') (d_ok _ (by decide))
    rwa [show (d '7').val = 7 by decide +kernel] at this
  have e13 : Entry [1, 3] "1:3".toList := by
    have := Entry.cons (d '1') [] [] _ _ (d_ok _ (by decide)) noblank noblank (.one (d '3') (d_ok _ (by decide)))
    rwa [show (d '1').val = 1 by decide +kernel, show (d '3').val = 3 by decide +kernel] at this
  have e520 : Entry [5, -2, 0] "5:-2:0".toList := by
    have := Entry.cons (d '5') [] [] _ _ (d_ok _ (by decide)) noblank noblank
      (.cons m2 [] [] _ _ m2_ok noblank noblank (.one (d '0') (d_ok _ (by decide))))
    rwa [show (d '5').val = 5 by decide +kernel, show m2.val = -2 by decide +kernel,
      show (d '0').val = 0 by decide +kernel] at this
  exact .cons _ [] ['7'] [] _ _ noblank e7 noblank
    (.cons _ [' '] "1:3".toList [] _ _ blank e13 noblank (.one _ [' '] "5:-2:0".toList [] blank e520 noblank))

/-- `7, 1:0:3` -/
theorem zero_entries : Entries ([[7]] ++ [1, 0, 3] :: []) "7, 1:0:3".toList := by
  have e7 : Entry [7] ['7'] := by
    have := Entry.one (d '7') (d_ok _ (by decide))
    rwa [show (d '7').val = 7 by decide +kernel] at this
  have e103 : Entry [1, 0, 3] "1:0:3".toList := by
    have := Entry.cons (d '1') [] [] _ _ (d_ok _ (by decide)) noblank noblank
      (.cons (d '0') [] [] _ _ (d_ok _ (by decide)) noblank noblank (.one (d '3') (d_ok _ (by decide))))
    rwa [show (d '1').val = 1 by decide +kernel, show (d '0').val = 0 by decide +kernel,
      show (d '3').val = 3 by decide +kernel] at this
  exact .cons _ [] ['7'] [] _ _ noblank e7 noblank (.one _ [' '] "1:0:3".toList [] blank e103 noblank)

/-- `1:1:1:1` -/
theorem four_entries : Entries ([] ++ [1, 1, 1, 1] :: []) "1:1:1:1".toList := by
  have e : Entry [1, 1, 1, 1] "1:1:1:1".toList := by
    have := Entry.cons (d '1') [] [] _ _ (d_ok _ (by decide)) noblank noblank
      (.cons (d '1') [] [] _ _ (d_ok _ (by decide)) noblank noblank
        (.cons (d '1') [] [] _ _ (d_ok _ (by decide)) noblank noblank (.one (d '1') (d_ok _ (by decide)))))
    rwa [show (d '1').val = 1 by decide +kernel] at this
  exact .one _ [] _ [] noblank e noblank

end Demo

/-! ### Ranges -/

/-- C78: what an entry denotes is unique, and every entry with one to three parts and a step that is not smaller than the
precision denotes something. -/
theorem denotes_exists_unique (eps : ℚ) (heps : 0 < eps) (g : List ℚ) (h0 : g ≠ []) (h3 : g.length ≤ 3)
    (hi : ∀ a i b, g = [a, i, b] → eps ≤ |i|) : ∃ L, Denotes eps g L ∧ ∀ M, Denotes eps g M → M = L := by
  obtain ⟨L, hL⟩ := denotes_exists eps heps g h0 h3 hi
  refine ⟨L, hL, fun M hM => ?_⟩
  have h1 := finish_denotes eps heps g L hL
  rw [finish_denotes eps heps g M hM] at h1
  injection h1 with h1
  exact (List.map_injective_iff.2 fun a b h => by injection h) h1

example : ∃ L, Denotes (1 / 1000) [5, -2, 0] L ∧ ∀ M, Denotes (1 / 1000) [5, -2, 0] M → M = L :=
  denotes_exists_unique _ (by norm_num) _ (by simp) (by simp) (by
    intro a i b h
    simp at h
    rw [← h.2.1]
    norm_num)

/-! ### Reading -/

/-- C78: a text of numbers and ranges is read as the values these stand for, in order. -/
theorem sequence_read (eps : ℚ) (heps : 0 < eps) (vss : List (List ℚ)) (t : List Char) (h : Entries vss t)
    (Ls : List (List ℚ)) (hL : List.Forall₂ (Denotes eps) vss Ls) : parse eps t = .ok (Ls.flatten.map .fin) := by
  obtain ⟨g, r, hg⟩ := entries_group vss t h
  obtain ⟨y, h1, h2, h3⟩ := groups_text eps heps vss t h Ls hL [] (by intro c hc; simp at hc)
  rw [List.nil_append] at h1
  rw [parse_eq eps t g r hg, h1]
  simp only [h3, if_true, h2]

theorem Demo.denotes : List.Forall₂ (Denotes (1 / 1000)) [[7], [1, 3], [5, -2, 0]] [[7], [1, 2, 3], [5, 3, 1]] := by
  refine .cons rfl (.cons ?_ (.cons ?_ .nil))
  · have h := up_progression 1 1 3 one_pos
    have he : up 1 1 3 = [1, 2, 3] := by decide +kernel
    rw [he] at h
    exact h
  · have h := down_progression 5 (-2) 0 (by norm_num)
    have he : down 5 (-2) 0 = [5, 3, 1] := by decide +kernel
    rw [he] at h
    exact ⟨by norm_num, h⟩

example : parse (1 / 1000) "7, 1:3, 5:-2:0".toList = .ok (([7, 1, 2, 3, 5, 3, 1] : List ℚ).map .fin) :=
  sequence_read _ (by norm_num) _ _ Demo.entries _ Demo.denotes

/-- C78: a range with more than three parts is rejected with `invalid_argument`. -/
theorem long_range_rejected (eps : ℚ) (heps : 0 < eps) (good : List (List ℚ)) (bad : List ℚ) (rest : List (List ℚ))
    (hb : 3 < bad.length) (t : List Char) (h : Entries (good ++ bad :: rest) t) (Ls : List (List ℚ))
    (hL : List.Forall₂ (Denotes eps) good Ls) : parse eps t = .throw .invalidArgument := by
  have hf : finish eps (bad.map .fin) = .throw .invalidArgument := by
    match bad, hb with
    | _ :: _ :: _ :: _ :: _, _ => rfl
  obtain ⟨g, r, hg⟩ := entries_group _ t h
  have h1 := groups_text_fail eps heps good bad rest _ hf t h Ls hL [] (by intro c hc; simp at hc)
  rw [List.nil_append] at h1
  rw [parse_eq eps t g r hg, h1]

example : parse (1 / 1000) "1:1:1:1".toList = .throw .invalidArgument :=
  long_range_rejected _ (by norm_num) _ _ _ (by decide) _ Demo.four_entries [] .nil

/-- C78: a range with a step smaller than the precision is rejected, but by throwing a character string, which is not
caught by handlers of standard exceptions. -/
theorem zero_step_throws_string (eps : ℚ) (heps : 0 < eps) (good : List (List ℚ)) (a i b : ℚ) (rest : List (List ℚ))
    (hi : |i| < eps) (t : List Char) (h : Entries (good ++ [a, i, b] :: rest) t) (Ls : List (List ℚ))
    (hL : List.Forall₂ (Denotes eps) good Ls) : parse eps t = .throw .cString := by
  have hf : finish eps ([a, i, b].map .fin) = .throw .cString := by
    have ht : tiny eps (.fin i) = true := by simp [tiny, hi]
    simp only [List.map_cons, List.map_nil, finish, ht, if_true]
  obtain ⟨g, r, hg⟩ := entries_group _ t h
  have h1 := groups_text_fail eps heps good _ rest _ hf t h Ls hL [] (by intro c hc; simp at hc)
  rw [List.nil_append] at h1
  rw [parse_eq eps t g r hg, h1]

example : parse (1 / 1000) "7, 1:0:3".toList = .throw .cString :=
  zero_step_throws_string _ (by norm_num) _ 1 0 3 _ (by norm_num) _ Demo.zero_entries [[7]] (.cons rfl .nil)

/-- C78: an accepted text consists of numbers and ranges, and the sequence consists of the values they stand for, in
order. -/
theorem sequence_accepted (eps : ℚ) (heps : 0 < eps) (t : List Char) (vs : List Num) (h : parse eps t = .ok vs) :
    ∃ gs Ls, AcceptedEntries gs t ∧ List.Forall₂ (Means eps) gs Ls ∧ vs = Ls.flatten := by
  cases hg : group t with
  | none => unfold parse at h; rw [hg] at h; cases h
  | some z =>
    obtain ⟨g, r⟩ := z
    rw [parse_eq eps t g r hg] at h
    cases hy : groups eps (',' :: t) with
    | throw e => rw [hy] at h; cases h
    | ub => rw [hy] at h; cases h
    | ok y =>
      rw [hy] at h
      simp only at h
      split at h
      · rename_i hend
        cases h
        rcases groups_sound eps heps _ (',' :: t) le_rfl y hy hend with ⟨_, e2⟩ | ⟨b, t', gs, Ls, h1, h2, h3, h4, h5⟩
        · rw [e2] at hend
          simp [Visr.ChannelList.skipWs, Visr.ChannelList.isSpace] at hend
        · cases b with
          | nil =>
            rw [List.nil_append] at h2
            injection h2 with _ h2
            rw [h2]
            exact ⟨gs, Ls, h3, h4, h5⟩
          | cons c b =>
            injection h2 with hc _
            have := h1 c (by simp)
            rw [← hc] at this
            exact absurd this (by decide)
      · cases h

example : ∃ vs, parse (1 / 1000) "7, 1:3, 5:-2:0".toList = .ok vs ∧ vs ≠ [] :=
  ⟨_, sequence_read _ (by norm_num) _ _ Demo.entries _ Demo.denotes, by simp⟩

/-- C78: a text that does not consist of numbers and ranges is never accepted. -/
theorem sequence_rejected (eps : ℚ) (heps : 0 < eps) (t : List Char) (h : ¬ ∃ gs, AcceptedEntries gs t) :
    ∀ vs, parse eps t ≠ .ok vs := by
  intro vs hv
  obtain ⟨gs, _, h1, _⟩ := sequence_accepted eps heps t vs hv
  exact h ⟨gs, h1⟩

example : ∀ vs, parse (1 / 1000) [] ≠ .ok vs :=
  sequence_rejected _ (by norm_num) _ (by
    have number : ∀ (y : Num), ¬ Number y [] := by
      intro y hy
      generalize ht : ([] : List Char) = t at hy
      cases hy with
      | literal l hl => have := literal_length l hl; rw [← ht] at this; simp at this
      | nan sg w hw =>
        have := congrArg List.length hw
        have h0 := congrArg List.length ht
        simp at this h0
        omega
      | nanOf sg w a hw => simp at ht
      | inf sg w hw =>
        have h0 := congrArg List.length ht
        rcases hw with hw | hw <;>
          (have := congrArg List.length hw
           simp at this h0
           omega)
    have entry : ∀ vs, ¬ AcceptedEntry vs [] := by
      intro vs hv
      generalize ht : ([] : List Char) = t at hv
      cases hv with
      | one x t hx => rw [← ht] at hx; exact number x hx
      | cons x t a b vs r hx _ _ _ => simp at ht
    rintro ⟨gs, hgs⟩
    generalize ht : ([] : List Char) = t at hgs
    cases hgs with
    | one vs a t b ha hv hb =>
      have h0 : t = [] := by
        have := congrArg List.length ht
        simp at this
        exact List.length_eq_zero_iff.1 (by omega)
      rw [h0] at hv
      exact entry vs hv
    | cons vs a t b vss r _ _ _ _ => simp at ht)

/-! ### Writing and reading back -/

theorem entries_lead (vss : List (List ℚ)) (t : List Char) (h : Entries vss t) (b : List Char) (hb : Blank b) :
    Entries vss (b ++ t) := by
  have happ : ∀ a : List Char, Blank a → Blank (b ++ a) := by
    intro a ha c hc
    rcases List.mem_append.1 hc with h | h
    · exact hb c h
    · exact ha c h
  cases h with
  | one vs a t b' ha ht hb' =>
    have := Entries.one vs (b ++ a) t b' (happ a ha) ht hb'
    simpa using this
  | cons vs a t b' vss r ha ht hb' hr =>
    have := Entries.cons vs (b ++ a) t b' vss r (happ a ha) ht hb' hr
    simpa using this

theorem toText_eq (fmt : ℚ → List Char) (sep : List Char) (vs : List ℚ) (v : ℚ) :
    toText fmt sep (vs ++ [v]) = vs.flatMap (fun v => fmt v ++ sep) ++ fmt v := by
  unfold toText
  simp only [List.flatMap_append, List.flatMap_cons, List.flatMap_nil, List.append_nil]
  rw [if_pos (by simp; omega), ← List.append_assoc]
  have : (vs.flatMap (fun v => fmt v ++ sep) ++ fmt v ++ sep).length - sep.length
      = (vs.flatMap (fun v => fmt v ++ sep) ++ fmt v).length := by
    rw [List.length_append (bs := sep)]; omega
  rw [this, List.take_left']
  rfl

/-- C78: the text of a sequence that is not empty, with a separator that contains a comma, is read back as the values
that are written: if the notation is exact, as the sequence. -/
theorem sequence_read_back (eps : ℚ) (heps : 0 < eps) (fmt : ℚ → List Char) (lit : ℚ → Literal) (hl : ∀ v, (lit v).Ok)
    (hf : ∀ v, fmt v = (lit v).text) (a b : List Char) (ha : Blank a) (hb : Blank b) (vs : List ℚ) (hne : vs ≠ []) :
    parse eps (toText fmt (a ++ ',' :: b) vs) = .ok (vs.map fun v => .fin (lit v).val) := by
  obtain ⟨us, u, rfl⟩ : ∃ us u, vs = us ++ [u] := ⟨vs.dropLast, vs.getLast hne, (List.dropLast_append_getLast hne).symm⟩
  rw [toText_eq]
  have key : ∀ us : List ℚ, Entries ((us ++ [u]).map fun v => [(lit v).val])
      (us.flatMap (fun v => fmt v ++ (a ++ ',' :: b)) ++ fmt u) := by
    intro us
    induction us with
    | nil =>
      have := Entries.one [(lit u).val] [] (lit u).text [] (by intro c hc; simp at hc) (.one _ (hl u))
        (by intro c hc; simp at hc)
      simpa [hf] using this
    | cons w us ih =>
      have := Entries.cons [(lit w).val] [] (lit w).text a _ _ (by intro c hc; simp at hc) (.one _ (hl w)) ha
        (entries_lead _ _ ih b hb)
      simpa [hf] using this
  have hL : List.Forall₂ (Denotes eps) ((us ++ [u]).map fun v => [(lit v).val]) ((us ++ [u]).map fun v => [(lit v).val]) := by
    rw [List.forall₂_map_left_iff, List.forall₂_map_right_iff]
    exact List.forall₂_same.2 fun _ _ => rfl
  rw [sequence_read eps heps _ _ (key us) _ hL]
  congr 1
  generalize us ++ [u] = ws
  induction ws with
  | nil => rfl
  | cons w ws ih => simpa using ih

example : parse (1 / 1000) (toText (fun _ => ['7']) [',', ' '] [7, 7]) = .ok [.fin 7, .fin 7] := by
  have h := sequence_read_back (1 / 1000) (by norm_num) (fun _ => ['7']) (fun _ => Demo.d '7')
    (fun _ => Demo.d_ok _ (by decide)) (fun _ => rfl) [] [' '] Demo.noblank Demo.blank [7, 7] (by simp)
  rw [show (Demo.d '7').val = 7 by decide +kernel] at h
  exact h

/-! ### Where the code does not do what it says -/

namespace Demo

/-- C78 is false for an empty sequence: it is written as an empty text, which is rejected when it is read. -/
theorem empty_sequence_not_read_back (eps : ℚ) (fmt : ℚ → List Char) (sep : List Char) :
    toText fmt sep [] = [] ∧ parse eps [] = .throw .invalidArgument := by
  refine ⟨by simp [toText], ?_⟩
  have : group [] = none := by decide +kernel
  unfold parse
  rw [this]

/-- C78 is false for infinite bounds: the enumeration never ends. -/
theorem infinite_range_never_ends : parse (1 / 1000) "0:inf".toList = .throw .badAlloc := by decide +kernel

end Demo

/-- **C78**: a range with a bound that is not a number has no values. -/
theorem nan_range_is_empty (eps : ℚ) (a i b : Num) (h : a = .nan ∨ b = .nan) :
    finish eps [a, b] = .ok [] ∧ (tiny eps i = false → finish eps [a, i, b] = .ok []) := by
  have hr : ∀ i, range a i b = .ok [] := by
    intro i
    rcases h with rfl | rfl
    · cases b <;> simp [range, loop, le]
    · cases a with
      | fin a => simp [range, loop, le]
      | inf n => cases n <;> simp [range, loop, le]
      | nan => simp [range, loop, le]
  exact ⟨hr _, fun ht => by simp [finish, ht, hr]⟩

/-- Ranges with infinite bounds: they are empty if the bounds are in the wrong order, otherwise the enumeration never ends. -/
theorem infinite_bounds (eps a : ℚ) (n : Bool) :
    finish eps [.inf false, .fin a] = .ok [] ∧ finish eps [.fin a, .inf true] = .ok [] ∧
    finish eps [.inf false, .inf true] = .ok [] ∧ finish eps [.fin a, .inf false] = .throw .badAlloc ∧
    finish eps [.inf true, .fin a] = .throw .badAlloc ∧ finish eps [.inf true, .inf false] = .throw .badAlloc ∧
    finish eps [.inf n, .inf n] = .throw .badAlloc := by
  cases n <;> simp [finish, range, positive, loop, le, add]

end Visr.FloatSequence
