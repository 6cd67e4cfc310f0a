import Verif.MatrixText.Lemmas

/-!
# Matrices and vectors read from texts and audio files (C77)
-/

namespace Visr.MatrixText

open Visr.RealText

/-! ### Concrete texts -/

namespace Demo

/-- `1.5` -/
def a : Literal := ⟨.none, ['1'], some ['5'], none⟩
/-- `-2e1` -/
def b : Literal := ⟨.minus, ['2'], none, some ('e', .none, ['1'])⟩

theorem a_ok : a.Ok := ⟨by decide, by intro f h; cases h; decide, Or.inl (by decide), by intro x h; cases h⟩
theorem b_ok : b.Ok := ⟨by decide, (by intro f h; cases h), Or.inl (by decide), by intro x h; cases h; decide⟩

theorem blank : Blank [' '] := by intro c hc; simp at hc; subst hc; decide

/-- ` 1.5, -2e1 % gains` -/
theorem line : Line [a.val, b.val] (" 1.5, -2e1 % gains".toList) :=
  .items _ [' '] "1.5, -2e1".toList [' '] "% gains".toList blank
    (.cons a [',', ' '] _ _ a_ok (Or.inr ⟨[], [' '], by intro c hc; simp at hc, blank, rfl⟩) (.one b b_ok))
    blank (Or.inr rfl)

theorem comment : Line [] "% heading".toList := .empty [] _ (by intro c hc; simp at hc) (Or.inr rfl)

theorem single : Line [a.val] "1.5".toList :=
  .items _ [] "1.5".toList [] [] (by intro c hc; simp at hc) (.one a a_ok) (by intro c hc; simp at hc) (Or.inl rfl)

/-- A heading, a row, and the same row again after a newline. -/
theorem lines : Lines [[], [a.val, b.val], [a.val, b.val]]
    "% heading\n 1.5, -2e1 % gains\n 1.5, -2e1 % gains".toList :=
  .cons [] "% heading".toList '\n' _ _ comment (by decide) (by decide) (Or.inl rfl)
    (.cons _ " 1.5, -2e1 % gains".toList '\n' _ _ line (by decide) (by decide) (Or.inl rfl)
      (.last _ _ line (by decide) (by decide)))

/-- Two rows of different lengths. -/
theorem ragged : Lines [[a.val], [a.val, b.val]] "1.5; 1.5, -2e1 % gains".toList :=
  .cons _ "1.5".toList ';' _ _ single (by decide) (by decide) (Or.inr rfl) (.last _ _ line (by decide) (by decide))

theorem x_not_accepted : ¬ ∃ vs, AcceptedLine vs "x 1".toList := by
  rintro ⟨vs, h⟩
  have hx : ("x 1".toList).head? = some 'x' := rfl
  have noblank : ∀ a : List Char, Blank a → a.head? = some 'x' → False := by
    intro a ha hh
    cases a with
    | nil => cases hh
    | cons c a =>
      simp at hh
      subst hh
      have := ha 'x' (by simp)
      revert this
      decide
  have number : ∀ (y : Num) (t : List Char), Number y t → t ≠ [] ∧ t.head? ≠ some 'x' := by
    intro y t ht
    have word : ∀ (sg : Sign) (w ws : List Char) (rest : List Char), w.map Char.toLower = ws →
        ws.head? = some 'n' ∨ ws.head? = some 'i' →
        sg.text ++ w ++ rest ≠ [] ∧ (sg.text ++ w ++ rest).head? ≠ some 'x' := by
      intro sg w ws rest hw hh
      cases w with
      | nil => simp at hw; rw [hw] at hh; simp at hh
      | cons c w =>
        cases sg with
        | plus => simp [Sign.text]
        | minus => simp [Sign.text]
        | none =>
          simp [Sign.text]
          rintro rfl
          rw [← hw] at hh
          revert hh
          simp
    cases ht with
    | literal l hl =>
      obtain ⟨c, r, h1, h2⟩ := literal_head l hl
      rw [h1]
      refine ⟨by simp, ?_⟩
      simp
      rintro rfl
      revert h2
      decide
    | nan sg w hw => simpa using word sg w _ [] hw (Or.inl rfl)
    | nanOf sg w a hw =>
      have := word sg w _ ('(' :: a ++ [')']) hw (Or.inl rfl)
      simpa using this
    | inf sg w hw =>
      rcases hw with hw | hw
      · simpa using word sg w _ [] hw (Or.inr rfl)
      · simpa using word sg w _ [] hw (Or.inr rfl)
  have head : ∀ (s t : List Char), s ≠ [] → (s ++ t).head? = s.head? := by
    intro s t hs
    cases s with
    | nil => exact absurd rfl hs
    | cons c s => rfl
  have accepted : ∀ (ys : List Num) (t : List Char), Accepted ys t → t ≠ [] ∧ t.head? ≠ some 'x' := by
    intro ys t ht
    cases ht with
    | one y t hy => exact number y t hy
    | cons y t sep ws r hy _ _ =>
      obtain ⟨h1, h2⟩ := number y t hy
      rw [List.append_assoc]
      exact ⟨by simp [h1], by rw [head _ _ h1]; exact h2⟩
  generalize "x 1".toList = t at h hx
  cases h with
  | empty a c ha hc =>
    by_cases h0 : a = []
    · subst h0
      rcases hc with rfl | hc
      · cases hx
      · rw [List.nil_append, hc] at hx; revert hx; decide
    · rw [head _ _ h0] at hx
      exact noblank a ha hx
  | items vs a t b c ha ht _ _ =>
    rw [List.append_assoc, List.append_assoc] at hx
    by_cases h0 : a = []
    · subst h0
      obtain ⟨h1, h2⟩ := accepted vs t ht
      rw [List.nil_append, head _ _ h1] at hx
      exact h2 hx
    · rw [head _ _ h0] at hx
      exact noblank a ha hx

end Demo

/-! ### Numbers -/

/-- C77: the text of a decimal number, after white space and followed by anything that does not continue it, is read as its
value, and exactly this text is consumed. -/
theorem decimal_number_read (a : List Char) (l : Literal) (r : List Char) (ha : Blank a) (hl : l.Ok) (hr : Stops r) :
    real (a ++ (l.text ++ r)) = some (.fin l.val, r) := real_literal a l r ha hl hr

example : real " -2e1,3".toList = some (.fin (-20), ",3".toList) := by
  have h := decimal_number_read [' '] Demo.b [',', '3'] Demo.blank Demo.b_ok (by intro c hc; simp at hc; subst hc; decide)
  have hv : Demo.b.val = -20 := by decide +kernel
  rw [hv] at h
  exact h

/-! ### Vectors -/

/-- C77: a vector text with numbers separated by white space or commas, with an optional comment, yields these numbers in
this order. -/
theorem vector_read (vs : List ℚ) (t : List Char) (h : Line vs t) : vectorFromText t = .ok (vs.map .fin) := row_line vs t h

example : vectorFromText " 1.5, -2e1 % gains".toList = .ok [.fin Demo.a.val, .fin Demo.b.val] := vector_read _ _ Demo.line

/-- C77: a vector text that is accepted consists of numbers, which are the elements of the vector in this order, and
possibly a comment.  Different from `Line`, special values may be given by name, and numbers may follow each other without
any separator. -/
theorem vector_accepted (t : List Char) (vs : List Num) (h : vectorFromText t = .ok vs) : AcceptedLine vs t := row_sound t vs h

example : ∃ vs, vectorFromText " 1.5, -2e1 % gains".toList = .ok vs ∧ vs ≠ [] :=
  ⟨_, vector_read _ _ Demo.line, by simp⟩

/-- C77: any other vector text is rejected with `invalid_argument`. -/
theorem vector_rejected (t : List Char) (h : ¬ ∃ vs, AcceptedLine vs t) : vectorFromText t = .throw .invalidArgument := by
  cases hr : vectorFromText t with
  | ok vs => exact absurd ⟨vs, row_sound t vs hr⟩ h
  | throw e =>
    unfold vectorFromText row at hr
    split at hr
    · cases hr
    · cases hr
    · exact hr.symm
  | ub =>
    unfold vectorFromText row at hr
    split at hr <;> cases hr

example : vectorFromText "x 1".toList = .throw .invalidArgument := vector_rejected _ Demo.x_not_accepted

/-- C77: lists of numbers and a separator without a number after it are not accepted. -/
theorem vector_rejects_trailing (vs : List ℚ) (t a b c : List Char) (ht : Items vs t) (ha : Blank a) (hb : Blank b)
    (hc : Comment c) : vectorFromText (t ++ (a ++ ',' :: (b ++ c))) = .throw .invalidArgument := by
  obtain ⟨_, _, h3, h4⟩ := tail_spec b c hb hc
  have hsep : Stops (a ++ ',' :: (b ++ c)) := by
    have := separator_stops (a ++ ',' :: b) c (Or.inr ⟨a, b, ha, hb, rfl⟩)
    simpa using this
  have hm : more (a ++ ',' :: (b ++ c)) = none := by
    unfold more
    rw [blank_comma a ha]
    exact h3
  have hn := numbers_text vs t ht [] (a ++ ',' :: (b ++ c)) (by intro c hc; simp at hc) hsep hm
  rw [List.nil_append] at hn
  unfold vectorFromText row
  rw [hn]
  simp only [blank_comma a ha]
  rfl

example : vectorFromText "1.5 ,".toList = .throw .invalidArgument :=
  vector_rejects_trailing [Demo.a.val] "1.5".toList [' '] [] [] (.one Demo.a Demo.a_ok) Demo.blank
    (by intro c hc; simp at hc) (Or.inl rfl)

/-! ### Matrices -/

/-- C77: a matrix text whose lines have the same number of elements yields the matrix whose rows are the lines with
elements, in this order; lines without numbers are ignored. -/
theorem matrix_read (vss : List (List ℚ)) (t : List Char) (n : Nat) (h : Lines vss t)
    (hn : ∀ v ∈ vss, v = [] ∨ v.length = n) (hsome : ∃ v ∈ vss, v ≠ []) :
    ∃ m, matrixFromText t = .ok m ∧ m.numCols = n ∧ m.numRows = (vss.filter (· ≠ [])).length ∧
      m.data = (vss.filter (· ≠ [])).map (·.map .fin) := by
  have hr := rows_ok _ _ (cut_lines vss t h)
  have hf : ∀ w : List (List ℚ), (w.map (·.map Num.fin)).filter (fun v => v.length ≠ 0)
      = (w.filter (· ≠ [])).map (·.map Num.fin) := by
    intro w
    induction w with
    | nil => rfl
    | cons v w ih =>
      cases v with
      | nil => simpa using ih
      | cons x v => simpa using ih
  have hrow : rows ((pieces '\n' t).flatMap (pieces ';')) = .ok (vss.map (·.map .fin)) := hr
  unfold matrixFromText
  rw [hrow]
  simp only [assemble]
  rw [hf]
  cases hv : vss.filter (· ≠ []) with
  | nil =>
    obtain ⟨v, hv1, hv2⟩ := hsome
    have : v ∈ vss.filter (· ≠ []) := List.mem_filter.2 ⟨hv1, by simpa using hv2⟩
    rw [hv] at this
    cases this
  | cons v r =>
    have hlen : ∀ w ∈ v :: r, w.length = n := by
      intro w hw
      rw [← hv] at hw
      obtain ⟨h1, h2⟩ := List.mem_filter.1 hw
      exact (hn w h1).resolve_left (by simpa using h2)
    have hany : ((v.map Num.fin :: r.map (·.map Num.fin)).any fun w => w.length ≠ (v.map Num.fin).length) = false := by
      rw [List.any_eq_false]
      intro w hw
      have hvn := hlen v (by simp)
      rcases List.mem_cons.1 hw with rfl | hw
      · simp
      · obtain ⟨u, hu, rfl⟩ := List.mem_map.1 hw
        have := hlen u (List.mem_cons_of_mem _ hu)
        simp [this, hvn]
    rw [List.map_cons]
    simp only [hany, Bool.false_eq_true, if_false]
    refine ⟨_, rfl, ?_, ?_, rfl⟩
    · simp [hlen v (by simp)]
    · simp

example : ∃ m, matrixFromText "% heading\n 1.5, -2e1 % gains\n 1.5, -2e1 % gains".toList = .ok m ∧ m.numCols = 2 ∧ m.numRows = 2 ∧
    m.data = [[.fin Demo.a.val, .fin Demo.b.val], [.fin Demo.a.val, .fin Demo.b.val]] :=
  matrix_read _ _ 2 Demo.lines (by intro v hv; simp at hv; rcases hv with rfl | rfl <;> simp)
    ⟨[Demo.a.val, Demo.b.val], by simp, by simp⟩

/-- C77: a text without any number yields the empty matrix. -/
theorem matrix_empty (vss : List (List ℚ)) (t : List Char) (h : Lines vss t) (hn : ∀ v ∈ vss, v = []) :
    matrixFromText t = .ok ⟨0, 0, []⟩ := by
  have hrow : rows ((pieces '\n' t).flatMap (pieces ';')) = .ok (vss.map (·.map .fin)) := rows_ok _ _ (cut_lines vss t h)
  unfold matrixFromText
  rw [hrow]
  simp only [assemble]
  have : (vss.map (·.map Num.fin)).filter (fun v => v.length ≠ 0) = [] := by
    rw [List.filter_eq_nil_iff]
    intro w hw
    obtain ⟨u, hu, rfl⟩ := List.mem_map.1 hw
    simp [hn u hu]
  rw [this]

example : matrixFromText "% heading".toList = .ok ⟨0, 0, []⟩ :=
  matrix_empty [[]] _ (.last _ _ Demo.comment (by decide) (by decide)) (by simp)

/-- C77: a text with lines of different numbers of elements is rejected. -/
theorem matrix_ragged_rejected (vss : List (List ℚ)) (t : List Char) (h : Lines vss t) (u v : List ℚ) (hu : u ∈ vss)
    (hv : v ∈ vss) (hu0 : u ≠ []) (hv0 : v ≠ []) (hne : u.length ≠ v.length) :
    matrixFromText t = .throw .invalidArgument := by
  have hrow : rows ((pieces '\n' t).flatMap (pieces ';')) = .ok (vss.map (·.map .fin)) := rows_ok _ _ (cut_lines vss t h)
  unfold matrixFromText
  rw [hrow]
  simp only [assemble]
  have mem : ∀ w : List ℚ, w ∈ vss → w ≠ [] →
      w.map Num.fin ∈ (vss.map (·.map Num.fin)).filter (fun v => v.length ≠ 0) := by
    intro w hw hw0
    exact List.mem_filter.2 ⟨List.mem_map_of_mem hw, by simpa using hw0⟩
  have m1 := mem u hu hu0
  have m2 := mem v hv hv0
  cases hf : (vss.map (·.map Num.fin)).filter (fun v => v.length ≠ 0) with
  | nil => rw [hf] at m1; cases m1
  | cons w r =>
    rw [hf] at m1 m2
    have hany : ((w :: r).any fun z => z.length ≠ w.length) = true := by
      rw [List.any_eq_true]
      by_cases hc : (u.map Num.fin).length = w.length
      · refine ⟨_, m2, ?_⟩
        simp only [List.length_map] at hc ⊢
        simp
        omega
      · exact ⟨_, m1, by simpa using hc⟩
    simp only [hany, if_true]

example : matrixFromText "1.5; 1.5, -2e1 % gains".toList = .throw .invalidArgument :=
  matrix_ragged_rejected _ _ Demo.ragged [Demo.a.val] [Demo.a.val, Demo.b.val] (by simp) (by simp) (by simp) (by simp)
    (by simp)

/-- C77: an accepted matrix text consists of lines of numbers; the matrix has these lines as its rows, except those
without numbers, and all rows have the length that the matrix reports. -/
theorem matrix_accepted (t : List Char) (m : Matrix Num) (h : matrixFromText t = .ok m) :
    ∃ vss, AcceptedLines vss t ∧ m.data = vss.filter (· ≠ []) ∧ m.numRows = m.data.length ∧
      ∀ v ∈ m.data, v.length = m.numCols := by
  unfold matrixFromText at h
  cases hr : rows ((pieces '\n' t).flatMap (pieces ';')) with
  | throw e => rw [hr] at h; cases h
  | ub => rw [hr] at h; cases h
  | ok vss =>
    rw [hr] at h
    simp only [assemble] at h
    have hf : vss.filter (fun v => v.length ≠ 0) = vss.filter (· ≠ []) := by
      apply List.filter_congr
      intro v _
      cases v <;> simp
    refine ⟨vss, cut_sound t vss (rows_sound _ _ hr), ?_⟩
    rw [hf] at h
    cases hv : vss.filter (· ≠ []) with
    | nil => rw [hv] at h; cases h; simp
    | cons v r =>
      rw [hv] at h
      simp only at h
      split at h
      · cases h
      · rename_i hany
        cases h
        refine ⟨rfl, rfl, ?_⟩
        intro w hw
        by_contra hc
        exact hany (List.any_eq_true.2 ⟨w, hw, by simpa using hc⟩)

/-- C77: a matrix text with a line that cannot be accepted is rejected. -/
theorem matrix_rejected (t : List Char) (h : ¬ ∃ vss, AcceptedLines vss t) :
    matrixFromText t = .throw .invalidArgument := by
  have hrow : ∀ s, (∃ v, row s = .ok v) ∨ row s = .throw .invalidArgument := by
    intro s
    unfold row
    split
    · exact Or.inl ⟨_, rfl⟩
    · exact Or.inl ⟨_, rfl⟩
    · exact Or.inr rfl
  have hrows : ∀ ss, (∃ v, rows ss = .ok v) ∨ rows ss = .throw .invalidArgument := by
    intro ss
    induction ss with
    | nil => exact Or.inl ⟨_, rfl⟩
    | cons s ss ih =>
      rw [rows]
      rcases hrow s with ⟨v, hv⟩ | hv
      · rw [hv]
        rcases ih with ⟨w, hw⟩ | hw
        · rw [hw]; exact Or.inl ⟨_, rfl⟩
        · rw [hw]; exact Or.inr rfl
      · rw [hv]; exact Or.inr rfl
  unfold matrixFromText
  rcases hrows ((pieces '\n' t).flatMap (pieces ';')) with ⟨v, hv⟩ | hv
  · exact absurd ⟨v, cut_sound t v (rows_sound _ _ hv)⟩ h
  · rw [hv]

example : matrixFromText "x 1".toList = .throw .invalidArgument :=
  matrix_rejected _ (by
    rintro ⟨vss, h⟩
    generalize hx : "x 1".toList = t at h
    cases h with
    | last vs t ht _ _ => rw [← hx] at ht; exact Demo.x_not_accepted ⟨_, ht⟩
    | cons vs t b vss r ht h1 h2 hb _ =>
      have : b ∈ "x 1".toList := by rw [hx]; simp
      rcases hb with rfl | rfl <;> (revert this; decide))

/-! ### Audio files -/

/-- C77: the matrix read from an audio file has one row per channel and one column per frame, and the element of channel
`c` and frame `f` is the sample of this channel in this frame of the interleaved data. -/
theorem audio_matrix {K : Type} (a : Audio K) (hl : a.samples.length = a.channels * a.frames) :
    ∃ m, matrixFromAudio a = .ok m ∧ m.numRows = a.channels ∧ m.numCols = a.frames ∧ m.data.length = a.channels ∧
      ∀ c f : Nat, c < a.channels → f < a.frames →
        ∃ row, m.data[c]? = some row ∧ row.length = a.frames ∧ f * a.channels + c < a.samples.length ∧
          row[f]? = some a.samples[f * a.channels + c]? := by
  refine ⟨_, rfl, rfl, rfl, by simp, ?_⟩
  intro c f hc hf
  have hlt : f * a.channels + c < a.channels * a.frames := by
    have : (f + 1) * a.channels ≤ a.frames * a.channels := Nat.mul_le_mul_right _ hf
    rw [Nat.add_mul, Nat.one_mul, Nat.mul_comm a.frames] at this
    omega
  refine ⟨_, by rw [List.getElem?_map, List.getElem?_range hc]; rfl, by simp, by omega, ?_⟩
  rw [List.getElem?_map, List.getElem?_range hf]
  simp only [Option.map_some, received]
  rw [if_pos hlt]

example : ∃ m, matrixFromAudio (⟨2, 3, [1, 2, 3, 4, 5, 6]⟩ : Audio ℕ) = .ok m ∧
    m.data = [[some 1, some 3, some 5], [some 2, some 4, some 6]] := ⟨_, rfl, rfl⟩

/-- C77: an audio file with one channel is read as the vector of its samples. -/
theorem audio_vector {K : Type} (a : Audio K) (hc : a.channels = 1) (hl : a.samples.length = a.frames) :
    vectorFromAudio a = .ok (a.samples.map some) := by
  unfold vectorFromAudio
  rw [if_neg (by simp [hc])]
  congr 1
  apply List.ext_getElem?
  intro i
  by_cases hi : i < a.frames
  · rw [List.getElem?_map, List.getElem?_range hi, List.getElem?_map]
    simp only [Option.map_some, received, hc, one_mul, if_pos hi]
    rw [List.getElem?_eq_getElem (by omega)]
    rfl
  · rw [List.getElem?_eq_none (by simp; omega), List.getElem?_eq_none (by simp; omega)]

example : vectorFromAudio (⟨1, 3, [7, 8, 9]⟩ : Audio ℕ) = .ok [some 7, some 8, some 9] := audio_vector _ rfl rfl

/-- C77: an audio file with any other number of channels is not accepted as a vector. -/
theorem audio_vector_rejected {K : Type} (a : Audio K) (hc : a.channels ≠ 1) :
    vectorFromAudio a = .throw .invalidArgument := by
  unfold vectorFromAudio
  rw [if_pos hc]

example : vectorFromAudio (⟨2, 1, [7, 8]⟩ : Audio ℕ) = .throw .invalidArgument := audio_vector_rejected _ (by decide)

/-! ### Where the code does not do what it says -/

namespace Demo

/-- C77 is false for texts that are not lists of separated numbers: these are accepted, and read as several numbers. -/
theorem unseparated_numbers_accepted :
    vectorFromText "1-2".toList = .ok [.fin 1, .fin (-2)] ∧
    vectorFromText "1.2.3".toList = .ok [.fin (12 / 10), .fin (3 / 10)] := by decide +kernel

/-- C77 is false for vector texts of several lines: a comment extends to the end of the text, not of the line, and the
numbers of the following lines are silently ignored. -/
theorem comment_swallows_following_lines :
    vectorFromText "% gains\n1 2 3".toList = .ok [] ∧ vectorFromText "1 % first\n2".toList = .ok [.fin 1] := by
  decide +kernel

/-- In a matrix text, a comment ends at a semicolon, and what follows is read as a row. -/
theorem comment_ends_at_semicolon :
    matrixFromText "1 2 % first; 3 4".toList = .ok ⟨2, 2, [[.fin 1, .fin 2], [.fin 3, .fin 4]]⟩ := by decide +kernel

/-- C77 is false for incomplete audio files: the result contains elements that have never been assigned. -/
theorem incomplete_audio_accepted :
    matrixFromAudio (⟨2, 2, [1, 2, 3]⟩ : Audio ℕ) = .ok ⟨2, 2, [[some 1, some 3], [some 2, none]]⟩ ∧
    vectorFromAudio (⟨1, 2, [1]⟩ : Audio ℕ) = .ok [some 1, none] := ⟨rfl, rfl⟩

end Demo

end Visr.MatrixText
