import Verif.Decoder.PositionModel
import Verif.Rotation.PropsListener

/-!
# C51: which listener position the decoder outputs
-/

namespace Visr.Decoder

open Visr Visr.Rotation

/-! ### Specification -/

/-- The listener position a valid message describes: coordinates default to 0, the time
stamp and the face id to 0, the number of listeners to 1. -/
def Describes (eps : ℝ) (m : PosMessage) (l : Listener) : Prop :=
  ∃ t q, m = some t ∧ readOrientation eps t.orientation = .ok q ∧
    l = ⟨t.timeStamp.getD 0, t.faceId.getD 0, t.numListeners.getD 1,
      ⟨t.x.getD 0, t.y.getD 0, t.z.getD 0⟩, q.getD Quat.one⟩

/-- `ls` are the positions described by the valid messages of `ms`, in order; the other
messages are corrupted. -/
inductive Valid (eps : ℝ) : List PosMessage → List Listener → Prop
  | nil : Valid eps [] []
  | good {m ms l ls} : Describes eps m l → Valid eps ms ls → Valid eps (m :: ms) (l :: ls)
  | bad {m ms ls} : (∀ l, ¬ Describes eps m l) → Valid eps ms ls → Valid eps (m :: ms) ls

/-! ### Lemmas -/

theorem parse_describes (eps : ℝ) (m : PosMessage) (l0 : Listener) :
    (∃ l, Describes eps m l ∧ parseMessage eps l0 m = (.ok (), l)) ∨
      ((∀ l, ¬ Describes eps m l) ∧ (parseMessage eps l0 m).1 ≠ .ok ()) := by
  cases m with
  | none => exact .inr ⟨by rintro l ⟨t, q, h, _⟩; simp at h, by simp [parseMessage]⟩
  | some t =>
    cases h : readOrientation eps t.orientation with
    | ok q =>
      refine .inl ⟨_, ⟨t, q, rfl, h, rfl⟩, ?_⟩
      simp [parseMessage, Listener.parseJson, h]
    | throw e =>
      refine .inr ⟨?_, by simp [parseMessage, Listener.parseJson, h]⟩
      rintro l ⟨t', q, h1, h2, _⟩
      simp only [Option.some.injEq] at h1
      subst h1; rw [h] at h2; simp at h2
    | ub =>
      refine .inr ⟨?_, by simp [parseMessage, Listener.parseJson, h]⟩
      rintro l ⟨t', q, h1, h2, _⟩
      simp only [Option.some.injEq] at h1
      subst h1; rw [h] at h2; simp at h2

/-- Every list of messages has exactly one list of valid positions. -/
theorem valid_exists (eps : ℝ) (ms : List PosMessage) : ∃ ls, Valid eps ms ls := by
  induction ms with
  | nil => exact ⟨[], .nil⟩
  | cons m ms ih =>
    obtain ⟨ls, h⟩ := ih
    rcases parse_describes eps m Listener.default with ⟨l, hl, _⟩ | ⟨hl, _⟩
    · exact ⟨l :: ls, .good hl h⟩
    · exact ⟨ls, .bad hl h⟩

/-- The selection of the loop on decoded positions. -/
def select (s : Listener × ℕ × ℕ) (l : Listener) : Listener × ℕ × ℕ :=
  if l.face ≤ s.2.1 ∧ s.2.2 ≤ l.time then (l, l.face, l.time) else s

theorem fold_select (eps : ℝ) {ms : List PosMessage} {ls : List Listener} (h : Valid eps ms ls)
    (v : PosVars) :
    ((ms.foldl (posIteration eps) v).foundPos, (ms.foldl (posIteration eps) v).smallest,
      (ms.foldl (posIteration eps) v).latest) = ls.foldl select (v.foundPos, v.smallest, v.latest) := by
  induction h generalizing v with
  | nil => rfl
  | @good m ms l ls hd _ ih =>
    rw [List.foldl_cons, List.foldl_cons, ih]
    congr 1
    rcases parse_describes eps m v.newPos with ⟨l', hl', hp⟩ | ⟨hn, _⟩
    · obtain ⟨t, q, h1, h2, h3⟩ := hd
      obtain ⟨t', q', h1', h2', h3'⟩ := hl'
      rw [h1] at h1'
      simp only [Option.some.injEq] at h1'
      subst h1'
      rw [h2] at h2'
      simp only [Outcome.ok.injEq] at h2'
      subst h2'
      rw [← h3] at h3'
      subst h3'
      simp only [posIteration, hp, select]
      by_cases h4 : l'.face ≤ v.smallest
      · by_cases h5 : l'.time ≥ v.latest
        · rw [if_pos h4, if_pos h5, if_pos ⟨h4, h5⟩]
        · rw [if_pos h4, if_neg h5, if_neg (fun h => h5 h.2)]
      · rw [if_neg h4, if_neg (fun h => h4 h.1)]
    · exact absurd hd (hn l)
  | @bad m ms ls hd _ ih =>
    rw [List.foldl_cons, ih]
    congr 1
    rcases parse_describes eps m v.newPos with ⟨l', hl', hp⟩ | ⟨hn, hp⟩
    · exact absurd hl' (hd l')
    · simp only [posIteration]
      cases hr : (parseMessage eps v.newPos m).1 with
      | ok u => exact absurd hr hp
      | throw e => rfl
      | ub => rfl

theorem process_select (eps : ℝ) (d : PosDecoder) {ms : List PosMessage} {ls : List Listener}
    (h : Valid eps ms ls) :
    d.process eps ms =
      let r := ls.foldl select (Listener.default, faceMax, 0)
      if r.2.1 ≠ faceMax then
        { d with
          buf := fun b => if b = d.front then r.1.transform d.rotation d.offset else d.buf b
          front := !d.front
          changed := true }
      else d := by
  have := fold_select eps h ⟨Listener.default, Listener.default, faceMax, 0⟩
  simp only [Prod.ext_iff] at this
  obtain ⟨h1, h2, h3⟩ := this
  simp only [PosDecoder.process]
  rw [h1, h2]

/-- If the loop has selected `f`, receivers see `f` moved to the reference coordinate
system. -/
theorem process_seen (eps : ℝ) (d : PosDecoder) {ms : List PosMessage} {ls : List Listener}
    (h : Valid eps ms ls) {f : Listener} {t : ℕ}
    (hs : ls.foldl select (Listener.default, faceMax, 0) = (f, f.face, t)) (hf : f.face < faceMax) :
    (d.process eps ms).seen = f.transform d.rotation d.offset ∧ (d.process eps ms).changed = true := by
  rw [process_select eps d h]
  simp only [hs]
  rw [if_pos (by omega)]
  simp [PosDecoder.seen]

/-! ### Properties -/

/-- C51: without a valid message nothing is output. -/
theorem nothing_valid (eps : ℝ) (d : PosDecoder) (ms : List PosMessage) (h : Valid eps ms []) :
    d.process eps ms = d := by
  rw [process_select eps d h]; simp

/-- C51: whatever is output is the position of one of the valid messages, rotated and
shifted into the reference coordinate system; time stamp and face id are kept. -/
theorem output_is_valid (eps : ℝ) (d : PosDecoder) (ms : List PosMessage) (ls : List Listener)
    (h : Valid eps ms ls) :
    d.process eps ms = d ∨
      ∃ f ∈ ls, (d.process eps ms).changed = true ∧
        (d.process eps ms).seen = ⟨f.time, f.face, f.listeners,
          (f.pos.rotate d.rotation).add d.offset, d.rotation.mul f.orient⟩ := by
  have key : ∀ (ls : List Listener) (s : Listener × ℕ × ℕ),
      ls.foldl select s = s ∨ ∃ f ∈ ls, ls.foldl select s = (f, f.face, f.time) := by
    intro ls
    induction ls with
    | nil => intro s; exact .inl rfl
    | cons l ls ih =>
      intro s
      rw [List.foldl_cons]
      rcases ih (select s l) with h | ⟨f, hf, h⟩
      · rw [h, select]
        split_ifs
        · exact .inr ⟨l, by simp, rfl⟩
        · exact .inl rfl
      · exact .inr ⟨f, by simp [hf], h⟩
  by_cases hm : (ls.foldl select (Listener.default, faceMax, 0)).2.1 = faceMax
  · left; rw [process_select eps d h]; simp [hm]
  · right
    rcases key ls (Listener.default, faceMax, 0) with hk | ⟨f, hf, hk⟩
    · rw [hk] at hm; exact absurd rfl hm
    · refine ⟨f, hf, ?_⟩
      rw [process_select eps d h]
      simp only [hk] at hm ⊢
      rw [if_pos hm]
      simp [PosDecoder.seen, Listener.transform, Listener.rotate, Listener.rotatePosition,
        Listener.rotateOrientation, Listener.translate]

theorem select_same_face (c : ℕ) (hc : c ≤ faceMax) (ls : List Listener) (hne : ls ≠ [])
    (hf : ∀ l ∈ ls, l.face = c) :
    ∃ a f b, ls = a ++ f :: b ∧ (∀ l ∈ a, l.time ≤ f.time) ∧ (∀ l ∈ b, l.time < f.time) ∧
      ls.foldl select (Listener.default, faceMax, 0) = (f, f.face, f.time) := by
  induction ls using List.reverseRecOn with
  | nil => exact absurd rfl hne
  | append_singleton ls l ih =>
    rw [List.foldl_append, List.foldl_cons, List.foldl_nil]
    have hl : l.face = c := hf l (by simp)
    by_cases hls : ls = []
    · subst hls
      exact ⟨[], l, [], rfl, by simp, by simp, by simp [select, hl, hc]⟩
    · obtain ⟨a, f, b, e, h1, h2, h3⟩ := ih hls (fun x hx => hf x (by simp [hx]))
      have hff : f.face = c := hf f (by rw [e]; simp)
      rw [h3, select]
      simp only
      split_ifs with h4
      · refine ⟨ls, l, [], by simp, ?_, by simp, rfl⟩
        intro x hx
        rw [e] at hx
        simp only [List.mem_append, List.mem_cons] at hx
        rcases hx with hx | rfl | hx
        · exact (h1 x hx).trans h4.2
        · exact h4.2
        · exact (h2 x hx).le.trans h4.2
      · refine ⟨a, f, b ++ [l], by rw [e]; simp, h1, ?_, rfl⟩
        intro x hx
        simp only [List.mem_append, List.mem_singleton] at hx
        rcases hx with hx | rfl
        · exact h2 x hx
        · by_contra h5
          exact h4 ⟨by omega, by omega⟩

/-- C51, partial: if all valid messages of a period are about the same face, the newest
one is output (of several with the same time stamp, the one received last).  Missing:
periods with several faces whose messages do not arrive in order of time. -/
theorem newest_of_one_face_partial (eps : ℝ) (d : PosDecoder) (ms : List PosMessage) (ls : List Listener)
    (h : Valid eps ms ls) (hne : ls ≠ []) (c : ℕ) (hc : c < faceMax) (hf : ∀ l ∈ ls, l.face = c) :
    ∃ a f b, ls = a ++ f :: b ∧ (∀ l ∈ a, l.time ≤ f.time) ∧ (∀ l ∈ b, l.time < f.time) ∧
      (d.process eps ms).seen = f.transform d.rotation d.offset := by
  obtain ⟨a, f, b, e, h1, h2, h3⟩ := select_same_face c hc.le ls hne hf
  have : f.face < faceMax := by rw [hf f (by rw [e]; simp)]; exact hc
  exact ⟨a, f, b, e, h1, h2, (process_seen eps d h h3 this).1⟩

theorem select_in_order (ls : List Listener) (hne : ls ≠ []) (hm : ∀ l ∈ ls, l.face ≤ faceMax)
    (ht : ls.Pairwise (fun x y => x.time ≤ y.time)) :
    ∃ a f b, ls = a ++ f :: b ∧ (∀ l ∈ a, f.face ≤ l.face) ∧ (∀ l ∈ b, f.face < l.face) ∧
      ls.foldl select (Listener.default, faceMax, 0) = (f, f.face, f.time) := by
  induction ls using List.reverseRecOn with
  | nil => exact absurd rfl hne
  | append_singleton ls l ih =>
    rw [List.foldl_append, List.foldl_cons, List.foldl_nil]
    have hl : l.face ≤ faceMax := hm l (by simp)
    rw [List.pairwise_append] at ht
    by_cases hls : ls = []
    · subst hls
      exact ⟨[], l, [], rfl, by simp, by simp, by simp [select, hl]⟩
    · obtain ⟨a, f, b, e, h1, h2, h3⟩ := ih hls (fun x hx => hm x (by simp [hx])) ht.1
      have htl : f.time ≤ l.time := ht.2.2 f (by rw [e]; simp) l (by simp)
      rw [h3, select]
      simp only
      split_ifs with h4
      · refine ⟨ls, l, [], by simp, ?_, by simp, rfl⟩
        intro x hx
        rw [e] at hx
        simp only [List.mem_append, List.mem_cons] at hx
        rcases hx with hx | rfl | hx
        · exact h4.1.trans (h1 x hx)
        · exact h4.1
        · exact h4.1.trans (h2 x hx).le
      · refine ⟨a, f, b ++ [l], by rw [e]; simp, h1, ?_, rfl⟩
        intro x hx
        simp only [List.mem_append, List.mem_singleton] at hx
        rcases hx with hx | rfl
        · exact h2 x hx
        · by_contra h5
          exact h4 ⟨by omega, htl⟩

/-- C51, partial: if the valid messages arrive in order of their time stamps, the newest
message of the smallest face is output.  Missing: messages out of order. -/
theorem newest_of_smallest_face_partial (eps : ℝ) (d : PosDecoder) (ms : List PosMessage)
    (ls : List Listener) (h : Valid eps ms ls) (hne : ls ≠ []) (hm : ∀ l ∈ ls, l.face < faceMax)
    (ht : ls.Pairwise (fun x y => x.time ≤ y.time)) :
    ∃ a f b, ls = a ++ f :: b ∧ (∀ l ∈ a, f.face ≤ l.face) ∧ (∀ l ∈ b, f.face < l.face) ∧
      (d.process eps ms).seen = f.transform d.rotation d.offset := by
  obtain ⟨a, f, b, e, h1, h2, h3⟩ := select_in_order ls hne (fun l hl => (hm l hl).le) ht
  exact ⟨a, f, b, e, h1, h2, (process_seen eps d h h3 (hm f (by rw [e]; simp))).1⟩

/-- C51 is false in general: a message of a larger face with a newer time stamp hides
the messages of a smaller face that arrive after it in the same period. -/
theorem smaller_face_hidden (eps : ℝ) (d : PosDecoder) (m1 m2 : PosMessage) (l1 l2 : Listener)
    (h1 : Describes eps m1 l1) (h2 : Describes eps m2 l2) (hmax : l1.face < faceMax)
    (_hf : l2.face < l1.face) (ht : l2.time < l1.time) :
    (d.process eps [m1, m2]).seen = l1.transform d.rotation d.offset := by
  refine (process_seen eps d (.good h1 (.good h2 .nil)) (t := l1.time) ?_ hmax).1
  have : ¬ l1.time ≤ l2.time := by omega
  simp [select, hmax.le, this]

/-- Finding: a message with the largest face id is accepted but never output. -/
theorem largest_face_ignored (eps : ℝ) (d : PosDecoder) (m : PosMessage) (l : Listener)
    (h : Describes eps m l) (hf : l.face = faceMax) : d.process eps [m] = d := by
  rw [process_select eps d (.good h .nil)]
  simp [select, hf]

/-- Finding: the time stamps are only compared within one period: an older message in a
later period replaces a newer position. -/
theorem older_replaces_newer (eps : ℝ) (d : PosDecoder) (m1 m2 : PosMessage) (l1 l2 : Listener)
    (h1 : Describes eps m1 l1) (h2 : Describes eps m2 l2) (hf1 : l1.face < faceMax)
    (hf2 : l2.face < faceMax) (_ht : l2.time < l1.time) :
    (d.process eps [m1]).seen = l1.transform d.rotation d.offset ∧
      ((d.process eps [m1]).process eps [m2]).seen = l2.transform d.rotation d.offset := by
  have a := process_seen eps d (.good h1 .nil) (f := l1) (t := l1.time) (by simp [select, hf1.le]) hf1
  have b := process_seen eps (d.process eps [m1]) (.good h2 .nil) (f := l2) (t := l2.time)
    (by simp [select, hf2.le]) hf2
  refine ⟨a.1, ?_⟩
  rw [b.1]
  have hr : (d.process eps [m1]).rotation = d.rotation ∧ (d.process eps [m1]).offset = d.offset := by
    rw [process_select eps d (.good h1 .nil)]
    simp only
    split_ifs <;> exact ⟨rfl, rfl⟩
  rw [hr.1, hr.2]

/-! ### The hypotheses are met -/

/-- A message with face, time and coordinates, without an orientation. -/
noncomputable def exMsg (face time : ℕ) : PosMessage :=
  some ⟨.val 1, .val 2, .missing, none, .val time, .val face, .missing⟩

theorem exMsg_describes (eps : ℝ) (face time : ℕ) :
    Describes eps (exMsg face time) ⟨time, face, 1, ⟨1, 2, 0⟩, Quat.one⟩ :=
  ⟨_, some Quat.one, rfl, rfl, rfl⟩

/-- A period with two faces in which the message of the smaller face is older, and a
corrupted message in between. -/
example (eps : ℝ) : Valid eps [exMsg 2 10, none, exMsg 1 5]
    [⟨10, 2, 1, ⟨1, 2, 0⟩, Quat.one⟩, ⟨5, 1, 1, ⟨1, 2, 0⟩, Quat.one⟩] :=
  .good (exMsg_describes eps 2 10) (.bad (by rintro l ⟨t, q, h, _⟩; simp at h)
    (.good (exMsg_describes eps 1 5) .nil))

end Visr.Decoder
