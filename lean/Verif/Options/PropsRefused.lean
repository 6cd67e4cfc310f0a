import Verif.Options.Props

/-!
# C95: incomplete and unknown options
-/

namespace Visr.Options

theorem finish_none {ds : List Decl} {d : Option Decl} {a : Option Word} {x : Occ × Bool} (h : finish ds d a none = .ok x)
    (next : Option Word) : x.2 = false ∧ finish ds d a next = .ok x := by
  unfold finish at h ⊢
  cases d with
  | none => cases h
  | some d =>
    dsimp only at h ⊢
    cases hk : d.kind with
    | flag =>
      rw [hk] at h
      dsimp only at h ⊢
      split_ifs at h ⊢ with ha
      cases h
      exact ⟨rfl, rfl⟩
    | _ =>
      rw [hk] at h
      dsimp only at h ⊢
      cases a with
      | none => cases h
      | some v => cases h; exact ⟨rfl, rfl⟩

theorem readWord_none {ds : List Decl} {extra : Bool} {w : Word} {x : Occ × Bool} (h : readWord ds extra w none = .ok x)
    (next : Option Word) : x.2 = false ∧ readWord ds extra w next = .ok x := by
  unfold readWord at h ⊢
  cases he : (if extra then atOption w else none) with
  | some f =>
    rw [he] at h
    exact finish_none h next
  | none =>
    rw [he] at h
    dsimp only at h ⊢
    split at h
    · split at h
      · cases h
      · exact finish_none h next
    · split_ifs at h ⊢
      · cases h; exact ⟨rfl, rfl⟩
      · exact finish_none h next
      · exact finish_none h next
    · cases h; exact ⟨rfl, rfl⟩

theorem readWords_append {ds : List Decl} {extra : Bool} : ∀ {pre : List Word} {os : List Occ} (post : List Word),
    readWords ds extra pre = .ok os → ['-', '-'] ∉ pre →
    readWords ds extra (pre ++ post) = (readWords ds extra post).map (os ++ ·)
  | [], os, post, h, _ => by
    cases h
    rw [List.nil_append]
    cases readWords ds extra post <;> rfl
  | w :: rest, os, post, h, hn => by
    simp only [List.mem_cons, not_or] at hn
    have hw : w ≠ ['-', '-'] := fun e => hn.1 e.symm
    rw [List.cons_append]
    rw [readWords.eq_def] at h ⊢
    dsimp only at h ⊢
    rw [if_neg hw] at h ⊢
    have step : ∀ x, readWord ds extra w rest.head? = .ok x → readWord ds extra w (rest ++ post).head? = .ok x ∧
        (rest = [] → x.2 = false) := by
      intro x hx
      cases rest with
      | nil => exact ⟨(readWord_none hx _).2, fun _ => (readWord_none hx none).1⟩
      | cons v rest => exact ⟨hx, fun e => by cases e⟩
    cases hr : readWord ds extra w rest.head? with
    | throw e => rw [hr] at h; cases h
    | ub => rw [hr] at h; cases h
    | ok x =>
      obtain ⟨o, b⟩ := x
      obtain ⟨h1, h2⟩ := step _ hr
      rw [hr] at h
      rw [h1]
      cases b with
      | false =>
        dsimp only at h ⊢
        cases hq : readWords ds extra rest with
        | throw e => rw [hq] at h; cases h
        | ub => rw [hq] at h; cases h
        | ok os' =>
          rw [hq] at h
          cases h
          rw [readWords_append post hq hn.2]
          cases readWords ds extra post <;> rfl
      | true =>
        cases rest with
        | nil => cases h2 rfl
        | cons v rest =>
          simp only [List.cons_append] at h ⊢
          simp only [List.mem_cons, not_or] at hn
          cases hq : readWords ds extra rest with
          | throw e => rw [hq] at h; cases h
          | ub => rw [hq] at h; cases h
          | ok os' =>
            rw [hq] at h
            cases h
            rw [readWords_append post hq hn.2.2]
            cases readWords ds extra post <;> rfl

theorem refused_of_throw {ds : List Decl} {files : Word → Option Word} {args : List Word} {e : Exn}
    (h : readWords ds true args = .throw e) : parse ds files args = .ok (.failure, Vars.empty) := by
  simp only [parse, h]

/-- **C95.** An option without its value at the end of the command line is a failure, which is reported as such. -/
theorem missing_value_refused {ds : List Decl} (hd : Registered ds) {files : Word → Option Word} {pre : List Word}
    {os : List Occ} (hp : readWords ds true pre = .ok os) (hm : ['-', '-'] ∉ pre) {d : Decl} (hdm : d ∈ ds)
    (hk : d.kind ≠ .flag) : parse ds files (pre ++ ['-' :: '-' :: d.long]) = .ok (.failure, Vars.empty) := by
  have hg := hd.good d hdm
  refine refused_of_throw (e := .logicError) ?_
  rw [readWords_append _ hp hm, readWords.eq_def]
  dsimp only
  rw [if_neg (long_ne hg), readWord_long hg, findLong_mem hd.nodup hdm]
  unfold finish
  dsimp only
  cases hkk : d.kind
  · exact absurd hkk hk
  · rfl
  · rfl

/-- **C95.** A word written like an option that is not the beginning of the name of one is a failure, wherever it is
given. -/
theorem unknown_refused {ds : List Decl} {files : Word → Option Word} {pre post : List Word} {os : List Occ}
    (hp : readWords ds true pre = .ok os) (hm : ['-', '-'] ∉ pre) {n : Word} (hg : GoodName n)
    (hn : ∀ d ∈ ds, ¬ n <+: d.long) :
    parse ds files (pre ++ ('-' :: '-' :: n) :: post) = .ok (.failure, Vars.empty) := by
  refine refused_of_throw (e := .logicError) ?_
  have : findLong ds n = none := by
    unfold findLong
    rw [List.find?_eq_none]
    intro d hd he
    exact hn d hd (by rw [of_decide_eq_true he]; exact ⟨[], by simp⟩)
  rw [readWords_append _ hp hm, readWords.eq_def]
  dsimp only
  rw [if_neg (long_ne hg), readWord_long hg, this]
  rfl

/-- The words of a command line. -/
private def words (l : List String) : List Word := l.map String.toList

example : parse rendererOptions demoFiles (words ["-i", "2", "--period"]) = .ok (.failure, Vars.empty) :=
  missing_value_refused renderer_registered (pre := words ["-i", "2"]) (os := [⟨"input-channels".toList, ["2".toList]⟩])
    (by decide +kernel) (by decide +kernel) (d := ⟨"period".toList, some 'p', .size⟩) (by decide +kernel) (by decide)
example : parse rendererOptions demoFiles (words ["-i", "2"] ++ "--volume".toList :: words ["3"]) =
    .ok (.failure, Vars.empty) :=
  unknown_refused (n := "volume".toList) (os := [⟨"input-channels".toList, ["2".toList]⟩])
    (by decide +kernel) (by decide +kernel) (by unfold GoodName; decide +kernel) (by decide +kernel)

end Visr.Options
