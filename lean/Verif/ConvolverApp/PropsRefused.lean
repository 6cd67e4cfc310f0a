import Verif.ConvolverApp.Props
import Verif.FilterMatrix.Props

/-!
# C103: what the matrix convolver refuses, what does not hold, and examples
-/

namespace Visr.ConvolverApp

open Options (Word Vars FileOptions readWords effective)
open Application (Base Device Res Status Backend registerAll builtin)

variable {K R : Type} [Zero K]

theorem main_throw {w : World K R} {args : List Word} {v : Vars} (ha : Asked w args v) {e : Exn} (h : plan w v = .throw e)
    (reads : Nat) : main w args reads = if e = .cString then ([.flush], .aborted) else ([.flush, .unflush], .exit 1) := by
  unfold main
  rw [ha.1]
  simp only [withOptions, block, ha.2, use, Bool.false_eq_true, if_false, h, handle]
  split_ifs <;> rfl

omit [Zero K] in
theorem textOr_ok {w : World K R} {args : List Word} {v : Vars} (ha : Asked w args v) {n : Word} {c : Option Char}
    (hn : ⟨n, c, .text⟩ ∈ options) (dflt : Word) : ∃ t, v.textOr n dflt = .ok t := by
  obtain ⟨cmd, file, -, -, hv⟩ := Options.precedence registered ha.1 (by decide)
  have hv := hv _ hn
  dsimp only at hv
  unfold Vars.textOr Vars.has Vars.getText
  cases he : effective cmd file n with
  | none =>
    rw [he] at hv
    have h0 : v.value n = none := by simpa using hv
    exact ⟨dflt, by simp [h0]⟩
  | some ws =>
    rw [he] at hv
    obtain ⟨val, h1, h2⟩ := hv
    cases hs : v.value n with
    | none => rw [hs] at h2; cases h2
    | some x =>
      rw [hs] at h2
      obtain ⟨y, z⟩ := x
      simp only [Option.map_some, Option.some.injEq] at h2
      subst h2
      cases ws with
      | nil => simp [Options.convert] at h1
      | cons a ws =>
        cases ws with
        | nil =>
          simp only [Options.convert, Outcome.ok.injEq] at h1
          subst h1
          exact ⟨_, rfl⟩
        | cons b ws => simp [Options.convert] at h1

theorem file_unique {files : Word → Option Word} {cmd file file' : List Options.Occ} (h : FileOptions options files cmd file)
    (h' : FileOptions options files cmd file') : file = file' := by
  unfold FileOptions at h h'
  split at h
  · rename_i f hg
    rw [hg] at h'
    obtain ⟨t, ws, a1, a2, a3⟩ := h
    obtain ⟨t', ws', b1, b2, b3⟩ := h'
    rw [a1] at b1; cases b1
    rw [a2] at b2; cases b2
    rw [a3] at b3; cases b3
    rfl
  · rename_i hne
    split at h'
    · rename_i f hg
      exact absurd hg (hne f)
    · rw [h, h']

theorem textOr_of_get {v : Vars} {n t : Word} (h : v.getText n = .ok t) (dflt : Word) : v.textOr n dflt = .ok t := by
  unfold Vars.textOr
  rw [if_pos, h]
  unfold Vars.getText at h
  unfold Vars.has
  split at h
  · rename_i hs; rw [hs]; rfl
  · cases h

theorem sizeOr_of_get {v : Vars} {n : Word} {k : Nat} (h : v.getSize n = .ok k) (dflt : Nat) : v.sizeOr n dflt = .ok k := by
  unfold Vars.sizeOr
  rw [if_pos, h]
  unfold Vars.getSize at h
  unfold Vars.has
  split at h
  · rename_i hs; rw [hs]; rfl
  · cases h

theorem textOr_absent {v : Vars} {n : Word} (h : v.has n = false) (dflt : Word) : v.textOr n dflt = .ok dflt := by
  unfold Vars.textOr
  rw [h]; rfl

theorem sizeOr_absent {v : Vars} {n : Word} (h : v.has n = false) (dflt : Nat) : v.sizeOr n dflt = .ok dflt := by
  unfold Vars.sizeOr
  rw [h]; rfl

theorem refuse_false {b : Bool} (h : b = false) (e : Exn) : refuse b e = .ok () := by rw [h]; rfl
theorem refuse_true {b : Bool} (h : b = true) (e : Exn) : refuse b e = .throw e := by rw [h]; rfl

/-- **C103.** The numbers of channels are mandatory: without one of them the program ends with a failure before anything is
created. -/
theorem channels_mandatory {w : World K R} {args : List Word} {v : Vars} (ha : Asked w args v)
    (hn : ∃ cmd file, readWords options true args = .ok cmd ∧ FileOptions options w.files cmd file ∧
      (effective cmd file "input-channels".toList = none ∨ effective cmd file "output-channels".toList = none)) (reads : Nat) :
    main w args reads = ([.flush, .unflush], .exit 1) := by
  obtain ⟨cmd, file, hc, hf, h⟩ := hn
  obtain ⟨cmd', file', hc', hf', hv⟩ := Options.precedence registered ha.1 (by decide)
  rw [hc] at hc'; cases hc'
  have : file' = file := file_unique hf' hf
  subst this
  have hh : ∀ n c, ⟨n, some c, .size⟩ ∈ options → effective cmd file' n = none → v.getSize n = .throw .logicError := by
    intro n c hm he
    have hv := hv _ hm
    dsimp only at hv
    rw [he] at hv
    have h0 : v.value n = none := by simpa using hv
    simp [Vars.getSize, h0]
  obtain ⟨t, ht⟩ := textOr_ok ha (n := "audio-backend".toList) (c := some 'D') (by decide +kernel) "default".toList
  have hp : plan w v = .throw .logicError := by
    unfold plan
    rw [ht, Outcome.ok_bind]
    rcases h with h | h
    · rw [hh _ 'i' (by decide +kernel) h]; rfl
    · cases hi : v.getSize "input-channels".toList with
      | ok i => rw [Outcome.ok_bind, hh _ 'o' (by decide +kernel) h]; rfl
      | throw e =>
        have : e = .logicError := by
          unfold Vars.getSize at hi
          split at hi <;> cases hi
          rfl
        rw [this]; rfl
      | ub =>
        unfold Vars.getSize at hi
        split at hi <;> cases hi
  rw [main_throw ha hp, if_neg (by decide)]

/-- **C103.** More routings than the given maximum are refused before anything is created. -/
theorem too_many_routings {w : World K R} {args : List Word} {v : Vars} (ha : Asked w args v) {i o n : Nat} {text : Word}
    {routings : List R} (hi : v.getSize "input-channels".toList = .ok i) (ho : v.getSize "output-channels".toList = .ok o)
    (ht : v.getText "routings".toList = .ok text) (hr : w.routes text = .ok routings)
    (hm : v.getSize "max-routings".toList = .ok n) (hn : n < routings.length) (reads : Nat) :
    main w args reads = ([.flush, .unflush], .exit 1) := by
  obtain ⟨t, hb⟩ := textOr_ok ha (n := "audio-backend".toList) (c := some 'D') (by decide +kernel) "default".toList
  have h1 := textOr_of_get ht "[]".toList
  have h2 := sizeOr_of_get hm routings.length
  have hp : plan w v = .throw .invalidArgument := by
    unfold plan
    rw [hb, Outcome.ok_bind, hi, Outcome.ok_bind, ho, Outcome.ok_bind, h1, Outcome.ok_bind, hr, Outcome.ok_bind, h2,
      Outcome.ok_bind, refuse_true (decide_eq_true hn), Outcome.throw_bind]
  rw [main_throw ha hp, if_neg (by decide)]

/-! ## What does not hold -/

/-- **C103 (negation, index offsets).** Offsets with a zero step, such as "1:0:4", are not refused with an exit code: the
exception is not a `std::exception`, and the program is aborted. -/
theorem zero_step_aborts {w : World K R} {args : List Word} {v : Vars} (ha : Asked w args v) {i o : Nat}
    (hi : v.getSize "input-channels".toList = .ok i) (ho : v.getSize "output-channels".toList = .ok o)
    (hr : v.has "routings".toList = false) (he : w.routes "[]".toList = .ok [])
    (hm : v.has "max-routings".toList = false) (hl : v.has "max-filter-length".toList = false)
    (hn : v.has "max-filters".toList = false) (is : List ChannelList.Item)
    (ht : v.textOr "filter-file-index-offsets".toList [] = .ok (ChannelList.text is)) (hs : ∀ i ∈ is, i.Small)
    (hz : ∃ i ∈ is, i.ZeroStep) (reads : Nat) : main w args reads = ([.flush], .aborted) := by
  obtain ⟨t, hb⟩ := textOr_ok ha (n := "audio-backend".toList) (c := some 'D') (by decide +kernel) "default".toList
  obtain ⟨f, hf⟩ := textOr_ok ha (n := "filters".toList) (c := none) (by decide +kernel) []
  have hp : plan w v = .throw .cString := by
    unfold plan
    rw [hb, Outcome.ok_bind, hi, Outcome.ok_bind, ho, Outcome.ok_bind, textOr_absent hr, Outcome.ok_bind, he,
      Outcome.ok_bind, sizeOr_absent hm, Outcome.ok_bind, refuse_false (decide_eq_false (Nat.lt_irrefl _)), Outcome.ok_bind,
      sizeOr_absent hl, Outcome.ok_bind, sizeOr_absent hn, Outcome.ok_bind, hf, Outcome.ok_bind, ht, Outcome.ok_bind,
      ChannelList.sequence_zero_step is hs hz, Outcome.throw_bind]
  rw [main_throw ha hp, if_pos rfl]

/-- **C103 (negation, default audio interface).** The default value of the option for the audio interface is a name that no
build of the library knows: without this option the program never plays. -/
theorem no_default_interface {w : World K R} {args : List Word} (jack portaudio : Option Backend)
    (hw : w.interfaces = registerAll (builtin jack portaudio))
    (hn : ∀ cmd file, readWords options true args = .ok cmd → FileOptions options w.files cmd file →
      effective cmd file "audio-backend".toList = none) (p : Plan K R) (spec : Word) (d : Device) :
    ¬ Plays w args p spec d := by
  intro h
  obtain ⟨cmd, file, hr, hf, -, -, -, -, hb, -⟩ := convolver_settings h
  obtain ⟨v, -, -, -, -, -, hc, -⟩ := h
  have he := hn cmd file hr hf
  unfold Options.textSetting at hb
  rw [he] at hb
  have hb := Option.some.inj hb
  rw [hw, ← hb, Application.interface_created] at hc
  have hf : (builtin jack portaudio).find? (fun r => r.1 = "default".toList) = none := by
    rw [List.find?_eq_none]
    intro r hr
    have : r.1 = "Jack".toList ∨ r.1 = "PortAudio".toList := by
      unfold builtin at hr
      rw [List.mem_append] at hr
      cases jack <;> cases portaudio <;> simp only [List.mem_singleton, List.not_mem_nil, or_false, false_or] at hr
      · exact Or.inr (by rw [hr])
      · exact Or.inl (by rw [hr])
      · rcases hr with hr | hr
        · exact Or.inl (by rw [hr])
        · exact Or.inr (by rw [hr])
    rcases this with h | h <;> rw [h] <;> decide +kernel
  rw [hf] at hc
  cases hc

/-! ## Examples -/

/-- A program with PortAudio support; "[7]" is the text of a single routing. -/
def demo (stopped : Outcome Unit) (dsp : Bool) : World Int Nat where
  files := Options.demoFiles
  routes t := if t = "[]".toList then .ok [] else if t = "[7]".toList then .ok [7] else .throw .runtimeError
  sort := FilterMatrix.Demo.sort
  disk := FilterMatrix.Demo.disk
  dsp := dsp
  build p := if p.inputs = 7 then .throw .runtimeError else .ok ()
  flow p := if p.inputs = 8 then .throw .logicError else .ok ()
  interfaces := registerAll (builtin none (some fun b _ =>
    if b.period = 0 then .throw .runtimeError else .ok ⟨.ok (), .ok (), stopped⟩))
  console := Application.typing

/-- The words of a command line. -/
def line (l : List String) : List Word := l.map String.toList

/-- The usual command line: a file with two filters. -/
def usual : List Word := line ["-D", "PortAudio", "-i", "2", "-o", "3", "--filters", "a", "-r", "[7]"]

example : (main (demo (.ok ()) true) usual 1).2 = .waiting := by decide +kernel
example : main (demo (.ok ()) true) usual 2 =
    ([.flush, .convolver, .flow, .interface "PortAudio".toList ⟨2, 3, 48000, 1024⟩ [], .callback, .started, .stopped,
      .unregistered, .unflush, .interfaceGone, .flowGone, .convolverGone], .exit 0) := by decide +kernel
example : ∃ p spec d, Plays (demo (.ok ()) true) usual p spec d ∧ ¬ Typed (demo (.ok ()) true) 1 :=
  (plays_until_q _ _ _).1 (by decide +kernel)
example : (match Options.parse options Options.demoFiles usual with
    | .ok (_, v) => plan (demo (.ok ()) true) v
    | _ => .ub) = .ok ⟨"PortAudio".toList, 2, 3, [7], 1, ⟨2, [[1, 2], [3, 4]]⟩, 1024, 48000, "default".toList⟩ := by
  decide +kernel
example : ∃ v, Asked (demo (.ok ()) true) usual v := by
  obtain ⟨p, s, d, ⟨v, h, -⟩, -⟩ := (plays_until_q (demo (.ok ()) true) usual 1).1 (by decide +kernel)
  exact ⟨v, h⟩
-- failures
example : main (demo (.throw .runtimeError) true) usual 2 =
    ([.flush, .convolver, .flow, .interface "PortAudio".toList ⟨2, 3, 48000, 1024⟩ [], .callback, .started, .interfaceGone,
      .flowGone, .convolverGone, .unflush], .exit 1) := by decide +kernel
example : main (demo (.ok ()) false) (usual ++ line ["-d"]) 2 = ([.flush, .unflush], .exit 1) := by decide +kernel
example : (main (demo (.ok ()) true) (usual ++ line ["-d"]) 2).2 = .exit 0 := by decide +kernel
example : main (demo (.ok ()) true) (usual ++ line ["--max-routings", "0"]) 2 = ([.flush, .unflush], .exit 1) := by
  decide +kernel
example : main (demo (.ok ()) true) (usual ++ line ["-l", "1"]) 2 = ([.flush, .unflush], .exit 1) := by decide +kernel
example : (main (demo (.ok ()) true) (line ["--list-fft-libraries"]) 0).2 = .exit 0 := by decide +kernel
example : main (demo (.ok ()) true) (line ["-D", "PortAudio", "-i", "2", "--filters", "a"]) 2 =
    ([.flush, .unflush], .exit 1) := by decide +kernel
example : (main (demo (.ok ()) true) (line ["-i", "2", "-o", "3", "--filters", "a"]) 9).2 = .exit 1 := by decide +kernel

-- the hypotheses of `too_many_routings`, `channels_mandatory` and `zero_step_aborts`
example : (match Options.parse options Options.demoFiles (usual ++ line ["--max-routings", "0"]) with
    | .ok (r, v) => decide (r = .success ∧ lists v = .ok false ∧ v.getSize "input-channels".toList = .ok 2 ∧
        v.getSize "output-channels".toList = .ok 3 ∧ v.getText "routings".toList = .ok "[7]".toList ∧
        v.getSize "max-routings".toList = .ok 0)
    | _ => false) = true := by decide +kernel
example : (match Options.parse options Options.demoFiles (line ["-i", "2", "-D", "PortAudio"]),
      readWords options true (line ["-i", "2", "-D", "PortAudio"]) with
    | .ok (r, v), .ok cmd => decide (r = .success ∧ lists v = .ok false ∧ Options.given cmd Options.optionFile = none ∧
        effective cmd [] "output-channels".toList = none)
    | _, _ => false) = true := by decide +kernel
example : (match Options.parse options Options.demoFiles
      (line ["-i", "2", "-o", "3", "--filters", "a", "--filter-file-index-offsets", "1:0:4"]) with
    | .ok (r, v) => decide (r = .success ∧ lists v = .ok false ∧ v.getSize "input-channels".toList = .ok 2 ∧
        v.getSize "output-channels".toList = .ok 3 ∧ v.has "routings".toList = false ∧ v.has "max-routings".toList = false ∧
        v.has "max-filter-length".toList = false ∧ v.has "max-filters".toList = false ∧
        v.textOr "filter-file-index-offsets".toList [] = .ok (ChannelList.text [.stepped 1 0 4]))
    | _ => false) = true := by decide +kernel

/-- **C103 (negation, exceptions outside of the handler).** The option file is read outside of the try block: a file with a
wrong escape sequence aborts the program. So does a zero step in the index offsets. -/
theorem failures_abort :
    main (demo (.ok ()) true) (line ["--option-file", "bad"]) 0 = ([.flush], .aborted) ∧
    main (demo (.ok ()) true) (usual ++ line ["--filter-file-index-offsets", "1:0:4"]) 0 = ([.flush], .aborted) := by
  decide +kernel

/-- **C103 (negation, limits).** The limit 2^64 - 1, also written as -1, means "no limit": a negative number of filters is
accepted. -/
theorem negative_limit_accepted :
    (main (demo (.ok ()) true) (usual ++ line ["--max-filters", "-1"]) 0).2 = .waiting := by
  decide +kernel

end Visr.ConvolverApp
