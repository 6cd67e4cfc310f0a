import Verif.Options.Lemmas

/-!
# C95: what the options of the applications mean
-/

namespace Visr.Options

/-- The options of an application: distinct names that can be written, and the common options. -/
structure Registered (ds : List Decl) : Prop where
  nodup : (ds.map Decl.long).Nodup
  good : ∀ d ∈ ds, GoodName d.long
  help : ∃ c, ⟨helpFlag, c, .flag⟩ ∈ ds
  version : ∃ c, ⟨versionFlag, c, .flag⟩ ∈ ds
  file : ∃ c, ⟨optionFile, c, .text⟩ ∈ ds

theorem renderer_registered : Registered rendererOptions := by
  refine ⟨by decide +kernel, ?_, ⟨some 'h', by decide +kernel⟩, ⟨some 'v', by decide +kernel⟩, ⟨none, by decide +kernel⟩⟩
  unfold GoodName
  decide +kernel

theorem runner_registered : Registered runnerOptions := by
  refine ⟨by decide +kernel, ?_, ⟨some 'h', by decide +kernel⟩, ⟨some 'v', by decide +kernel⟩, ⟨none, by decide +kernel⟩⟩
  unfold GoodName
  decide +kernel

theorem conclude_vars {v w : Vars} {r : Result} (h : conclude v = .ok (r, w)) : w = v ∧ r ≠ .failure := by
  unfold conclude at h
  split at h
  · cases h; exact ⟨rfl, by decide⟩
  · split at h
    · cases h; exact ⟨rfl, by decide⟩
    · cases h; exact ⟨rfl, by decide⟩
    · cases h
    · cases h
  · cases h
  · cases h

/-- **C95.** After the options are read without a failure, each option has the value given on the command line, else the
one given in the option file which the command line names, else no value (flags: false). -/
theorem precedence {ds : List Decl} (hd : Registered ds) {files : Word → Option Word} {args : List Word} {r : Result}
    {v : Vars} (h : parse ds files args = .ok (r, v)) (hr : r ≠ .failure) :
    ∃ cmd file, readWords ds true args = .ok cmd ∧ FileOptions ds files cmd file ∧
      ∀ d ∈ ds, match effective cmd file d.long with
        | some ws => ∃ val, convert d.kind ws = .ok val ∧ (v.value d.long).map Stored.val = some val
        | none => (v.value d.long).map Stored.val = if d.kind = .flag then some (.flag false) else none := by
  unfold parse at h
  cases hw : readWords ds true args with
  | throw e =>
    rw [hw] at h
    cases h
    exact absurd rfl hr
  | ub => exact absurd hw (readWords_ne_ub _ _ _ _ (Nat.le_refl _))
  | ok cmd =>
    rw [hw] at h
    dsimp only at h
    cases hs : store ds cmd Vars.empty with
    | throw e =>
      rw [hs] at h
      cases h
      exact absurd rfl hr
    | ub => exact absurd hs (store_ne_ub _ _ _)
    | ok v1 =>
      rw [hs] at h
      dsimp only at h
      obtain ⟨c, hc⟩ := hd.file
      have hfile := store_first hd.nodup hs hc optionFile_ne
      dsimp only at hfile
      cases hg : given cmd optionFile with
      | none =>
        rw [hg] at hfile
        have h0 : v1.value optionFile = none := by simpa using hfile.1
        rw [if_neg (by simp [Vars.has, h0])] at h
        obtain ⟨rfl, _⟩ := conclude_vars h
        refine ⟨cmd, [], rfl, by simp [FileOptions, hg], ?_⟩
        intro d hdm
        have hf := store_first hd.nodup hs hdm (hd.good d hdm).1
        unfold effective
        cases hgd : given cmd d.long with
        | some ws =>
          rw [hgd] at hf
          obtain ⟨val, h1, h2, _⟩ := hf
          exact ⟨val, h1, by rw [h2]; rfl⟩
        | none =>
          rw [hgd] at hf
          have h1 := hf.1
          simp only [given, List.find?_nil, Option.map_none, h1]
          split <;> rfl
      | some ws =>
        rw [hg] at hfile
        obtain ⟨val, k1, k2, _⟩ := hfile
        rw [if_pos (by simp [Vars.has, k2])] at h
        match ws, k1 with
        | [f], k1 =>
          simp only [convert, Outcome.ok.injEq] at k1
          subst k1
          simp only [Vars.getText, k2] at h
          cases hff : files f with
          | none =>
            rw [hff] at h
            cases h
            exact absurd rfl hr
          | some text =>
            rw [hff] at h
            dsimp only at h
            split at h
            · cases h
            · cases h
            · rename_i ws2 hws2
              split at h
              · cases h
              · cases h
              · rename_i file hfl
                split at h
                · cases h
                · cases h
                · rename_i v2 hs2
                  obtain ⟨rfl, _⟩ := conclude_vars h
                  refine ⟨cmd, file, rfl, by simp only [FileOptions, hg]; exact ⟨text, ws2, hff, hws2, hfl⟩, ?_⟩
                  intro d hdm
                  have hf := store_first hd.nodup hs hdm (hd.good d hdm).1
                  have hf2 := store_second hd.nodup hs2 hdm (hd.good d hdm).1
                  unfold effective
                  cases hgd : given cmd d.long with
                  | some ws =>
                    rw [hgd] at hf
                    obtain ⟨val, h1, h2, h3⟩ := hf
                    rw [if_pos h3] at hf2
                    exact ⟨val, h1, by rw [hf2 (by rw [h2]; rfl), h2]; rfl⟩
                  | none =>
                    rw [hgd] at hf
                    obtain ⟨h1, h2⟩ := hf
                    rw [if_neg h2] at hf2
                    dsimp only
                    cases hgf : given file d.long with
                    | some ws =>
                      rw [hgf] at hf2
                      obtain ⟨val, e1, e2⟩ := hf2
                      exact ⟨val, e1, by rw [e2]; rfl⟩
                    | none =>
                      rw [hgf] at hf2
                      have e : v.value d.long = withDefaults ds v1.value d.long := hf2
                      rw [e]
                      simp only [withDefaults, h1, findLong_mem hd.nodup hdm]
                      rcases d with ⟨_, _, k⟩
                      cases k <;> simp

theorem storeAll_repeated {ds : List Decl} {n : Word} (hn : n ≠ []) : ∀ (os : List Occ) (m : Word → Option Stored),
    2 ≤ (os.filter fun o => o.key = n).length → ∀ m', storeAll ds [] m os ≠ .ok m'
  | [], _, h, _ => by simp at h
  | o :: os, m, h, m' => by
    intro hc
    by_cases hk : o.key = n
    · have hs := storeAll_spec ds [] (o :: os) m m' hc n hn
      unfold storeAll at hc
      split at hc
      · rename_i m1 h1
        have h2 := storeAll_spec ds [] os m1 m' hc n hn
        have h3 := storeAll_spec ds [] [o] m m1 (by simp only [storeAll, h1]) n hn
        rw [if_neg (by simp)] at h2 h3
        rw [given_cons, if_pos hk] at h3
        obtain ⟨_, val, _, _, e, _⟩ := h3
        have hmem : n ∈ os.map Occ.key := by
          rw [List.filter_cons_of_pos (by simpa using hk)] at h
          have hl : 0 < (os.filter fun o => o.key = n).length := by simp at h; omega
          obtain ⟨x, hx⟩ := List.exists_mem_of_length_pos hl
          obtain ⟨hx1, hx2⟩ := List.mem_filter.1 hx
          simp only [decide_eq_true_eq] at hx2
          exact hx2 ▸ List.mem_map_of_mem hx1
        obtain ⟨ws, hws⟩ := Option.isSome_iff_exists.1 (mem_given hmem)
        rw [hws] at h2
        obtain ⟨_, _, _, _, _, hx⟩ := h2
        exact hx val e
      · cases hc
      · cases hc
    · rw [List.filter_cons_of_neg (by simpa using hk)] at h
      unfold storeAll at hc
      split at hc
      · exact storeAll_repeated hn os _ h m' hc
      · cases hc
      · cases hc

/-- **C95.** An option that is given twice on the command line is a failure, which is reported as such. -/
theorem repeated_refused {ds : List Decl} {files : Word → Option Word} {args : List Word} {os : List Occ} {n : Word}
    (hw : readWords ds true args = .ok os) (hn : n ≠ []) (h2 : 2 ≤ (os.filter fun o => o.key = n).length) :
    parse ds files args = .ok (.failure, Vars.empty) := by
  have : ∃ e, store ds os Vars.empty = .throw e := by
    unfold store
    split
    · rename_i m hm
      exact absurd hm (storeAll_repeated hn os _ h2 m)
    · exact ⟨_, rfl⟩
    · rename_i h; exact absurd h (storeAll_ne_ub _ _ _ _)
  obtain ⟨e, he⟩ := this
  simp only [parse, hw, he]

/-- **C95.** Without an option file, reading the options never throws: every problem is reported as a failure.
(Partial: problems in the option file do throw, see `file_problems_escape`.) -/
theorem no_exception_partial {ds : List Decl} (hd : Registered ds) (files : Word → Option Word) (args : List Word)
    (h : ∀ os, readWords ds true args = .ok os → given os optionFile = none) :
    ∃ r v, parse ds files args = .ok (r, v) := by
  unfold parse
  cases hw : readWords ds true args with
  | throw e => exact ⟨_, _, rfl⟩
  | ub => exact absurd hw (readWords_ne_ub _ _ _ _ (Nat.le_refl _))
  | ok cmd =>
    dsimp only
    cases hs : store ds cmd Vars.empty with
    | throw e => exact ⟨_, _, rfl⟩
    | ub => exact absurd hs (store_ne_ub _ _ _)
    | ok v1 =>
      dsimp only
      have flagVal : ∀ n : Word, n ≠ [] → (∃ c, ⟨n, c, .flag⟩ ∈ ds) → ∃ b, v1.getFlag n = .ok b := by
        rintro n hn ⟨c, hc⟩
        have hf := store_first hd.nodup hs hc hn
        dsimp only at hf
        cases hg : given cmd n with
        | some ws =>
          rw [hg] at hf
          obtain ⟨val, k1, k2, _⟩ := hf
          simp only [convert, Outcome.ok.injEq] at k1
          subst k1
          exact ⟨true, by simp only [Vars.getFlag, k2]⟩
        | none =>
          rw [hg] at hf
          have := hf.1
          simp only [if_true] at this
          exact ⟨false, by simp only [Vars.getFlag, this]⟩
      obtain ⟨c, hc⟩ := hd.file
      have hf := store_first hd.nodup hs hc optionFile_ne
      dsimp only at hf
      rw [h cmd hw] at hf
      have h0 : v1.value optionFile = none := by simpa using hf.1
      rw [if_neg (by simp [Vars.has, h0])]
      obtain ⟨b1, e1⟩ := flagVal _ helpFlag_ne hd.help
      obtain ⟨b2, e2⟩ := flagVal _ versionFlag_ne hd.version
      unfold conclude
      rw [e1]
      cases b1
      · dsimp only
        rw [e2]
        cases b2
        · exact ⟨_, _, rfl⟩
        · exact ⟨_, _, rfl⟩
      · exact ⟨_, _, rfl⟩

/-- **C95 (negation, positional arguments).** A word that is not written like an option has no effect at all. In
particular the array configuration, which is registered as a positional option, cannot be given that way. -/
theorem positional_ignored {ds : List Decl} {files : Word → Option Word} {args : List Word} {w : Word} (h : Plain w) :
    parse ds files (w :: args) = parse ds files args := by
  unfold parse
  rw [readWords_plain h]
  cases readWords ds true args with
  | throw e => rfl
  | ub => rfl
  | ok os => simp only [Outcome.map, store_plain]

/-- **C95 (negation, values of flags).** A word after a flag, such as the "false" in "--low-frequency-panning false", has
no effect: the flag is set. -/
theorem flag_value_ignored {ds : List Decl} (hd : Registered ds) {files : Word → Option Word} {args : List Word}
    {w n : Word} {c : Option Char} (hn : ⟨n, c, .flag⟩ ∈ ds) (h : Plain w) :
    parse ds files (('-' :: '-' :: n) :: w :: args) = parse ds files (('-' :: '-' :: n) :: args) ∧
      ∀ r v, parse ds files (('-' :: '-' :: n) :: w :: args) = .ok (r, v) → r ≠ .failure → v.getFlag n = .ok true := by
  have hg := hd.good _ hn
  have step : ∀ rest, readWords ds true (('-' :: '-' :: n) :: rest) = (readWords ds true rest).map (⟨n, []⟩ :: ·) := by
    intro rest
    rw [readWords.eq_def]
    dsimp only
    rw [if_neg (long_ne hg), readWord_long hg, findLong_mem hd.nodup hn]
    rfl
  have hst : ∀ os, store ds (⟨n, []⟩ :: ⟨[], [w]⟩ :: os) Vars.empty = store ds (⟨n, []⟩ :: os) Vars.empty := by
    intro os
    unfold store
    simp only [storeAll, storeOne_plain, List.map_cons, ne_eq]
    have : ((n : Word) :: ([] : Word) :: os.map Occ.key).filter (fun x => decide ¬x = []) =
        (n :: os.map Occ.key).filter (fun x => decide ¬x = []) := by
      simp [List.filter_cons]
    rw [this]
  refine ⟨?_, ?_⟩
  · unfold parse
    rw [step, step, readWords_plain h]
    cases readWords ds true args with
    | throw e => rfl
    | ub => rfl
    | ok os => simp only [Outcome.map, hst]
  · intro r v hp hr
    obtain ⟨cmd, file, hc, _, hv⟩ := precedence hd hp hr
    rw [step] at hc
    have hgc : given cmd n = some [] := by
      cases hx : readWords ds true (w :: args) with
      | ok os =>
        rw [hx] at hc
        cases hc
        rw [given_cons, if_pos rfl]
      | throw e => rw [hx] at hc; cases hc
      | ub => rw [hx] at hc; cases hc
    have := hv _ hn
    simp only [effective, hgc, convert, Outcome.ok.injEq, exists_eq_left'] at this
    unfold Vars.getFlag
    cases hvv : v.value n with
    | none => rw [hvv] at this; cases this
    | some s =>
      rw [hvv] at this
      rcases s with ⟨x, y⟩
      simp only [Option.map_some, Option.some.injEq] at this
      subst this
      rfl

/-- **C95 (negation, the option file).** Problems of the option file are not reported as a failure but thrown. -/
theorem file_problems_escape {ds : List Decl} (hd : Registered ds) {files : Word → Option Word} {f text : Word}
    (hf : f ≠ []) (hfiles : files f = some text)
    (hbad : ∃ e, fileWords text = .throw e ∨ ∃ ws, fileWords text = .ok ws ∧ readWords ds false ws = .throw e) :
    ∃ e, parse ds files ['@' :: f] = .throw e := by
  obtain ⟨c, hc⟩ := hd.file
  have hr : readWords ds true ['@' :: f] = .ok [⟨optionFile, [f]⟩] := by
    rw [readWords.eq_def]
    dsimp only
    rw [if_neg (by simp)]
    unfold readWord
    simp only [atOption, if_true, if_neg hf, findLong_mem hd.nodup hc, finish, readWords, Outcome.map]
  have hs : ∃ v, store ds [⟨optionFile, [f]⟩] Vars.empty = .ok v := by
    unfold store
    simp only [storeAll, storeOne, Vars.empty, findLong_mem hd.nodup hc, convert]
    rw [if_neg optionFile_ne, if_neg (by simp)]
    exact ⟨_, rfl⟩
  obtain ⟨v, hv⟩ := hs
  have hval := store_first hd.nodup hv hc optionFile_ne
  dsimp only at hval
  rw [given_cons, if_pos rfl] at hval
  obtain ⟨val, k1, k2, _⟩ := hval
  simp only [convert, Outcome.ok.injEq] at k1
  subst k1
  obtain ⟨e, h1 | ⟨ws, h1, h2⟩⟩ := hbad
  · exact ⟨e, by simp only [parse, hr, hv, Vars.has, k2, Option.isSome_some, if_true, Vars.getText, hfiles, h1]⟩
  · exact ⟨e, by simp only [parse, hr, hv, Vars.has, k2, Option.isSome_some, if_true, Vars.getText, hfiles, h1, h2]⟩

theorem readWords_written {ds : List Decl} (hd : Registered ds) : ∀ (opts : List (Word × Word)),
    (∀ o ∈ opts, ∃ d ∈ ds, d.long = o.1 ∧ d.kind ≠ .flag) → (∀ o ∈ opts, looksShort ds o.2 = false) →
    readWords ds false ((opts.flatMap fun o => ['-' :: '-' :: o.1, o.2]) ++ [[]]) =
      .ok (opts.map (fun o => ⟨o.1, [o.2]⟩) ++ [⟨[], [[]]⟩])
  | [], _, _ => by simp [readWords, readWord, Outcome.map]
  | o :: os, h1, h2 => by
    obtain ⟨d, hdm, hl, hk⟩ := h1 o (by simp)
    have hg : GoodName o.1 := hl ▸ hd.good d hdm
    have ih := readWords_written hd os (fun x hx => h1 x (by simp [hx])) fun x hx => h2 x (by simp [hx])
    simp only [List.flatMap_cons, List.cons_append, List.nil_append]
    rw [readWords.eq_def]
    dsimp only
    have hfin : finish ds (findLong ds o.1) none (some o.2) = .ok (⟨o.1, [o.2]⟩, true) := by
      rw [← hl, findLong_mem hd.nodup hdm]
      unfold finish
      dsimp only
      rw [h2 o (by simp)]
      cases hkk : d.kind
      · exact absurd hkk hk
      · rfl
      · rfl
    rw [if_neg (long_ne hg), readWord_long hg]
    simp only [List.head?_cons, hfin, ih, Outcome.map, List.map_cons, List.cons_append]

/-- **C95.** An option file in the documented format, one option and its quoted value per line, gives every option the
value written there, whatever characters it contains. -/
theorem file_values {ds : List Decl} (hd : Registered ds) {files : Word → Option Word} {f : Word}
    {opts : List (Word × Word)} (hf : files f = some (written opts)) (hne : opts ≠ [])
    (h1 : ∀ o ∈ opts, PlainChars o.1 ∧ ∃ d ∈ ds, d.long = o.1 ∧ d.kind ≠ .flag)
    (h2 : ∀ o ∈ opts, looksShort ds o.2 = false) {args : List Word} {cmd : List Occ}
    (hw : readWords ds true args = .ok cmd) (hfile : given cmd optionFile = some [f]) {r : Result} {v : Vars}
    (h : parse ds files args = .ok (r, v)) (hr : r ≠ .failure) {n w : Word} (hm : (n, w) ∈ opts)
    (hnd : (opts.map Prod.fst).Nodup) (hnot : given cmd n = none) {d : Decl} (hdm : d ∈ ds) (hdn : d.long = n) :
    ∃ val, convert d.kind [w] = .ok val ∧ (v.value n).map Stored.val = some val := by
  obtain ⟨cmd', file, hc, hfo, hv⟩ := precedence hd h hr
  rw [hw] at hc
  cases hc
  unfold FileOptions at hfo
  rw [hfile] at hfo
  obtain ⟨text, ws, e1, e2, e3⟩ := hfo
  rw [hf] at e1
  cases e1
  have hnn : written opts ≠ [] := by
    cases opts with
    | nil => exact absurd rfl hne
    | cons o os => simp [written]
  rw [fileWords, if_neg hnn, scan_written opts fun o ho => (h1 o ho).1] at e2
  cases e2
  rw [readWords_written hd opts (fun o ho => (h1 o ho).2) h2] at e3
  cases e3
  have hgf : given (opts.map (fun o => (⟨o.1, [o.2]⟩ : Occ)) ++ [⟨[], [[]]⟩]) n = some [w] := by
    clear hv h2 h1 hne hf hnn
    induction opts with
    | nil => cases hm
    | cons o os ih =>
      rw [List.map_cons, List.cons_append, given_cons]
      simp only [List.map_cons, List.nodup_cons] at hnd
      rcases List.mem_cons.1 hm with e | e
      · rw [← e]; simp
      · have : o.1 ≠ n := fun e' => hnd.1 (e' ▸ List.mem_map_of_mem (f := Prod.fst) e)
        rw [if_neg this]
        exact ih e hnd.2
  have := hv d hdm
  rw [hdn] at this
  simp only [effective, hnot, hgf] at this
  exact this

/-- **C95 (negation, blanks in the option file).** Two blanks between a numeric option and its value make an empty word
the value, and reading the options throws. -/
theorem two_blanks_throw {ds : List Decl} (hd : Registered ds) {files : Word → Option Word} {f n w : Word}
    (hf : f ≠ []) {c : Option Char} (hn : ⟨n, c, .size⟩ ∈ ds) (hp : PlainChars n) (hpw : PlainChars w) (hw : Plain w)
    (hfiles : files f = some (['-', '-'] ++ n ++ [' ', ' '] ++ w)) (hno : n ≠ optionFile) :
    ∃ e, parse ds files ['@' :: f] = .throw e := by
  obtain ⟨c0, hc⟩ := hd.file
  have hr : readWords ds true ['@' :: f] = .ok [⟨optionFile, [f]⟩] := by
    rw [readWords.eq_def]
    dsimp only
    rw [if_neg (by simp)]
    unfold readWord
    simp only [atOption, if_true, if_neg hf, findLong_mem hd.nodup hc, finish, readWords, Outcome.map]
  have hs : ∃ v, store ds [⟨optionFile, [f]⟩] Vars.empty = .ok v := by
    unfold store
    simp only [storeAll, storeOne, Vars.empty, findLong_mem hd.nodup hc, convert]
    rw [if_neg optionFile_ne, if_neg (by simp)]
    exact ⟨_, rfl⟩
  obtain ⟨v, hv⟩ := hs
  have hval := store_first hd.nodup hv hc optionFile_ne
  dsimp only at hval
  rw [given_cons, if_pos rfl] at hval
  obtain ⟨val, k1, k2, _⟩ := hval
  simp only [convert, Outcome.ok.injEq] at k1
  subst k1
  have hnv := store_first hd.nodup hv hn (hd.good _ hn).1
  dsimp only at hnv
  rw [given_cons, if_neg (fun e => hno e.symm)] at hnv
  have hnf : n ∉ v.final := hnv.2
  have hnv0 : v.value n = none := by simpa using hnv.1
  have hpn : PlainChars ('-' :: '-' :: n) := by
    intro x hx
    rcases List.mem_cons.1 hx with rfl | hx
    · decide
    rcases List.mem_cons.1 hx with rfl | hx
    · decide
    exact hp x hx
  have e2 : fileWords (['-', '-'] ++ n ++ [' ', ' '] ++ w) = .ok ['-' :: '-' :: n, [], w] := by
    have e : ['-', '-'] ++ n ++ [' ', ' '] ++ w = ('-' :: '-' :: n) ++ (' ' :: ' ' :: (w ++ [])) := by
      simp
    rw [e, fileWords, if_neg (by simp), scan_plain _ _ _ hpn, scan_sep (by decide), scan_sep (by decide),
      scan_plain _ _ _ hpw, scan.eq_def]
    simp [Outcome.map]
  have hg := hd.good _ hn
  have e3 : readWords ds false ['-' :: '-' :: n, [], w] = .ok [⟨n, [[]]⟩, ⟨[], [w]⟩] := by
    rw [readWords.eq_def]
    dsimp only
    rw [if_neg (long_ne hg), readWord_long hg, findLong_mem hd.nodup hn]
    simp only [finish, List.head?_cons, looksShort, Bool.false_eq_true, if_false, readWords_plain hw, readWords, Outcome.map]
  have e4 : ∃ e, store ds [⟨n, [[]]⟩, ⟨[], [w]⟩] v = .throw e := by
    unfold store
    simp only [storeAll, storeOne, findLong_mem hd.nodup hn, hnv0]
    rw [if_neg hg.1, if_neg hnf]
    exact ⟨.logicError, rfl⟩
  obtain ⟨e, he⟩ := e4
  exact ⟨e, by simp only [parse, hr, hv, Vars.has, k2, Option.isSome_some, if_true, Vars.getText, hfiles, e2, e3, he]⟩

/-! ## Numbers -/

theorem digit_char {d : Nat} (h : d < 10) : digit (Char.ofNat ('0'.toNat + d)) = some d := by
  match d, h with
  | 0, _ | 1, _ | 2, _ | 3, _ | 4, _ | 5, _ | 6, _ | 7, _ | 8, _ | 9, _ => decide

theorem digits_chars : ∀ (l : List Nat) (n : Nat), (∀ d ∈ l, d < 10) →
    digits n (l.map fun d => Char.ofNat ('0'.toNat + d)) = some (l.foldl (fun a d => 10 * a + d) n)
  | [], n, _ => rfl
  | d :: l, n, h => by
    simp only [List.map_cons, digits, digit_char (h d (by simp)), List.foldl_cons]
    exact digits_chars l _ fun x hx => h x (by simp [hx])

/-- The decimal notation of a number. -/
def decimal (l : List Nat) : Word := l.map fun d => Char.ofNat ('0'.toNat + d)

theorem decimal_head {l : List Nat} (h : ∀ d ∈ l, d < 10) : (decimal l).head? ≠ some '-' ∧ (decimal l).head? ≠ some '+' := by
  cases l with
  | nil => simp [decimal]
  | cons d t =>
    have := h d (by simp)
    match d, this with
    | 0, _ | 1, _ | 2, _ | 3, _ | 4, _ | 5, _ | 6, _ | 7, _ | 8, _ | 9, _ =>
      simp only [decimal, List.map_cons, List.head?_cons, ne_eq, Option.some.injEq]
      decide

/-- **C95.** A number written with decimal digits is read as this number; larger numbers than the type can hold are
refused. -/
theorem size_read {l : List Nat} (hl : l ≠ []) (h : ∀ d ∈ l, d < 10) :
    readSize (decimal l) = if l.foldl (fun a d => 10 * a + d) 0 < 2 ^ 64 then some (l.foldl (fun a d => 10 * a + d) 0) else none := by
  obtain ⟨h1, h2⟩ := decimal_head h
  have hb : unsigned (decimal l) = decimal l := by
    unfold unsigned
    split
    · rename_i e; rw [e] at h1; simp at h1
    · rename_i e; rw [e] at h2; simp at h2
    · rfl
  unfold readSize
  rw [hb, if_neg (by simpa [decimal] using hl)]
  rw [show digits 0 (decimal l) = _ from digits_chars l 0 h]
  dsimp only
  by_cases hlt : l.foldl (fun a d => 10 * a + d) 0 < 2 ^ 64
  · rw [if_neg (by omega), if_neg h1, if_pos hlt]
  · rw [if_pos (by omega), if_neg hlt]

/-- **C95 (negation, negative numbers).** Negative numbers are not refused but wrap around. -/
theorem negative_wraps {l : List Nat} (hl : l ≠ []) (h : ∀ d ∈ l, d < 10)
    (h0 : 0 < l.foldl (fun a d => 10 * a + d) 0) (hlt : l.foldl (fun a d => 10 * a + d) 0 < 2 ^ 64) :
    readSize ('-' :: decimal l) = some (2 ^ 64 - l.foldl (fun a d => 10 * a + d) 0) := by
  unfold readSize
  rw [show unsigned ('-' :: decimal l) = decimal l from rfl, if_neg (by simpa [decimal] using hl), show digits 0 (decimal l) = _ from digits_chars l 0 h]
  dsimp only
  rw [if_neg (by omega), if_pos (by simp)]
  congr 1
  omega

/-! ## The settings of the renderers -/

theorem diffusion_ok {α : Type} {table : List (List α)} : ∀ {n : Nat}, n ≤ table.length →
    diffusionFilters table n = .ok (table.take n)
  | 0, _ => by simp [diffusionFilters]
  | n + 1, h => by
    simp only [diffusionFilters, diffusion_ok (table := table) (n := n) (by omega)]
    rw [List.getElem?_eq_getElem (by omega)]
    simp only [List.take_succ, List.getElem?_eq_getElem (show n < table.length by omega), Option.toList_some]

theorem diffusion_ub {α : Type} {table : List (List α)} : ∀ {n : Nat}, table.length < n → diffusionFilters table n = .ub
  | 0, h => by omega
  | n + 1, h => by
    simp only [diffusionFilters]
    by_cases hn : n ≤ table.length
    · rw [diffusion_ok hn]
      dsimp only
      rw [List.getElem?_eq_none (by omega)]
    · rw [diffusion_ub (by omega)]

/-- **C95.** Each loudspeaker gets its own filter of the compiled-in table, in order, if the table is long enough.
(Partial: for more loudspeakers than filters the code reads behind the table.) -/
theorem diffusion_partial {α : Type} (table : List (List α)) (n : Nat) :
    diffusionFilters table n = if n ≤ table.length then .ok (table.take n) else .ub := by
  split_ifs with h
  · exact diffusion_ok h
  · exact diffusion_ub (by omega)

section
variable {ds : List Decl} {v : Vars} {cmd file : List Occ}

/-- The values of the options, as `precedence` gives them. -/
def Holds (ds : List Decl) (v : Vars) (cmd file : List Occ) : Prop :=
  ∀ d ∈ ds, match effective cmd file d.long with
    | some ws => ∃ val, convert d.kind ws = .ok val ∧ (v.value d.long).map Stored.val = some val
    | none => (v.value d.long).map Stored.val = if d.kind = .flag then some (.flag false) else none

theorem sizeOr_eq (h : Holds ds v cmd file) {n : Word} {c : Option Char} (hm : ⟨n, c, .size⟩ ∈ ds) {dflt m : Nat}
    (hv : v.sizeOr n dflt = .ok m) : sizeSetting cmd file n dflt = some m := by
  have := h _ hm
  unfold sizeSetting
  dsimp only at this
  cases he : effective cmd file n with
  | none =>
    rw [he] at this
    have h0 : v.value n = none := by simpa using this
    simp only [Vars.sizeOr, Vars.has, h0, Option.isSome_none, Bool.false_eq_true, if_false, Outcome.ok.injEq] at hv
    simp [hv]
  | some ws =>
    rw [he] at this
    obtain ⟨val, h1, h2⟩ := this
    cases hs : v.value n with
    | none => rw [hs] at h2; cases h2
    | some s =>
      rw [hs] at h2
      simp only [Option.map_some, Option.some.injEq] at h2
      simp only [Vars.sizeOr, Vars.has, hs, Option.isSome_some, if_true, Vars.getSize] at hv
      match ws, h1 with
      | [w], h1 =>
        simp only [convert] at h1
        cases hr : readSize w with
        | none => rw [hr] at h1; cases h1
        | some k =>
          rw [hr] at h1
          cases h1
          rcases s with ⟨x, y⟩
          dsimp only at h2
          subst h2
          simp only [Outcome.ok.injEq] at hv
          simp [hr, hv]

theorem getSize_eq (h : Holds ds v cmd file) {n : Word} {c : Option Char} (hm : ⟨n, c, .size⟩ ∈ ds) {m : Nat}
    (hv : v.getSize n = .ok m) : ∃ w, effective cmd file n = some [w] ∧ readSize w = some m := by
  have hh : v.has n = true := by
    unfold Vars.getSize at hv
    split at hv
    · rename_i e; simp [Vars.has, e]
    · cases hv
  have h1 := fun dflt => sizeOr_eq h hm (dflt := dflt) (m := m) (by rw [Vars.sizeOr, if_pos hh, hv])
  unfold sizeSetting at h1
  cases he : effective cmd file n with
  | none =>
    have a := h1 0
    have b := h1 1
    simp only [he, Option.some.injEq] at a b
    omega
  | some ws =>
    have a := h1 0
    rw [he] at a
    match ws, a with
    | [w], a => exact ⟨w, rfl, a⟩

theorem getText_eq (h : Holds ds v cmd file) {n : Word} {c : Option Char} (hm : ⟨n, c, .text⟩ ∈ ds) {t : Word}
    (hv : v.getText n = .ok t) : effective cmd file n = some [t] := by
  have := h _ hm
  dsimp only at this
  unfold Vars.getText at hv
  split at hv
  · rename_i s d e
    cases hv
    rw [e] at this
    cases he : effective cmd file n with
    | none => rw [he] at this; simp at this
    | some ws =>
      rw [he] at this
      obtain ⟨val, h1, h2⟩ := this
      match ws, h1 with
      | [w], h1 =>
        simp only [convert, Outcome.ok.injEq] at h1
        subst h1
        simp only [Option.map_some, Option.some.injEq, Val.text.injEq] at h2
        rw [h2]
  · cases hv

theorem textOr_eq (h : Holds ds v cmd file) {n : Word} {c : Option Char} (hm : ⟨n, c, .text⟩ ∈ ds) {dflt t : Word}
    (hv : v.textOr n dflt = .ok t) : textSetting cmd file n dflt = some t := by
  unfold Vars.textOr at hv
  split at hv
  · rw [textSetting, getText_eq h hm hv]
  · rename_i hh
    cases hv
    have := h _ hm
    have h0 : v.value n = none := by simpa [Vars.has] using hh
    dsimp only at this
    rw [h0] at this
    unfold textSetting
    cases he : effective cmd file n with
    | none => rfl
    | some ws =>
      rw [he] at this
      obtain ⟨_, _, h2⟩ := this
      cases h2

theorem flagOr_eq (h : Holds ds v cmd file) {n : Word} {c : Option Char} (hm : ⟨n, c, .flag⟩ ∈ ds) {dflt b : Bool}
    (hv : v.flagOr n dflt = .ok b) : b = (effective cmd file n).isSome := by
  have := h _ hm
  dsimp only at this
  cases he : effective cmd file n with
  | none =>
    rw [he] at this
    simp only [if_true, Option.map_eq_some_iff] at this
    obtain ⟨⟨x, y⟩, e1, e2⟩ := this
    dsimp only at e2
    subst e2
    simpa [Vars.flagOr, Vars.has, e1, Vars.getFlag] using hv.symm
  | some ws =>
    rw [he] at this
    obtain ⟨val, h1, h2⟩ := this
    simp only [convert, Outcome.ok.injEq] at h1
    subst h1
    simp only [Option.map_eq_some_iff] at h2
    obtain ⟨⟨x, y⟩, e1, e2⟩ := h2
    dsimp only at e2
    subst e2
    simpa [Vars.flagOr, Vars.has, e1, Vars.getFlag] using hv.symm

theorem has_eq (h : Holds ds v cmd file) {n : Word} {c : Option Char} (hm : ⟨n, c, .text⟩ ∈ ds) :
    v.has n = (effective cmd file n).isSome := by
  have := h _ hm
  dsimp only at this
  unfold Vars.has
  cases he : effective cmd file n with
  | none =>
    rw [he] at this
    have h0 : v.value n = none := by simpa using this
    rw [h0]; rfl
  | some ws =>
    rw [he] at this
    obtain ⟨val, _, h2⟩ := this
    cases hs : v.value n with
    | none => rw [hs] at h2; cases h2
    | some s => rfl

end

theorem bind_ok {α β : Type} {x : Outcome α} {f : α → Outcome β} {b : β} (h : (x >>= f) = .ok b) :
    ∃ a, x = .ok a ∧ f a = .ok b := by
  cases x with
  | ok a => exact ⟨a, rfl, h⟩
  | throw e => cases h
  | ub => cases h

/-- **C95.** The renderers run with the settings given on the command line or in the option file, and with the default
values for all others. -/
theorem renderer_settings {files : Word → Option Word} {arrays : Word → Option Array} {table : List (List Int)}
    {args : List Word} {v : Vars} {s : Settings} (h : parse rendererOptions files args = .ok (.success, v))
    (hs : settings v files arrays table = .ok s) :
    ∃ cmd file cfg arr, readWords rendererOptions true args = .ok cmd ∧ FileOptions rendererOptions files cmd file ∧
      effective cmd file "array-config".toList = some [cfg] ∧ arrays cfg = some arr ∧
      (∃ w, effective cmd file "input-channels".toList = some [w] ∧ readSize w = some s.inputs) ∧
      sizeSetting cmd file "output-channels".toList (arr.regular + arr.subwoofers) = some s.outputs ∧
      sizeSetting cmd file "period".toList 1024 = some s.period ∧
      sizeSetting cmd file "sampling-frequency".toList 44100 = some s.samplingRate ∧
      sizeSetting cmd file "object-eq-sections".toList 0 = some s.eqSections ∧
      sizeSetting cmd file "scene-port".toList 4242 = some s.scenePort ∧
      textSetting cmd file "audio-backend".toList "default".toList = some s.backend ∧
      textSetting cmd file "tracking".toList [] = some s.tracking ∧
      textSetting cmd file "reverb-config".toList "{}".toList = some s.reverb ∧
      s.lowFrequencyPanning = (effective cmd file "low-frequency-panning".toList).isSome ∧
      s.interpolation = max 2048 s.period ∧ s.diffusionRows = table.take arr.regular ∧ arr.regular ≤ table.length := by
  obtain ⟨cmd, file, hc, hf, hv⟩ := precedence renderer_registered h (by decide)
  have hv : Holds rendererOptions v cmd file := hv
  unfold settings at hs
  obtain ⟨cfg, e1, hs⟩ := bind_ok hs
  obtain ⟨arr, e2, hs⟩ := bind_ok hs
  obtain ⟨outputs, e3, hs⟩ := bind_ok hs
  obtain ⟨inputs, e4, hs⟩ := bind_ok hs
  obtain ⟨period, e5, hs⟩ := bind_ok hs
  obtain ⟨eq, e6, hs⟩ := bind_ok hs
  obtain ⟨rate, e7, hs⟩ := bind_ok hs
  obtain ⟨backend, e8, hs⟩ := bind_ok hs
  obtain ⟨port, e9, hs⟩ := bind_ok hs
  obtain ⟨tracking, e10, hs⟩ := bind_ok hs
  obtain ⟨reverb, e11, hs⟩ := bind_ok hs
  obtain ⟨low, e12, hs⟩ := bind_ok hs
  obtain ⟨spec, e13, hs⟩ := bind_ok hs
  obtain ⟨rows, e14, hs⟩ := bind_ok hs
  cases hs
  have ha : arrays cfg = some arr := by
    unfold loadArray at e2
    split at e2
    · rename_i a ha; cases e2; exact ha
    · cases e2
  rw [diffusion_partial] at e14
  split_ifs at e14 with hle
  cases e14
  exact ⟨cmd, file, cfg, arr, hc, hf, getText_eq hv (c := some 'c') (by decide +kernel) e1, ha,
    getSize_eq hv (c := some 'i') (by decide +kernel) e4, sizeOr_eq hv (c := some 'o') (by decide +kernel) e3,
    sizeOr_eq hv (c := some 'p') (by decide +kernel) e5, sizeOr_eq hv (c := some 'f') (by decide +kernel) e7,
    sizeOr_eq hv (c := some 'e') (by decide +kernel) e6, sizeOr_eq hv (c := some 'r') (by decide +kernel) e9,
    textOr_eq hv (c := some 'D') (by decide +kernel) e8, textOr_eq hv (c := none) (by decide +kernel) e10,
    textOr_eq hv (c := none) (by decide +kernel) e11, flagOr_eq hv (c := none) (by decide +kernel) e12, rfl, rfl, hle⟩

/-- **C95.** The configuration of the audio interface is the given text or the content of the given file; giving both is
refused. -/
theorem interface_options {files : Word → Option Word} {args : List Word} {v : Vars}
    (h : parse rendererOptions files args = .ok (.success, v)) :
    ∃ cmd file, readWords rendererOptions true args = .ok cmd ∧ FileOptions rendererOptions files cmd file ∧
      interfaceOptions v files =
        match effective cmd file "audio-ifc-options".toList, effective cmd file "audio-ifc-option-file".toList with
        | some _, some _ => .throw .invalidArgument
        | some ws, none => match ws with
          | [t] => .ok t
          | _ => .throw .logicError
        | none, some ws => match ws with
          | [f] => match files f with
            | some t => .ok t
            | none => .throw .invalidArgument
          | _ => .throw .logicError
        | none, none => .ok [] := by
  obtain ⟨cmd, file, hc, hf, hv⟩ := precedence renderer_registered h (by decide)
  have hv : Holds rendererOptions v cmd file := hv
  have a1 := has_eq hv (n := "audio-ifc-options".toList) (c := none) (by decide +kernel)
  have a2 := has_eq hv (n := "audio-ifc-option-file".toList) (c := none) (by decide +kernel)
  have g : ∀ n : Word, (⟨n, none, .text⟩ : Decl) ∈ rendererOptions → ∀ ws, effective cmd file n = some ws →
      ∃ t, ws = [t] ∧ v.getText n = .ok t := by
    intro n hn ws hw
    have := hv _ hn
    dsimp only at this
    rw [hw] at this
    obtain ⟨val, h1, h2⟩ := this
    match ws, h1 with
    | [t], h1 =>
      simp only [convert, Outcome.ok.injEq] at h1
      subst h1
      refine ⟨t, rfl, ?_⟩
      unfold Vars.getText
      cases hs : v.value n with
      | none => rw [hs] at h2; cases h2
      | some s =>
        rw [hs] at h2
        rcases s with ⟨x, y⟩
        simp only [Option.map_some, Option.some.injEq] at h2
        subst h2
        rfl
  refine ⟨cmd, file, hc, hf, ?_⟩
  unfold interfaceOptions
  rw [a1, a2]
  cases b1 : effective cmd file "audio-ifc-options".toList with
  | none =>
    cases b2 : effective cmd file "audio-ifc-option-file".toList with
    | none => rfl
    | some ws =>
      obtain ⟨t, rfl, ht⟩ := g _ (by decide +kernel) ws b2
      simp only [Option.isSome_none, Option.isSome_some, Bool.false_and, Bool.false_eq_true, if_false, if_true, ht]
      cases files t <;> rfl
  | some ws =>
    obtain ⟨t, rfl, ht⟩ := g _ (by decide +kernel) ws b1
    cases b2 : effective cmd file "audio-ifc-option-file".toList with
    | none =>
      simp only [Option.isSome_none, Option.isSome_some, Bool.and_false, Bool.false_eq_true, if_false, if_true, ht]
    | some ws2 => rfl

/-! ## Concrete cases and the remaining negations -/

private def words (l : List String) : List Word := l.map String.toList

/-- An option file, another one with a backslash, and one with two blanks. -/
def demoFiles (f : Word) : Option Word :=
  if f = "opts".toList then some "--period 512\n-i=3\n".toList
  else if f = "bad".toList then some "-c C:\\array".toList
  else if f = "blanks".toList then some "--period  512".toList
  else none

/-- Two loudspeakers at the channels 1 and 5, and a big array. -/
def demoArrays (f : Word) : Option Array :=
  if f = "a.xml".toList then some ⟨2, 0, 5⟩ else if f = "big.xml".toList then some ⟨65, 1, 66⟩ else none

/-- The settings with which the renderer runs. -/
def run (args : List String) : Outcome Settings :=
  match parse rendererOptions demoFiles (words args) with
  | .ok (.success, v) => settings v demoFiles demoArrays (List.replicate 64 (List.replicate 63 1))
  | .ok _ => .throw .cString
  | .throw e => .throw e
  | .ub => .ub

-- the command line comes before the file
example : (run ["-c", "a.xml", "--input-channels=2", "@opts"]).map (fun s => (s.inputs, s.period, s.outputs)) =
    .ok (2, 512, 2) := by decide +kernel
example : (run ["-ca.xml", "--option-file", "opts", "-p", "64"]).map (fun s => (s.inputs, s.period, s.interpolation)) =
    .ok (3, 64, 2048) := by decide +kernel
example : (run ["-c", "a.xml", "-i", "2", "-i", "3"]).map (fun s => s.inputs) = .throw .cString := by decide +kernel

/-- **C95 (negation, positional arguments).** The array configuration cannot be given without its option. -/
theorem array_not_positional : (run ["a.xml", "-i", "2"]).map (fun s => s.inputs) = .throw .logicError ∧
    (run ["-c", "a.xml", "-i", "2"]).map (fun s => s.inputs) = .ok 2 := by decide +kernel

/-- **C95 (negation, documented defaults).** The sampling frequency is 44100 Hz instead of the documented 48000 Hz, and
the number of outputs is the number of loudspeakers instead of the largest channel number. -/
theorem default_values : (run ["-c", "a.xml", "-i", "2"]).map (fun s => (s.samplingRate, s.outputs)) = .ok (44100, 2) ∧
    demoArrays "a.xml".toList = some ⟨2, 0, 5⟩ := by decide +kernel

/-- **C95 (negation, flags).** "--low-frequency-panning false" activates low-frequency panning, and
"--low-frequency-panning=false" is refused, although the documentation gives false as a value. -/
theorem low_frequency_false :
    (run ["-c", "a.xml", "-i", "2", "--low-frequency-panning", "false"]).map (fun s => s.lowFrequencyPanning) = .ok true ∧
    (run ["-c", "a.xml", "-i", "2", "--low-frequency-panning=false"]).map (fun s => s.inputs) = .throw .cString ∧
    (run ["-c", "a.xml", "-i", "2"]).map (fun s => s.lowFrequencyPanning) = .ok false := by decide +kernel

/-- **C95 (negation, large arrays).** For an array of more than 64 loudspeakers the renderers read behind the table of
diffusion filters. -/
theorem large_array : (run ["-c", "big.xml", "-i", "2"]).map (fun s => s.inputs) = .ub := by decide +kernel

/-- **C95 (negation, negative numbers).** "--period -1" starts a renderer with 2^64 - 1 samples per block. -/
theorem negative_period : (run ["-c", "a.xml", "-i", "2", "--period", "-1"]).map (fun s => s.period) =
    .ok (2 ^ 64 - 1) := by decide +kernel

/-- **C95 (negation, documented notation).** The notation "-audio-ifc-options=..." of the documentation, with one dash,
is refused by the renderers; the Python runner takes it as the positional arguments of the component. -/
theorem one_dash :
    (run ["-c", "a.xml", "-i", "2", "-audio-ifc-options={}"]).map (fun s => s.inputs) = .throw .cString ∧
    (match parse runnerOptions demoFiles (words ["-audio-ifc-options={}"]) with
      | .ok (r, v) => (r, v.value "positional-arguments".toList, v.value "audio-ifc-options".toList)
      | _ => (.failure, none, none)) =
    (.success, some ⟨.text "udio-ifc-options={}".toList, false⟩, none) := by decide +kernel

-- the hypotheses of `file_problems_escape` and `two_blanks_throw` are met
example : fileWords "-c C:\\array".toList = .throw .runtimeError := by decide +kernel
example : ∃ e, parse rendererOptions demoFiles ['@' :: "bad".toList] = .throw e :=
  file_problems_escape renderer_registered (text := "-c C:\\array".toList) (by decide +kernel) (by decide +kernel)
    ⟨.runtimeError, Or.inl (by decide +kernel)⟩
example : ∃ e, parse rendererOptions demoFiles ['@' :: "blanks".toList] = .throw e :=
  two_blanks_throw renderer_registered (n := "period".toList) (w := "512".toList) (c := some 'p') (by decide +kernel)
    (by decide +kernel) (by unfold PlainChars; decide +kernel) (by unfold PlainChars; decide +kernel)
    (by unfold Plain; decide +kernel) (by decide +kernel) (by decide +kernel)
-- a file in the documented format, with a value that contains quotes, blanks and a backslash
example : fileWords (written [("tracking".toList, "{ \"a\": 1 }\\".toList), ("period".toList, "64".toList)]) =
    .ok (words ["--tracking", "{ \"a\": 1 }\\", "--period", "64", ""]) := by decide +kernel
example : Plain "false".toList ∧ (⟨"low-frequency-panning".toList, none, .flag⟩ : Decl) ∈ rendererOptions := by
  refine ⟨by unfold Plain; decide +kernel, by decide +kernel⟩
example : readSize "1024".toList = some 1024 ∧ readSize "18446744073709551616".toList = none := by decide +kernel

end Visr.Options
