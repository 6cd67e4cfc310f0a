import Verif.Options.Spec

/-! # Lemmas on options -/

namespace Visr.Options

theorem optionFile_ne : optionFile ≠ [] := by decide +kernel
theorem helpFlag_ne : helpFlag ≠ [] := by decide +kernel
theorem versionFlag_ne : versionFlag ≠ [] := by decide +kernel

theorem given_cons (o : Occ) (os : List Occ) (n : Word) :
    given (o :: os) n = if o.key = n then some o.value else given os n := by
  unfold given
  by_cases h : o.key = n <;> simp [List.find?_cons, h]

theorem convert_ne_ub (k : Kind) (ws : List Word) : convert k ws ≠ .ub := by
  unfold convert
  split
  · simp
  · simp
  · split <;> simp
  · simp

theorem storeOne_ne_ub (ds final m o) : storeOne ds final m o ≠ .ub := by
  unfold storeOne
  split_ifs
  · simp
  · simp
  · split
    · simp
    · split
      · simp
      · split
        · simp
        · simp
        · rename_i h; exact absurd h (convert_ne_ub _ _)

theorem storeAll_ne_ub (ds final) : ∀ (os : List Occ) m, storeAll ds final m os ≠ .ub
  | [], m => by simp [storeAll]
  | o :: os, m => by
    unfold storeAll
    split
    · exact storeAll_ne_ub ds final os _
    · simp
    · rename_i h; exact absurd h (storeOne_ne_ub _ _ _ _)

theorem store_ne_ub (ds os v) : store ds os v ≠ .ub := by
  unfold store
  split
  · simp
  · simp
  · rename_i h; exact absurd h (storeAll_ne_ub _ _ _ _)

theorem finish_ne_ub (ds d a n) : finish ds d a n ≠ .ub := by
  unfold finish
  split
  · simp
  · split
    · split_ifs <;> simp
    · split
      · simp
      · split
        · simp
        · split_ifs <;> simp

theorem readWord_ne_ub (ds e w n) : readWord ds e w n ≠ .ub := by
  unfold readWord
  split
  · exact finish_ne_ub _ _ _ _
  · split
    · split
      · simp
      · exact finish_ne_ub _ _ _ _
    · split_ifs
      · simp
      · exact finish_ne_ub _ _ _ _
      · exact finish_ne_ub _ _ _ _
    · simp

theorem map_ne_ub {A B : Type} {x : Outcome A} {f : A → B} (h : x ≠ .ub) : x.map f ≠ .ub := by
  cases x <;> simp_all [Outcome.map]

theorem readWords_ne_ub (ds e) : ∀ (k : Nat) (ws : List Word), ws.length ≤ k → readWords ds e ws ≠ .ub
  | k, [], _ => by simp [readWords]
  | 0, _ :: _, h => by simp at h
  | k + 1, w :: rest, h => by
    have hl : rest.length ≤ k := by simpa using h
    unfold readWords
    split_ifs
    · simp
    · split
      · exact map_ne_ub (readWords_ne_ub ds e k rest hl)
      · split
        · simp
        · rename_i r' _
          exact map_ne_ub (readWords_ne_ub ds e k r' (by simp at hl; omega))
      · simp
      · rename_i h; exact absurd h (readWord_ne_ub _ _ _ _)

/-- What one call of `store` changes. -/
theorem storeAll_spec (ds : List Decl) (final : List Word) : ∀ (os : List Occ) (m m' : Word → Option Stored),
    storeAll ds final m os = .ok m' → ∀ n : Word, n ≠ [] →
      if n ∈ final then m' n = m n
      else match given os n with
        | none => m' n = m n
        | some ws => ∃ d val, findLong ds n = some d ∧ convert d.kind ws = .ok val ∧ m' n = some ⟨val, false⟩ ∧
            ∀ x, m n ≠ some ⟨x, false⟩
  | [], m, m', h, n, hn => by
    simp only [storeAll, Outcome.ok.injEq] at h
    subst h
    simp [given]
  | o :: os, m, m', h, n, hn => by
    unfold storeAll at h
    split at h
    · rename_i m1 h1
      have ih := storeAll_spec ds final os m1 m' h n hn
      unfold storeOne at h1
      by_cases hf : n ∈ final
      · rw [if_pos hf] at ih ⊢
        rw [ih]
        split_ifs at h1 with k1 k2
        · cases h1; rfl
        · cases h1; rfl
        · split at h1
          · cases h1
          · split at h1
            · cases h1
            · split at h1
              · cases h1
                have : n ≠ o.key := fun e => k2 (e ▸ hf)
                simp [this]
              · cases h1
              · cases h1
      · rw [if_neg hf] at ih ⊢
        rw [given_cons]
        by_cases hk : o.key = n
        · rw [if_pos hk, if_neg (hk ▸ hn), if_neg (hk ▸ hf)] at *
          split at h1
          · cases h1
          · rename_i d hd
            split at h1
            · cases h1
            · rename_i hm
              split at h1
              · rename_i v hv
                cases h1
                rw [hk] at hd hm
                have hmn : ∀ x, m n ≠ some ⟨x, false⟩ := fun x hx => hm x hx
                cases hg : given os n with
                | none =>
                  rw [hg] at ih
                  exact ⟨d, v, hd, hv, by rw [ih]; simp [hk], hmn⟩
                | some ws =>
                  rw [hg] at ih
                  obtain ⟨_, _, _, _, _, hx⟩ := ih
                  exact absurd (by simp [hk]) (hx v)
              · cases h1
              · cases h1
        · rw [if_neg hk]
          have hm1 : m1 n = m n := by
            split_ifs at h1 with k1 k2
            · cases h1; rfl
            · cases h1; rfl
            · split at h1
              · cases h1
              · split at h1
                · cases h1
                · split at h1
                  · cases h1
                    have : n ≠ o.key := fun e => hk e.symm
                    simp [this]
                  · cases h1
                  · cases h1
          rw [hm1] at ih
          exact ih
    · cases h
    · cases h

theorem findLong_mem {ds : List Decl} (hn : (ds.map Decl.long).Nodup) {d : Decl} (hd : d ∈ ds) :
    findLong ds d.long = some d := by
  unfold findLong
  induction ds with
  | nil => cases hd
  | cons e t ih =>
    rw [List.find?_cons]
    simp only [List.map_cons, List.nodup_cons] at hn
    rcases List.mem_cons.1 hd with h | h
    · subst h; simp
    · have : e.long ≠ d.long := fun e' => hn.1 (e' ▸ List.mem_map_of_mem h)
      simp [this]
      simpa using ih hn.2 h

theorem given_mem {os : List Occ} {n : Word} (h : (given os n).isSome) : n ∈ os.map Occ.key := by
  unfold given at h
  rw [Option.isSome_map] at h
  obtain ⟨o, ho⟩ := Option.isSome_iff_exists.1 h
  have h1 := List.mem_of_find?_eq_some ho
  have h2 := List.find?_some ho
  simp only [decide_eq_true_eq] at h2
  exact h2 ▸ List.mem_map_of_mem h1

theorem mem_given {os : List Occ} {n : Word} (h : n ∈ os.map Occ.key) : (given os n).isSome := by
  unfold given
  rw [Option.isSome_map, List.find?_isSome]
  obtain ⟨o, ho, hk⟩ := List.mem_map.1 h
  exact ⟨o, ho, by simp [hk]⟩

/-- The value of one option after `store`. -/
theorem store_first {ds : List Decl} (hn : (ds.map Decl.long).Nodup) {os : List Occ} {v : Vars}
    (h : store ds os Vars.empty = .ok v) {d : Decl} (hd : d ∈ ds) (hne : d.long ≠ []) :
    match given os d.long with
    | some ws => ∃ val, convert d.kind ws = .ok val ∧ v.value d.long = some ⟨val, false⟩ ∧ d.long ∈ v.final
    | none => v.value d.long = (if d.kind = .flag then some ⟨.flag false, true⟩ else none) ∧ d.long ∉ v.final := by
  unfold store at h
  split at h
  · rename_i m hm
    cases h
    have hs := storeAll_spec ds _ os _ m hm d.long hne
    simp only [Vars.empty, List.not_mem_nil, if_false, List.nil_append] at hs ⊢
    cases hg : given os d.long with
    | none =>
      rw [hg] at hs
      refine ⟨?_, ?_⟩
      · have hs' : m d.long = none := hs
        simp only [withDefaults, hs', findLong_mem hn hd]
        rcases d with ⟨_, _, k⟩
        cases k <;> simp
      · intro hc
        have := mem_given (List.mem_filter.1 hc).1
        rw [hg] at this
        cases this
    | some ws =>
      rw [hg] at hs
      obtain ⟨d', val, h1, h2, h3, _⟩ := hs
      rw [findLong_mem hn hd] at h1
      cases h1
      refine ⟨val, h2, ?_, ?_⟩
      · simp only [withDefaults, h3]
      · exact List.mem_filter.2 ⟨given_mem (by rw [hg]; rfl), by simpa using hne⟩
  · cases h
  · cases h

/-- The value of one option after a second call of `store`. -/
theorem store_second {ds : List Decl} (hn : (ds.map Decl.long).Nodup) {os : List Occ} {v w : Vars}
    (h : store ds os v = .ok w) {d : Decl} (hd : d ∈ ds) (hne : d.long ≠ []) :
    if d.long ∈ v.final then (v.value d.long).isSome → w.value d.long = v.value d.long
    else match given os d.long with
      | some ws => ∃ val, convert d.kind ws = .ok val ∧ w.value d.long = some ⟨val, false⟩
      | none => w.value d.long = withDefaults ds v.value d.long := by
  unfold store at h
  split at h
  · rename_i m hm
    cases h
    have hs := storeAll_spec ds _ os _ m hm d.long hne
    by_cases hf : d.long ∈ v.final
    · rw [if_pos hf] at hs ⊢
      intro hi
      obtain ⟨x, hx⟩ := Option.isSome_iff_exists.1 hi
      simp only [withDefaults, hs, hx]
    · rw [if_neg hf] at hs ⊢
      cases hg : given os d.long with
      | none =>
        rw [hg] at hs
        have hs' : m d.long = v.value d.long := hs
        simp only [withDefaults, hs']
      | some ws =>
        rw [hg] at hs
        obtain ⟨d', val, h1, h2, h3, _⟩ := hs
        rw [findLong_mem hn hd] at h1
        cases h1
        exact ⟨val, h2, by simp only [withDefaults, h3]⟩
  · cases h
  · cases h

theorem storeOne_plain (ds final m) (ws : List Word) : storeOne ds final m ⟨[], ws⟩ = .ok m := by
  simp [storeOne]

theorem store_plain (ds os v) (ws : List Word) : store ds (⟨[], ws⟩ :: os) v = store ds os v := by
  unfold store
  simp only [storeAll, storeOne_plain, List.map_cons, ne_eq, not_true_eq_false, decide_false, Bool.false_eq_true,
    not_false_eq_true, List.filter_cons_of_neg]

theorem readWord_plain {ds extra} {w : Word} (h : Plain w) (n) : readWord ds extra w n = .ok (⟨[], [w]⟩, false) := by
  obtain ⟨h1, h2⟩ := h
  unfold readWord
  have : (if extra then atOption w else none) = none := by
    cases extra
    · rfl
    · simp only [if_true]
      unfold atOption
      split
      · simp at h2
      · rfl
  rw [this]
  dsimp only
  split
  · simp at h1
  · simp at h1
  · rfl

theorem plain_ne {w : Word} (h : Plain w) : w ≠ ['-', '-'] := by
  rintro rfl
  exact h.1 rfl

theorem readWords_plain {ds extra} {w : Word} (h : Plain w) (rest) :
    readWords ds extra (w :: rest) = (readWords ds extra rest).map (⟨[], [w]⟩ :: ·) := by
  rw [readWords.eq_def]
  dsimp only
  rw [if_neg (plain_ne h), readWord_plain h]

theorem splitEq_name {n : Word} (h : '=' ∉ n) : splitEq n = (n, none) := by
  unfold splitEq
  have : n.dropWhile (· ≠ '=') = [] := by
    induction n with
    | nil => rfl
    | cons c cs ih =>
      have hc : c ≠ '=' := fun e => h (e ▸ List.mem_cons_self)
      rw [List.dropWhile_cons_of_pos (by simpa using hc)]
      exact ih fun hm => h (List.mem_cons_of_mem _ hm)
  rw [this]

theorem splitEq_value {n v : Word} (h : '=' ∉ n) : splitEq (n ++ '=' :: v) = (n, some v) := by
  have hp : ∀ c ∈ n, decide (c ≠ '=') = true := by
    intro c hc
    simp only [ne_eq, decide_not, Bool.not_eq_eq_eq_not, Bool.not_true, decide_eq_false_iff_not]
    rintro rfl
    exact h hc
  unfold splitEq
  rw [List.dropWhile_append_of_pos hp, List.takeWhile_append_of_pos hp]
  simp

theorem readWord_long {ds extra} {n : Word} (h : GoodName n) (next) :
    readWord ds extra ('-' :: '-' :: n) next = finish ds (findLong ds n) none next := by
  obtain ⟨h1, h2⟩ := h
  unfold readWord
  have : (if extra then atOption ('-' :: '-' :: n) else none) = none := by cases extra <;> rfl
  rw [this]
  dsimp only
  cases n with
  | nil => exact absurd rfl h1
  | cons c cs =>
    show (match splitEq (c :: cs) with
      | (_, some []) => Outcome.throw Exn.logicError
      | (n, v) => finish ds (findLong ds n) v next) = _
    rw [splitEq_name h2]

theorem long_ne {n : Word} (h : GoodName n) : '-' :: '-' :: n ≠ ['-', '-'] := by
  intro e
  have : ('-' :: '-' :: n).length = 2 := by rw [e]; rfl
  simp at this
  exact h.1 this

theorem scan_quoted (rest : Word) : ∀ (w acc : Word),
    scan true acc ((w.flatMap fun c => if c = '"' ∨ c = '\\' then ['\\', c] else [c]) ++ '"' :: rest) =
      scan false (acc ++ w) rest
  | [], acc => by
    rw [List.flatMap_nil, List.nil_append, scan.eq_def]
    simp [isSeparator]
  | c :: cs, acc => by
    rw [List.flatMap_cons, List.append_assoc]
    by_cases h : c = '"' ∨ c = '\\'
    · rw [if_pos h]
      simp only [List.cons_append, List.nil_append]
      rw [scan.eq_def]
      dsimp only
      have hn : c ≠ 'n' := by rcases h with rfl | rfl <;> decide
      rw [if_pos rfl, if_neg hn, if_pos (by rcases h with e | e <;> simp [e]), scan_quoted rest cs (acc ++ [c])]
      simp
    · rw [if_neg h]
      simp only [List.cons_append, List.nil_append]
      rw [scan.eq_def]
      dsimp only
      have h1 : c ≠ '\\' := fun e => h (Or.inr e)
      have h2 : c ≠ '"' := fun e => h (Or.inl e)
      rw [if_neg h1]
      by_cases hs : isSeparator c
      · rw [if_pos hs, if_pos rfl, scan_quoted rest cs (acc ++ [c])]
        simp
      · rw [if_neg hs, if_neg h2, scan_quoted rest cs (acc ++ [c])]
        simp

theorem scan_plain (rest : Word) : ∀ (w acc : Word), PlainChars w → scan false acc (w ++ rest) = scan false (acc ++ w) rest
  | [], acc, _ => by simp
  | c :: cs, acc, h => by
    obtain ⟨h1, h2, h3⟩ := h c (by simp)
    rw [List.cons_append, scan.eq_def]
    dsimp only
    rw [if_neg h1, if_neg (by rw [h3]; decide), if_neg h2, scan_plain rest cs (acc ++ [c]) fun x hx => h x (by simp [hx])]
    simp

theorem scan_sep {c : Char} (h : isSeparator c = true) (acc rest : Word) :
    scan false acc (c :: rest) = (scan false [] rest).map (acc :: ·) := by
  rw [scan.eq_def]
  dsimp only
  have h1 : c ≠ '\\' := by rintro rfl; simp [isSeparator] at h
  rw [if_neg h1, if_pos h, if_neg (by decide)]

theorem scan_quote (acc rest : Word) : scan false acc ('"' :: rest) = scan true acc rest := by
  rw [scan.eq_def]
  simp [isSeparator]

theorem scan_word (w acc rest : Word) : scan false acc (quoted w ++ rest) = scan false (acc ++ w) rest := by
  unfold quoted
  rw [List.cons_append, List.cons_append, List.append_assoc, scan_quote]
  exact scan_quoted rest w acc

/-- The words of a file in the documented format. -/
theorem scan_written : ∀ (opts : List (Word × Word)), (∀ o ∈ opts, PlainChars o.1) →
    scan false [] (written opts) = .ok ((opts.flatMap fun o => ['-' :: '-' :: o.1, o.2]) ++ [[]])
  | [], _ => by
    rw [show written [] = [] from rfl, scan.eq_def]
    rfl
  | o :: os, h => by
    have ho : PlainChars ('-' :: '-' :: o.1) := by
      intro c hc
      rcases List.mem_cons.1 hc with rfl | hc
      · decide
      rcases List.mem_cons.1 hc with rfl | hc
      · decide
      exact h o (by simp) c hc
    have e : written (o :: os) = ('-' :: '-' :: o.1) ++ (' ' :: (quoted o.2 ++ ('\n' :: written os))) := by
      simp [written]
    rw [e, scan_plain _ _ _ ho, scan_sep (by decide), scan_word, scan_sep (by decide),
      scan_written os fun x hx => h x (by simp [hx])]
    simp [Outcome.map]

end Visr.Options
