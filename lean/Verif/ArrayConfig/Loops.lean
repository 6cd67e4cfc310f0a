import Verif.ArrayConfig.Lemmas
import Mathlib.Data.List.Nodup
import Mathlib.Data.List.Induction
import Mathlib.Data.List.Perm.Basic

/-!
# Lemmas: the loops over the nodes of a configuration
-/

namespace Visr.ArrayConfig
open Visr

variable {K : Type}

/-! ### Writing many elements -/

/-- Writes of pairs of an index and a value, one after the other. -/
def setAll {α : Type} (l : List α) (ps : List (Nat × α)) : List α :=
  ps.foldl (fun l p => l.set p.1 p.2) l

theorem setAll_length {α : Type} (ps : List (Nat × α)) (l : List α) :
    (setAll l ps).length = l.length := by
  induction ps generalizing l with
  | nil => rfl
  | cons p ps ih => simp only [setAll, List.foldl_cons] at ih ⊢; rw [ih]; simp

theorem setAll_other {α : Type} (ps : List (Nat × α)) (l : List α) (i : Nat)
    (h : ∀ p ∈ ps, p.1 ≠ i) : (setAll l ps)[i]? = l[i]? := by
  induction ps generalizing l with
  | nil => rfl
  | cons p ps ih =>
    have := ih (l.set p.1 p.2) fun q hq => h q (by simp [hq])
    simp only [setAll, List.foldl_cons] at this ⊢
    rw [this, List.getElem?_set_ne (h p (by simp))]

theorem setAll_get {α : Type} (ps : List (Nat × α)) (l : List α) (i : Nat) (v : α)
    (hn : (ps.map Prod.fst).Nodup) (h : (i, v) ∈ ps) (hi : i < l.length) :
    (setAll l ps)[i]? = some v := by
  induction ps generalizing l with
  | nil => simp at h
  | cons p ps ih =>
    simp only [List.map_cons, List.nodup_cons] at hn
    rcases List.mem_cons.1 h with h | h
    · subst h
      have := setAll_other ps (l.set i v) i fun q hq e => hn.1 (by
        rw [← e]; exact List.mem_map.2 ⟨q, hq, rfl⟩)
      simp only [setAll, List.foldl_cons] at this ⊢
      rw [this]; simp [hi]
    · have := ih (l.set p.1 p.2) hn.2 h (by simpa using hi)
      simpa only [setAll, List.foldl_cons] using this

theorem lastGain_setAll [Zero K] (idx : Id → Nat) (ps : List (Id × K)) (row : List K) (name : Id)
    (hi : ∀ p ∈ ps, p.1 ≠ name → idx p.1 ≠ idx name) (h0 : row[idx name]? = some 0) :
    ∃ g, (setAll row (ps.map fun p => (idx p.1, p.2)))[idx name]? = some g ∧
      LastGain ps name g := by
  induction ps using List.reverseRecOn with
  | nil => exact ⟨0, h0, Or.inr ⟨by simp, rfl⟩⟩
  | append_singleton ps p ih =>
    obtain ⟨g, h1, h2⟩ := ih fun q hq => hi q (by simp [hq])
    have hl : idx name < row.length := by
      by_contra hc
      rw [List.getElem?_eq_none (by omega)] at h0
      simp at h0
    have e : setAll row ((ps ++ [p]).map fun p => (idx p.1, p.2)) =
        (setAll row (ps.map fun p => (idx p.1, p.2))).set (idx p.1) p.2 := by
      simp [setAll]
    rw [e]
    by_cases hp : p.1 = name
    · refine ⟨p.2, ?_, Or.inl ⟨ps, [], ?_, by simp⟩⟩
      · rw [hp]; simp [setAll_length, hl]
      · obtain ⟨a, b⟩ := p; simp only at hp; subst hp; rfl
    · refine ⟨g, ?_, ?_⟩
      · rw [List.getElem?_set_ne (hi p (by simp) hp), h1]
      · rcases h2 with ⟨b, a, e2, h3⟩ | ⟨h3, h4⟩
        · refine Or.inl ⟨b, a ++ [p], by rw [e2]; simp, ?_⟩
          intro q hq
          rcases List.mem_append.1 hq with hq | hq
          · exact h3 q hq
          · simp at hq; subst hq; exact hp
        · refine Or.inr ⟨?_, h4⟩
          intro q hq
          rcases List.mem_append.1 hq with hq | hq
          · exact h3 q hq
          · simp at hq; subst hq; exact hp

theorem put_ok {α : Type} {l r : List α} {i : Nat} {v : α} (h : i < l.length) :
    put l i v = .ok r ↔ r = l.set i v := by
  rw [put, if_pos h]; simp [eq_comm]

theorem put_ub {α : Type} {l : List α} {i : Nat} {v : α} (h : i < l.length) :
    put l i v ≠ .ub := by
  rw [put, if_pos h]; simp

theorem putAt_ok {α : Type} {m r : List (List α)} {row j : Nat} {v : α} {l : List α}
    (h : m[row]? = some l) :
    putAt m row j v = .ok r ↔ j < l.length ∧ r = m.modify row (·.set j v) := by
  have e : m.modify row (·.set j v) = m.set row (l.set j v) := by
    rw [List.modify_eq_set_getElem?, h]; rfl
  rw [putAt, h, e]
  by_cases hj : j < l.length
  · simp [hj, eq_comm]
  · simp [hj]

theorem putAt_ub {α : Type} {m : List (List α)} {row j : Nat} {v : α} {l : List α}
    (h : m[row]? = some l) : putAt m row j v = .ub ↔ ¬ j < l.length := by
  rw [putAt, h]
  by_cases hj : j < l.length <;> simp [hj]

theorem getElem?_modify_self {α : Type} (m : List α) (i : Nat) (f : α → α) :
    (m.modify i f)[i]? = m[i]?.map f := by
  simp [List.getElem?_modify]

theorem getElem?_modify_ne {α : Type} (m : List α) {i j : Nat} (f : α → α) (h : i ≠ j) :
    (m.modify i f)[j]? = m[j]? := by
  simp [List.getElem?_modify, h]

theorem foldl_modify {α Y : Type} (row : Nat) (f : Y → Nat × α) (ps : List Y) (m : List (List α)) :
    ps.foldl (fun m p => m.modify row (·.set (f p).1 (f p).2)) m =
      m.modify row (fun l => setAll l (ps.map f)) := by
  induction ps generalizing m with
  | nil =>
    simp only [List.foldl_nil, List.map_nil, setAll]
    apply List.ext_getElem?
    intro i
    by_cases h : row = i
    · subst h; rw [getElem?_modify_self]; simp
    · rw [getElem?_modify_ne _ _ h]
  | cons p ps ih =>
    rw [List.foldl_cons, ih]
    apply List.ext_getElem?
    intro i
    by_cases h : row = i
    · subst h
      rw [getElem?_modify_self, getElem?_modify_self, getElem?_modify_self, Option.map_map]
      rfl
    · rw [getElem?_modify_ne _ _ h, getElem?_modify_ne _ _ h, getElem?_modify_ne _ _ h]

/-! ### Inserting many ids -/

/-- Insertion of pairs of an id and an index, one after the other. -/
def insertAll (ids : List (Id × Nat)) (ps : List (Id × Nat)) : List (Id × Nat) :=
  ps.foldl (fun ids p => insert ids p.1 p.2) ids

theorem find_insertAll_other (ps ids : List (Id × Nat)) (k : Id) (h : k ∉ ps.map Prod.fst) :
    find (insertAll ids ps) k = find ids k := by
  induction ps generalizing ids with
  | nil => rfl
  | cons p ps ih =>
    simp only [List.map_cons, List.mem_cons, not_or] at h
    have := ih (insert ids p.1 p.2) h.2
    simp only [insertAll, List.foldl_cons] at this ⊢
    rw [this, find_insert, if_neg fun e => h.1 e.symm]

theorem find_insertAll (ps ids : List (Id × Nat)) (k : Id) (v : Nat)
    (hn : (ps.map Prod.fst).Nodup) (h : (k, v) ∈ ps) : find (insertAll ids ps) k = some v := by
  induction ps generalizing ids with
  | nil => simp at h
  | cons p ps ih =>
    simp only [List.map_cons, List.nodup_cons] at hn
    rcases List.mem_cons.1 h with h | h
    · subst h
      have := find_insertAll_other ps (insert ids k v) k hn.1
      simp only [insertAll, List.foldl_cons] at this ⊢
      rw [this, find_insert, if_pos rfl]
    · have := ih (insert ids p.1 p.2) hn.2 h
      simpa only [insertAll, List.foldl_cons] using this

theorem keys_insertAll (ps ids : List (Id × Nat)) (h : (ids.map Prod.fst).Nodup) :
    ((insertAll ids ps).map Prod.fst).Nodup := by
  induction ps generalizing ids with
  | nil => exact h
  | cons p ps ih =>
    simp only [insertAll, List.foldl_cons]
    exact ih _ (keys_insert _ _ _ h)

/-! ### Registering the loudspeakers -/

/-- The id and the channel of a loudspeaker node. -/
def RegR (l : Lsp K) (p : Id × Nat) : Prop := l.id = some p.1 ∧ l.channel = .val p.2

theorem checkId_ok {ids : List (Id × Nat)} {id : Id} {u : Unit} :
    checkId ids id = .ok u ↔ validId id = true ∧ find ids id = none := by
  unfold checkId
  cases validId id <;> cases find ids id <;> simp

theorem checkId_ub {ids : List (Id × Nat)} {id : Id} : checkId ids id ≠ .ub := by
  unfold checkId
  split_ifs <;> simp

theorem checkChannel_ok {c : Nat} {u : Unit} : checkChannel c = .ok u ↔ 1 ≤ c := by
  unfold checkChannel
  split_ifs with h <;> simp <;> omega

theorem checkChannel_ub {c : Nat} : checkChannel c ≠ .ub := by
  unfold checkChannel
  split_ifs <;> simp

theorem registerAll_ok {ls : List (Lsp K)} {ids : List (Id × Nat)} {cs : List Nat}
    {s : List (Id × Nat) × List Nat} :
    ls.foldlM register (ids, cs) = .ok s ↔ ∃ ps, List.Forall₂ RegR ls ps ∧
      (∀ p ∈ ps, validId (trim p.1) = true ∧ find ids (trim p.1) = none ∧ 1 ≤ p.2) ∧
      (ps.map fun p => trim p.1).Nodup ∧
      s = (insertAll ids (ps.map fun p => (trim p.1, 0)), cs ++ ps.map Prod.snd) := by
  have key := loop_ok (f := register (K := K)) (R := RegR)
    (C := fun s p => validId (trim p.1) = true ∧ find s.1 (trim p.1) = none ∧ 1 ≤ p.2)
    (g := fun s p => (insert s.1 (trim p.1) 0, s.2 ++ [p.2]))
    (I := fun _ => True) (P := fun _ => True)
    (by
      rintro s x r - -
      simp only [register, bind_ok, getText_ok, entry_get_ok, checkId_ok, checkChannel_ok,
        Outcome.ok.injEq, RegR]
      constructor
      · rintro ⟨t, h1, _, ⟨h2, h3⟩, c, h4, _, h5, rfl⟩
        exact ⟨(t, c), ⟨h1, h4⟩, ⟨h2, h3, h5⟩, rfl⟩
      · rintro ⟨⟨t, c⟩, ⟨h1, h4⟩, ⟨h2, h3, h5⟩, rfl⟩
        exact ⟨t, h1, (), ⟨h2, h3⟩, c, h4, (), h5, rfl⟩)
    (by intros; trivial) ls (ids, cs) s trivial (by intros; trivial)
  rw [key]
  have chain : ∀ (ps : List (Id × Nat)) (ids : List (Id × Nat)) (cs : List Nat),
      (Chain (fun s p => validId (trim p.1) = true ∧ find s.1 (trim p.1) = none ∧ 1 ≤ p.2)
        (fun (s : List (Id × Nat) × List Nat) (p : Id × Nat) =>
          (insert s.1 (trim p.1) 0, s.2 ++ [p.2])) (ids, cs) ps ↔
        (∀ p ∈ ps, validId (trim p.1) = true ∧ find ids (trim p.1) = none ∧ 1 ≤ p.2) ∧
          (ps.map fun p => trim p.1).Nodup) ∧
      ps.foldl (fun (s : List (Id × Nat) × List Nat) (p : Id × Nat) =>
          (insert s.1 (trim p.1) 0, s.2 ++ [p.2])) (ids, cs) =
        (insertAll ids (ps.map fun p => (trim p.1, 0)), cs ++ ps.map Prod.snd) := by
    intro ps
    induction ps with
    | nil => intro ids cs; simp [Chain, insertAll]
    | cons p ps ih =>
      intro ids cs
      obtain ⟨h1, h2⟩ := ih (insert ids (trim p.1) 0) (cs ++ [p.2])
      constructor
      · simp only [Chain, h1, List.map_cons, List.nodup_cons, List.mem_cons, forall_eq_or_imp,
          find_insert]
        constructor
        · rintro ⟨h3, h4, h5⟩
          refine ⟨⟨h3, fun q hq => ?_⟩, ?_, h5⟩
          · obtain ⟨a, b, c⟩ := h4 q hq
            split_ifs at b
            exact ⟨a, b, c⟩
          · intro hm
            obtain ⟨q, hq, e⟩ := List.mem_map.1 hm
            obtain ⟨a, b, c⟩ := h4 q hq
            rw [if_pos e.symm] at b
            simp at b
        · rintro ⟨⟨h3, h4⟩, h5, h6⟩
          refine ⟨h3, fun q hq => ?_, h6⟩
          obtain ⟨a, b, c⟩ := h4 q hq
          refine ⟨a, ?_, c⟩
          rw [if_neg, b]
          intro e
          exact h5 (List.mem_map.2 ⟨q, hq, e.symm⟩)
      · rw [List.foldl_cons, h2]; simp [insertAll]
  constructor
  · rintro ⟨ps, h1, h2, rfl⟩
    obtain ⟨h3, h4⟩ := chain ps ids cs
    exact ⟨ps, h1, (h3.1 h2).1, (h3.1 h2).2, h4⟩
  · rintro ⟨ps, h1, h2, h3, rfl⟩
    obtain ⟨h4, h5⟩ := chain ps ids cs
    exact ⟨ps, h1, h4.2 ⟨h2, h3⟩, h5.symm⟩

theorem registerAll_ub {ls : List (Lsp K)} {s : List (Id × Nat) × List Nat} :
    ls.foldlM register s ≠ .ub :=
  loop_ub (I := fun _ => True) (P := fun _ => True)
    (by
      intro s x _ _
      simp [register, bind_ub, getText_ub, checkId_ub, entry_get_ub, checkChannel_ub])
    (by intros; trivial) ls s trivial (by intros; trivial)

/-! ### Equalisation rows -/

/-- The row of the matrix of filters that an `eq` attribute asks for. -/
def RowOf [Zero K] [One K] (t : Option (EqTable K)) (eq : Option Id) (row : List (Biquad.Coef K)) :
    Prop :=
  match t with
  | none => row = []
  | some t => ∃ f, eqFilter t eq = .ok f ∧ f.length ≤ t.sections ∧
      row = f ++ List.replicate (t.sections - f.length) unitSection

/-- The matrix of filters is present with the right size exactly when there is a table. -/
def EqShape (t : Option (EqTable K)) (o : Nat) (m : Option (List (List (Biquad.Coef K)))) : Prop :=
  (t = none ∧ m = none) ∨ ∃ t' m', t = some t' ∧ m = some m' ∧ m'.length = o

theorem applyEq_ok [Zero K] [One K] {t : Option (EqTable K)} {eq : Option Id} {i o : Nat}
    {m r : Option (List (List (Biquad.Coef K)))} (h : EqShape t o m) (hi : i < o) :
    applyEq t eq i m = .ok r ↔ ∃ row, RowOf t eq row ∧ r = m.map (·.set i row) := by
  rcases h with ⟨rfl, rfl⟩ | ⟨t, m, rfl, rfl, hm⟩
  · simp [applyEq, RowOf, eq_comm]
  · simp only [applyEq, bind_ok, setFilter, RowOf, Outcome.ok.injEq]
    have hm : ¬ i ≥ m.length := by omega
    constructor
    · rintro ⟨f, h1, m', h2, rfl⟩
      rw [if_neg hm] at h2
      split_ifs at h2 with h3
      cases h2
      exact ⟨_, ⟨f, h1, by omega, rfl⟩, rfl⟩
    · rintro ⟨_, ⟨f, h1, h2, rfl⟩, rfl⟩
      refine ⟨f, h1, _, ?_, rfl⟩
      rw [if_neg hm, if_neg (by omega)]

theorem applyEq_ub [Zero K] [One K] {t : Option (EqTable K)} {eq : Option Id} {i : Nat}
    {m : Option (List (List (Biquad.Coef K)))} : applyEq t eq i m ≠ .ub := by
  unfold applyEq
  split
  · simp only [ne_eq, bind_ub, eqFilter_ub, false_or, not_exists, not_and]
    rintro f _ h
    rcases h with h | ⟨_, _, h⟩
    · unfold setFilter at h
      split_ifs at h
    · cases h
  · simp

theorem eqShape_set [Zero K] [One K] {t : Option (EqTable K)} {o i : Nat}
    {m : Option (List (List (Biquad.Coef K)))} {row : List (Biquad.Coef K)} (h : EqShape t o m) :
    EqShape t o (m.map (·.set i row)) := by
  rcases h with ⟨rfl, rfl⟩ | ⟨t, m, rfl, rfl, hm⟩
  · exact Or.inl ⟨rfl, rfl⟩
  · exact Or.inr ⟨t, _, rfl, rfl, by simpa using hm⟩

theorem rowOf_iff [Field K] {cfg : Config K} {t : Option (EqTable K)}
    (h : parseEqConfig cfg.eqConfigs = .ok t) {e : EqConfig K} (he : cfg.eqConfigs = [e])
    {eq : Option Id} {row : List (Biquad.Coef K)} : RowOf t eq row ↔ IsEqRow e eq row := by
  rw [parseEqConfig_ok] at h
  rcases h with ⟨h, _⟩ | ⟨e', t', h, rfl, ht⟩
  · rw [he] at h; simp at h
  · rw [he] at h; cases h
    simp only [RowOf, IsEqRow, eqFilter_ok ht]
    constructor
    · rintro ⟨f, h1, h2, h3⟩; exact ⟨t'.sections, f, ht.1, h1, h2, h3⟩
    · rintro ⟨n, f, h0, h1, h2, h3⟩
      rw [ht.1] at h0; cases h0
      exact ⟨f, h1, h2, h3⟩

/-! ### Placing the loudspeakers -/

/-- The contents of a loudspeaker node. -/
structure LRead (K : Type) where
  text : Id
  c : Nat
  p : XYZ K
  g : K × K
  row : List (Biquad.Coef K)

/-- Reading a loudspeaker node. -/
structure LR [Zero K] [One K] (cv : Conv K) (d inf : Bool) (t : Option (EqTable K)) (l : Lsp K)
    (y : LRead K) : Prop where
  text : l.id = some y.text
  c : l.channel = .val y.c
  p : parseCoord cv d inf l.coord = .ok y.p
  g : parseAdjust cv l.adjust = .ok y.g
  row : RowOf t l.eq y.row

/-- The effect of a loudspeaker node. -/
def updL (a : Arr K) (y : LRead K) : Arr K :=
  { a with
    ids := insert a.ids y.text (a.channel.idxOf y.c)
    position := a.position.set (a.channel.idxOf y.c) y.p
    gainAdj := a.gainAdj.set (a.channel.idxOf y.c) y.g.1
    delayAdj := a.delayAdj.set (a.channel.idxOf y.c) y.g.2
    eqs := a.eqs.map (·.set (a.channel.idxOf y.c) y.row) }

/-- The sizes and flags that stay fixed while nodes are placed. -/
structure Shape (d inf : Bool) (t : Option (EqTable K)) (chs : List Nat) (N o : Nat) (a : Arr K) :
    Prop where
  d : a.is2D = d
  inf : a.isInfinite = inf
  chs : a.channel = chs
  pos : a.position.length = N
  gain : a.gainAdj.length = o
  delay : a.delayAdj.length = o
  eqs : EqShape t o a.eqs

theorem place_ok [Zero K] [One K] {cv : Conv K} {d inf : Bool} {t : Option (EqTable K)}
    {chs : List Nat} {N o : Nat} {a r : Arr K} {l : Lsp K} (ha : Shape d inf t chs N o a)
    (hN : chs.length ≤ N) (ho : chs.length ≤ o) (hl : ∀ c, l.channel = .val c → c ∈ chs) :
    place cv t a l = .ok r ↔ ∃ y, LR cv d inf t l y ∧ True ∧ r = updL a y := by
  constructor
  · intro h
    simp only [place, bind_ok, getText_ok, entry_get_ok, Outcome.ok.injEq] at h
    obtain ⟨text, h1, c, h2, p, h3, pos, h4, g, h5, ga, h6, de, h7, eqs, h8, rfl⟩ := h
    have hi : a.channel.idxOf c < chs.length := by
      rw [ha.chs]; exact List.idxOf_lt_length_of_mem (hl c h2)
    rw [put_ok (by rw [ha.pos]; omega)] at h4
    rw [put_ok (by rw [ha.gain]; omega)] at h6
    rw [put_ok (by rw [ha.delay]; omega)] at h7
    rw [applyEq_ok ha.eqs (by omega)] at h8
    obtain ⟨row, h8, rfl⟩ := h8
    subst h4 h6 h7
    rw [ha.d, ha.inf] at h3
    exact ⟨⟨text, c, p, g, row⟩, ⟨h1, h2, h3, h5, h8⟩, trivial, rfl⟩
  · rintro ⟨y, hy, -, rfl⟩
    have hi : a.channel.idxOf y.c < chs.length := by
      rw [ha.chs]; exact List.idxOf_lt_length_of_mem (hl _ hy.c)
    simp only [place, bind_ok, getText_ok, entry_get_ok, Outcome.ok.injEq]
    refine ⟨y.text, hy.text, y.c, hy.c, y.p, by rw [ha.d, ha.inf]; exact hy.p, _,
      (put_ok (by rw [ha.pos]; omega)).2 rfl, y.g, hy.g, _,
      (put_ok (by rw [ha.gain]; omega)).2 rfl, _, (put_ok (by rw [ha.delay]; omega)).2 rfl, _,
      (applyEq_ok ha.eqs (by omega)).2 ⟨y.row, hy.row, rfl⟩, rfl⟩

theorem place_ub [Zero K] [One K] {cv : Conv K} {d inf : Bool} {t : Option (EqTable K)}
    {chs : List Nat} {N o : Nat} {a : Arr K} {l : Lsp K} (ha : Shape d inf t chs N o a)
    (hN : chs.length ≤ N) (ho : chs.length ≤ o) (hl : ∀ c, l.channel = .val c → c ∈ chs) :
    place cv t a l ≠ .ub := by
  simp only [place, bind_ub, getText_ub, entry_get_ub, parseCoord_ub, parseAdjust_ub, applyEq_ub,
    false_or, getText_ok, entry_get_ok, ne_eq, not_exists, not_and, not_or]
  intro text _ c h2
  have hi : a.channel.idxOf c < chs.length := by
    rw [ha.chs]; exact List.idxOf_lt_length_of_mem (hl c h2)
  rintro p - 
  refine ⟨put_ub (by rw [ha.pos]; omega), ?_⟩
  rintro - - g -
  refine ⟨put_ub (by rw [ha.gain]; omega), ?_⟩
  rintro - -
  refine ⟨put_ub (by rw [ha.delay]; omega), ?_⟩
  simp

theorem updL_shape [Zero K] [One K] {d inf : Bool} {t : Option (EqTable K)} {chs : List Nat} {N o : Nat}
    {a : Arr K} (y : LRead K) (ha : Shape d inf t chs N o a) : Shape d inf t chs N o (updL a y) :=
  ⟨ha.d, ha.inf, ha.chs, by simpa [updL] using ha.pos, by simpa [updL] using ha.gain,
    by simpa [updL] using ha.delay, eqShape_set ha.eqs⟩

theorem foldl_updL (ys : List (LRead K)) (a : Arr K) :
    ys.foldl updL a = { a with
      ids := insertAll a.ids (ys.map fun y => (y.text, a.channel.idxOf y.c))
      position := setAll a.position (ys.map fun y => (a.channel.idxOf y.c, y.p))
      gainAdj := setAll a.gainAdj (ys.map fun y => (a.channel.idxOf y.c, y.g.1))
      delayAdj := setAll a.delayAdj (ys.map fun y => (a.channel.idxOf y.c, y.g.2))
      eqs := a.eqs.map fun m => setAll m (ys.map fun y => (a.channel.idxOf y.c, y.row)) } := by
  induction ys generalizing a with
  | nil => simp [insertAll, setAll]
  | cons y ys ih =>
    rw [List.foldl_cons, ih]
    simp only [updL, insertAll, setAll, List.map_cons, List.foldl_cons, Option.map_map,
      Function.comp_def]

theorem foldl_updL_shape [Zero K] [One K] {d inf : Bool} {t : Option (EqTable K)} {chs : List Nat}
    {N o : Nat} (ys : List (LRead K)) (a : Arr K) (ha : Shape d inf t chs N o a) :
    Shape d inf t chs N o (ys.foldl updL a) := by
  induction ys generalizing a with
  | nil => exact ha
  | cons y ys ih => exact ih _ (updL_shape y ha)

theorem chain_true {S Y : Type} (g : S → Y → S) (s : S) (ys : List Y) :
    Chain (fun _ _ => True) g s ys := by
  induction ys generalizing s with
  | nil => trivial
  | cons y ys ih => exact ⟨trivial, ih _⟩

theorem placeAll_ok [Zero K] [One K] {cv : Conv K} {d inf : Bool} {t : Option (EqTable K)}
    {chs : List Nat} {N o : Nat} {a r : Arr K} {ls : List (Lsp K)} (ha : Shape d inf t chs N o a)
    (hN : chs.length ≤ N) (ho : chs.length ≤ o)
    (hl : ∀ l ∈ ls, ∀ c, l.channel = .val c → c ∈ chs) :
    ls.foldlM (place cv t) a = .ok r ↔
      ∃ ys, List.Forall₂ (LR cv d inf t) ls ys ∧ r = ys.foldl updL a := by
  rw [loop_ok (R := LR cv d inf t) (C := fun _ _ => True) (g := updL)
    (I := Shape d inf t chs N o) (P := fun l => ∀ c, l.channel = .val c → c ∈ chs)
    (fun s x r hs hx => place_ok hs hN ho hx) (fun s x y hs _ _ _ => updL_shape y hs) ls a r ha hl]
  constructor
  · rintro ⟨ys, h1, _, h2⟩; exact ⟨ys, h1, h2⟩
  · rintro ⟨ys, h1, h2⟩; exact ⟨ys, h1, chain_true _ _ _, h2⟩

theorem placeAll_ub [Zero K] [One K] {cv : Conv K} {d inf : Bool} {t : Option (EqTable K)}
    {chs : List Nat} {N o : Nat} {a : Arr K} {ls : List (Lsp K)} (ha : Shape d inf t chs N o a)
    (hN : chs.length ≤ N) (ho : chs.length ≤ o)
    (hl : ∀ l ∈ ls, ∀ c, l.channel = .val c → c ∈ chs) :
    ls.foldlM (place cv t) a ≠ .ub := by
  refine loop_ub (I := Shape d inf t chs N o) (P := fun l => ∀ c, l.channel = .val c → c ∈ chs)
    (fun s x hs hx => place_ub hs hN ho hx) ?_ ls a ha hl
  intro s x r hs hx h
  obtain ⟨y, _, _, rfl⟩ := (place_ok hs hN ho hx).1 h
  exact updL_shape y hs

end Visr.ArrayConfig
