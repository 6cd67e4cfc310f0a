import Verif.ArrayConfig.Virtuals

/-!
# Lemmas: the whole loading function
-/

namespace Visr.ArrayConfig
open Visr

variable {K : Type}

theorem parseDimension_ok {t : Option Id} {d : Bool} :
    parseDimension t = .ok d ↔ (d = true ∧ t = some ['2']) ∨
      (d = false ∧ (t = none ∨ t = some ['3'])) := by
  cases t with
  | none => cases d <;> simp [parseDimension]
  | some t =>
    simp only [parseDimension]
    split_ifs with h1 h2
    · subst h1; cases d <;> simp
    · subst h2; cases d <;> simp
    · cases d <;> simp [h1, h2]

theorem parseDimension_ub {t : Option Id} : parseDimension t ≠ .ub := by
  cases t with
  | none => simp [parseDimension]
  | some t => simp only [parseDimension]; split_ifs <;> simp

/-- The channels in the order of the array. -/
def chansOf (ys : List (LRead K)) : List Nat := sorted (ys.map (·.c))

/-- The ids after the loudspeakers have been placed. -/
def idsOf (ys : List (LRead K)) : List (Id × Nat) :=
  insertAll (insertAll [] (ys.map fun y => (trim y.text, 0)))
    (ys.map fun y => (y.text, (chansOf ys).idxOf y.c))

/-- The array after the loudspeakers have been placed. -/
def afterLsps [Zero K] [One K] (a : Arr K) (cfg : Config K) (d : Bool) (t : Option (EqTable K))
    (ys : List (LRead K)) : Arr K :=
  ys.foldl updL (prepared a cfg d t (insertAll [] (ys.map fun y => (trim y.text, 0))) (chansOf ys))

/-- The array after the virtual loudspeakers have been placed. -/
def afterVirts [Zero K] [One K] (a : Arr K) (cfg : Config K) (d : Bool) (t : Option (EqTable K))
    (ys : List (LRead K)) (vs : List (VRead K)) : Arr K :=
  (vs.zipIdx ys.length).foldl updV (afterLsps a cfg d t ys)

/-- The array before the subwoofers are placed. -/
def beforeSubs [Zero K] [One K] (a : Arr K) (cfg : Config K) (d : Bool) (t : Option (EqTable K))
    (ys : List (LRead K)) (vs : List (VRead K)) (tr : List (Nat × Nat × Option Nat)) : Arr K :=
  { afterVirts a cfg d t ys vs with
    triplets := tr
    subChannels := List.replicate cfg.subwoofers.length 0
    subGains := zeros cfg.subwoofers.length cfg.loudspeakers.length }

/-- The ids after the virtual loudspeakers have been placed. -/
def idsAll (ys : List (LRead K)) (vs : List (VRead K)) : List (Id × Nat) :=
  insertAll (idsOf ys) ((vs.zipIdx ys.length).map fun y => (trim y.1.text, y.2))

/-- A complete reading of a configuration. -/
structure Reads [Field K] (cv : Conv K) (cfg : Config K) (d : Bool) (t : Option (EqTable K))
    (ys : List (LRead K)) (vs : List (VRead K)) (tr : List (Nat × Nat × Option Nat))
    (ss : List (SRead K)) : Prop where
  dim : parseDimension cfg.dimension = .ok d
  eq : parseEqConfig cfg.eqConfigs = .ok t
  lsps : List.Forall₂ (LR cv d (cfg.infinite.getD false) t) cfg.loudspeakers ys
  lspIds : ∀ y ∈ ys, validId (trim y.text) = true ∧ 1 ≤ y.c
  lspNames : (ys.map fun y => trim y.text).Nodup
  virts : List.Forall₂ (VR cv d (cfg.infinite.getD false)) cfg.virtuals vs
  virtIds : ∀ y ∈ vs, validId (trim y.text) = true ∧ find (idsOf ys) (trim y.text) = none ∧
    ∀ p ∈ y.ps, Writable (idsOf ys) ys.length p.1
  virtNames : (vs.map fun y => trim y.text).Nodup
  triplets : List.Forall₂ (TripletR d (idsAll ys vs)) cfg.triplets tr
  subs : List.Forall₂ (SR cv t (idsAll ys vs) ys.length) cfg.subwoofers ss
  channels : (ys.map (·.c) ++ ss.map (·.c)).Nodup

theorem reg_eq [Zero K] [One K] {cv : Conv K} {d inf : Bool} {t : Option (EqTable K)}
    {ls : List (Lsp K)} {ps : List (Id × Nat)} {ys : List (LRead K)}
    (h1 : List.Forall₂ RegR ls ps) (h2 : List.Forall₂ (LR cv d inf t) ls ys) :
    ps = ys.map fun y => (y.text, y.c) := by
  induction h1 generalizing ys with
  | nil => cases h2; rfl
  | cons h _ ih =>
    cases h2 with
    | cons h' h2 =>
      rename_i l p _ _ _ y ys
      rw [List.map_cons, ← ih h2]
      have e1 := h.1.symm.trans h'.text
      have e2 := h.2.symm.trans h'.c
      have e3 : p.1 = y.text := by injection e1
      have e4 : p.2 = y.c := by injection e2
      rw [← e3, ← e4]

theorem reg_of_reads [Zero K] [One K] {cv : Conv K} {d inf : Bool} {t : Option (EqTable K)}
    {ls : List (Lsp K)} {ys : List (LRead K)} (h : List.Forall₂ (LR cv d inf t) ls ys) :
    List.Forall₂ RegR ls (ys.map fun y => (y.text, y.c)) := by
  induction h with
  | nil => exact .nil
  | cons h _ ih => exact .cons ⟨h.text, h.c⟩ ih

theorem chansOf_length (ys : List (LRead K)) : (chansOf ys).length = ys.length := by
  rw [chansOf, (sorted_perm _).length_eq, List.length_map]

theorem prepared_shape [Field K] (a : Arr K) (cfg : Config K) (d : Bool) (t : Option (EqTable K))
    (ids : List (Id × Nat)) (chs : List Nat) :
    Shape d (cfg.infinite.getD false) t chs
      (cfg.loudspeakers.length + cfg.virtuals.length)
      (cfg.loudspeakers.length + cfg.subwoofers.length) (prepared a cfg d t ids chs) := by
  refine ⟨rfl, rfl, rfl, ?_, by simp [prepared], by simp [prepared], ?_⟩
  · simp only [prepared, resize, List.length_append, List.length_take, List.length_replicate]
    omega
  · cases t with
    | none => exact Or.inl ⟨rfl, rfl⟩
    | some t => exact Or.inr ⟨t, _, rfl, rfl, by simp⟩

theorem zeros_rows [Zero K] (v n : Nat) : Rows v n (zeros (K := K) v n) := by
  intro k hk
  exact ⟨List.replicate n 0, by simp [zeros, hk], by simp⟩

theorem afterLsps_shape [Field K] (a : Arr K) (cfg : Config K) (d : Bool) (t : Option (EqTable K))
    (ys : List (LRead K)) :
    Shape d (cfg.infinite.getD false) t (chansOf ys)
      (cfg.loudspeakers.length + cfg.virtuals.length)
      (cfg.loudspeakers.length + cfg.subwoofers.length) (afterLsps a cfg d t ys) :=
  foldl_updL_shape _ _ (prepared_shape _ _ _ _ _ _)

theorem afterLsps_ids [Field K] (a : Arr K) (cfg : Config K) (d : Bool) (t : Option (EqTable K))
    (ys : List (LRead K)) : (afterLsps a cfg d t ys).ids = idsOf ys := by
  rw [afterLsps, foldl_updL]; rfl

theorem afterLsps_rerouting [Field K] (a : Arr K) (cfg : Config K) (d : Bool)
    (t : Option (EqTable K)) (ys : List (LRead K)) :
    (afterLsps a cfg d t ys).reRouting = zeros cfg.virtuals.length cfg.loudspeakers.length := by
  rw [afterLsps, foldl_updL]; rfl

theorem foldl_updV_shape [Field K] {d inf : Bool} {t : Option (EqTable K)}
    {chs : List Nat} {N o : Nat} (ys : List (VRead K × Nat)) (a : Arr K)
    (ha : Shape d inf t chs N o a) : Shape d inf t chs N o (ys.foldl updV a) := by
  induction ys generalizing a with
  | nil => exact ha
  | cons y ys ih =>
    exact ih _ (updV_shape (v := 0) (n := 0) y ⟨ha, fun k hk => by omega⟩).1

theorem afterVirts_shape [Field K] (a : Arr K) (cfg : Config K) (d : Bool) (t : Option (EqTable K))
    (ys : List (LRead K)) (vs : List (VRead K)) :
    Shape d (cfg.infinite.getD false) t (chansOf ys)
      (cfg.loudspeakers.length + cfg.virtuals.length)
      (cfg.loudspeakers.length + cfg.subwoofers.length) (afterVirts a cfg d t ys vs) :=
  foldl_updV_shape _ _ (afterLsps_shape _ _ _ _ _)

theorem afterVirts_ids [Field K] (a : Arr K) (cfg : Config K) (d : Bool) (t : Option (EqTable K))
    (ys : List (LRead K)) (vs : List (VRead K)) :
    (afterVirts a cfg d t ys vs).ids = idsAll ys vs := by
  rw [afterVirts, (foldl_updV_same _ _).2.2.2.2.2.2.2, afterLsps_ids]; rfl

theorem beforeSubs_shape [Field K] (a : Arr K) (cfg : Config K) (d : Bool) (t : Option (EqTable K))
    (ys : List (LRead K)) (vs : List (VRead K)) (tr : List (Nat × Nat × Option Nat))
    (hn : ys.length = cfg.loudspeakers.length) :
    SubShape d (cfg.infinite.getD false) t (chansOf ys)
      (cfg.loudspeakers.length + cfg.virtuals.length) cfg.subwoofers.length (idsAll ys vs)
      (beforeSubs a cfg d t ys vs tr) := by
  obtain ⟨h1, h2, h3, h4, h5, h6, h7⟩ := afterVirts_shape a cfg d t ys vs
  have e : (chansOf ys).length = cfg.loudspeakers.length := by rw [chansOf_length, hn]
  refine ⟨⟨h1, h2, h3, h4, by rw [e]; exact h5, by rw [e]; exact h6, by rw [e]; exact h7⟩, ?_, ?_,
    afterVirts_ids _ _ _ _ _ _⟩
  · rw [e]; exact zeros_rows _ _
  · simp [beforeSubs]

theorem subs_channels [Field K] (a : Arr K) (cfg : Config K) (d : Bool) (t : Option (EqTable K))
    (ys : List (LRead K)) (vs : List (VRead K)) (tr : List (Nat × Nat × Option Nat))
    (ss : List (SRead K)) (hs : ss.length = cfg.subwoofers.length) :
    (ss.zipIdx.foldl updS (beforeSubs a cfg d t ys vs tr)).subChannels = ss.map (·.c) := by
  rw [(foldl_updS_same _ _).2.2.2.2.2.2.2.1]
  apply List.ext_getElem?
  intro i
  by_cases hi : i < ss.length
  · rw [setAll_get _ _ i ss[i].c]
    · simp [hi]
    · rw [List.map_map]
      have : (Prod.fst ∘ fun y : SRead K × Nat => (y.2, y.1.c)) = Prod.snd := rfl
      rw [this, List.zipIdx_map_snd]
      exact List.nodup_range'
    · refine List.mem_map.2 ⟨(ss[i], i), ?_, rfl⟩
      rw [List.mem_zipIdx_iff_getElem?]
      simp
    · simp [beforeSubs]; omega
  · rw [List.getElem?_eq_none, List.getElem?_eq_none]
    · simpa using hi
    · rw [setAll_length]; simp [beforeSubs]; omega

theorem load_iff [Field K] {cv : Conv K} {a r : Arr K} {cfg : Config K} (ha : a.ids = []) :
    load cv a cfg = .ok r ↔ ∃ d t ys vs tr ss, Reads cv cfg d t ys vs tr ss ∧
      r = ss.zipIdx.foldl updS (beforeSubs a cfg d t ys vs tr) := by
  constructor
  · intro h
    simp only [load, bind_ok, Outcome.ok.injEq] at h
    obtain ⟨d, h1, t, h2, s, h3, a1, h4, a2, h5, tr, h6, a3, h7, u, h8, rfl⟩ := h
    rw [ha, registerAll_ok] at h3
    obtain ⟨ps, h9, h10, h11, rfl⟩ := h3
    simp only [List.nil_append] at h4
    have hpl := h9.length_eq
    have hcl : (sorted (ps.map Prod.snd)).length = cfg.loudspeakers.length := by
      rw [(sorted_perm _).length_eq, List.length_map, hpl]
    have hcm : ∀ l ∈ cfg.loudspeakers, ∀ c, l.channel = .val c →
        c ∈ sorted (ps.map Prod.snd) := by
      intro l hl c hc
      obtain ⟨p, hp, hr⟩ := forall₂_left h9 hl
      rw [(sorted_perm _).mem_iff]
      have := hr.2
      rw [hc] at this
      cases this
      exact List.mem_map.2 ⟨p, hp, rfl⟩
    rw [placeAll_ok (prepared_shape _ _ _ _ _ _) (by omega) (by omega) hcm] at h4
    obtain ⟨ys, h12, rfl⟩ := h4
    have hps := reg_eq h9 h12
    have hyl := h12.length_eq
    have e1 : ps.map Prod.snd = ys.map (·.c) := by rw [hps, List.map_map]; rfl
    have e2 : (ps.map fun p => (trim p.1, 0)) = ys.map fun y => (trim y.text, 0) := by
      rw [hps, List.map_map]; rfl
    have ea : ys.foldl updL (prepared a cfg d t (insertAll [] (ps.map fun p => (trim p.1, 0)))
        (sorted (ps.map Prod.snd))) = afterLsps a cfg d t ys := by
      rw [e1, e2]; rfl
    rw [ea] at h5
    have hcl' : (chansOf ys).length = cfg.loudspeakers.length := by rw [chansOf_length, ← hyl]
    rw [← hcl', placeVirtuals_ok (t := t) (o := cfg.loudspeakers.length + cfg.subwoofers.length)
      (d := d) (inf := cfg.infinite.getD false)
      ⟨by rw [hcl']; exact afterLsps_shape a cfg d t ys, by
        rw [afterLsps_rerouting, hcl']; exact zeros_rows _ _⟩] at h5
    obtain ⟨vs, h13, h14, h15, rfl⟩ := h5
    rw [chansOf_length, afterLsps_ids] at h14
    rw [chansOf_length] at h6 h7
    have eb : (vs.zipIdx ys.length).foldl updV (afterLsps a cfg d t ys) =
      afterVirts a cfg d t ys vs := rfl
    rw [eb, afterVirts_ids, (afterVirts_shape a cfg d t ys vs).d, parseTriplets_ok] at h6
    rw [eb] at h7
    have hsub := beforeSubs_shape a cfg d t ys vs tr hyl.symm
    change List.foldlM (placeSub cv t) (beforeSubs a cfg d t ys vs tr) _ = _ at h7
    rw [placeSubs_ok (a := beforeSubs a cfg d t ys vs tr) hsub] at h7
    obtain ⟨ss, h16, rfl⟩ := h7
    rw [checkChannels_ok, subs_channels _ _ _ _ _ _ _ _ h16.length_eq.symm,
      (foldl_updS_same _ _).2.2.1] at h8
    refine ⟨d, t, ys, vs, tr, ss, ⟨h1, h2, h12, ?_, ?_, h13, h14, h15, h6, ?_, ?_⟩, rfl⟩
    · intro y hy
      have := h10 (y.text, y.c) (by rw [hps]; exact List.mem_map.2 ⟨y, hy, rfl⟩)
      exact ⟨this.1, this.2.2⟩
    · rw [hps, List.map_map] at h11; exact h11
    · rw [← chansOf_length]; exact h16
    · refine (List.Perm.append_right _ ?_).nodup_iff.1 h8
      have : (beforeSubs a cfg d t ys vs tr).channel = chansOf ys :=
        (afterVirts_shape a cfg d t ys vs).chs
      rw [this]
      exact sorted_perm _
  · rintro ⟨d, t, ys, vs, tr, ss, hr, rfl⟩
    have hyl := hr.lsps.length_eq
    have hcl : (chansOf ys).length = cfg.loudspeakers.length := by rw [chansOf_length, ← hyl]
    simp only [load, bind_ok, Outcome.ok.injEq]
    refine ⟨d, hr.dim, t, hr.eq, (insertAll [] (ys.map fun y => (trim y.text, 0)), ys.map (·.c)), ?_,
      afterLsps a cfg d t ys, ?_, afterVirts a cfg d t ys vs, ?_, tr, ?_,
      ss.zipIdx.foldl updS (beforeSubs a cfg d t ys vs tr), ?_, (), ?_, rfl⟩
    · rw [ha, registerAll_ok]
      refine ⟨ys.map fun y => (y.text, y.c), ?_, ?_, ?_, ?_⟩
      · exact reg_of_reads hr.lsps
      · intro p hp
        obtain ⟨y, hy, rfl⟩ := List.mem_map.1 hp
        exact ⟨(hr.lspIds y hy).1, rfl, (hr.lspIds y hy).2⟩
      · rw [List.map_map]; exact hr.lspNames
      · rw [List.map_map, List.map_map]; rfl
    · refine (placeAll_ok (prepared_shape _ _ _ _ _ _) ?_ ?_ ?_).2 ⟨ys, hr.lsps, rfl⟩
      · change (chansOf ys).length ≤ _; omega
      · change (chansOf ys).length ≤ _; omega
      · intro l hl c hc
        obtain ⟨y, hy, h⟩ := forall₂_left hr.lsps hl
        have := h.c
        rw [hc] at this
        cases this
        rw [(sorted_perm _).mem_iff]
        exact List.mem_map.2 ⟨y, hy, rfl⟩
    · rw [← hcl, placeVirtuals_ok (t := t)
        (o := cfg.loudspeakers.length + cfg.subwoofers.length)
        (d := d) (inf := cfg.infinite.getD false)
        ⟨by rw [hcl]; exact afterLsps_shape a cfg d t ys, by
          rw [afterLsps_rerouting, hcl]; exact zeros_rows _ _⟩]
      refine ⟨vs, hr.virts, ?_, hr.virtNames, by rw [chansOf_length]; rfl⟩
      rw [chansOf_length, afterLsps_ids]; exact hr.virtIds
    · rw [afterVirts_ids, (afterVirts_shape a cfg d t ys vs).d, parseTriplets_ok]
      exact hr.triplets
    · refine (placeSubs_ok (beforeSubs_shape a cfg d t ys vs tr hyl.symm)).2 ⟨ss, ?_, rfl⟩
      rw [chansOf_length]; exact hr.subs
    · rw [checkChannels_ok, subs_channels _ _ _ _ _ _ _ _ hr.subs.length_eq.symm,
        (foldl_updS_same _ _).2.2.1]
      refine (List.Perm.append_right _ ?_).nodup_iff.2 hr.channels
      have : (beforeSubs a cfg d t ys vs tr).channel = chansOf ys :=
        (afterVirts_shape a cfg d t ys vs).chs
      rw [this]
      exact sorted_perm _

/-! ### The ids of a reading -/

section Ids

variable [Field K] {cv : Conv K} {cfg : Config K} {d : Bool} {t : Option (EqTable K)}
  {ys : List (LRead K)} {vs : List (VRead K)} {tr : List (Nat × Nat × Option Nat)}
  {ss : List (SRead K)}

theorem Reads.plain (_hr : Reads cv cfg d t ys vs tr ss) (hu : ∀ y ∈ ys, trim y.text = y.text) :
    (ys.map fun y => trim y.text) = ys.map (·.text) :=
  List.map_congr_left fun y hy => hu y hy

theorem Reads.find_lsp (hr : Reads cv cfg d t ys vs tr ss) (hu : ∀ y ∈ ys, trim y.text = y.text)
    {y : LRead K} (hy : y ∈ ys) : find (idsOf ys) y.text = some ((chansOf ys).idxOf y.c) := by
  refine find_insertAll _ _ _ _ ?_ (List.mem_map.2 ⟨y, hy, rfl⟩)
  rw [List.map_map]
  have := hr.lspNames
  rw [hr.plain hu] at this
  exact this

theorem Reads.lsp_of_find (hu : ∀ y ∈ ys, trim y.text = y.text)
    {k : Id} {j : Nat} (h : find (idsOf ys) k = some j) : ∃ y ∈ ys, y.text = k := by
  by_contra hc
  have h1 : k ∉ ys.map (·.text) := by
    intro hm
    obtain ⟨y, hy, e⟩ := List.mem_map.1 hm
    exact hc ⟨y, hy, e⟩
  rw [idsOf, find_insertAll_other, find_insertAll_other] at h
  · simp [find] at h
  · rw [List.map_map]
    intro hm
    obtain ⟨y, hy, e⟩ := List.mem_map.1 hm
    exact hc ⟨y, hy, by simpa [hu y hy] using e⟩
  · rw [List.map_map]; exact h1

theorem Reads.chan_mem {y : LRead K} (hy : y ∈ ys) : y.c ∈ chansOf ys := by
  rw [chansOf, (sorted_perm _).mem_iff]; exact List.mem_map.2 ⟨y, hy, rfl⟩

theorem Reads.idx_lt {y : LRead K} (hy : y ∈ ys) : (chansOf ys).idxOf y.c < ys.length := by
  rw [← chansOf_length]
  exact List.idxOf_lt_length_of_mem (Reads.chan_mem hy)

theorem nodup_map_inj {X Y : Type} {f : X → Y} {l : List X} (h : (l.map f).Nodup) {x y : X}
    (hx : x ∈ l) (hy : y ∈ l) (e : f x = f y) : x = y :=
  List.inj_on_of_nodup_map h hx hy e

theorem Reads.chan_nodup (hr : Reads cv cfg d t ys vs tr ss) : (ys.map (·.c)).Nodup :=
  (List.nodup_append.1 hr.channels).1

theorem Reads.idx_inj (hr : Reads cv cfg d t ys vs tr ss) {y z : LRead K} (hy : y ∈ ys) (hz : z ∈ ys)
    (e : (chansOf ys).idxOf y.c = (chansOf ys).idxOf z.c) : y = z := by
  refine nodup_map_inj hr.chan_nodup hy hz ?_
  exact (List.idxOf_inj (Reads.chan_mem hy)).1 e

theorem Reads.virt_pairs :
    ((vs.zipIdx ys.length).map fun y => (trim y.1.text, y.2)).map Prod.fst =
      vs.map fun y => trim y.text := by
  rw [List.map_map]
  have : (Prod.fst ∘ fun y : VRead K × Nat => (trim y.1.text, y.2)) =
      (fun y => trim y.text) ∘ Prod.fst := rfl
  rw [this, ← List.map_map, List.zipIdx_map_fst]

theorem Reads.find_virt (hr : Reads cv cfg d t ys vs tr ss) {k : Nat} {y : VRead K}
    (hy : vs[k]? = some y) : find (idsAll ys vs) (trim y.text) = some (ys.length + k) := by
  refine find_insertAll _ _ _ _ ?_ ?_
  · rw [Reads.virt_pairs]; exact hr.virtNames
  · refine List.mem_map.2 ⟨(y, ys.length + k), ?_, rfl⟩
    rw [List.mk_add_mem_zipIdx_iff_getElem?]; exact hy

theorem Reads.find_keep (hr : Reads cv cfg d t ys vs tr ss) {k : Id} {j : Nat}
    (h : find (idsOf ys) k = some j) : find (idsAll ys vs) k = some j := by
  rw [idsAll, find_insertAll_other, h]
  rw [Reads.virt_pairs]
  intro hm
  obtain ⟨y, hy, rfl⟩ := List.mem_map.1 hm
  rw [(hr.virtIds y hy).2.1] at h
  simp at h

theorem Reads.find_cases (hr : Reads cv cfg d t ys vs tr ss) {k : Id} {j : Nat}
    (h : find (idsAll ys vs) k = some j) : find (idsOf ys) k = some j ∨
      ∃ i y, vs[i]? = some y ∧ trim y.text = k ∧ j = ys.length + i := by
  by_cases hm : k ∈ vs.map fun y => trim y.text
  · obtain ⟨y, hy, rfl⟩ := List.mem_map.1 hm
    obtain ⟨i, hi⟩ := List.mem_iff_getElem?.1 hy
    right
    refine ⟨i, y, hi, rfl, ?_⟩
    rw [hr.find_virt hi] at h
    simp at h; omega
  · left
    rwa [idsAll, find_insertAll_other] at h
    rwa [Reads.virt_pairs]

/-- An index below the number of loudspeakers belongs to a regular loudspeaker. -/
theorem Reads.find_lt (hr : Reads cv cfg d t ys vs tr ss) {k : Id} {j : Nat}
    (h : find (idsAll ys vs) k = some j) (hj : j < ys.length) : find (idsOf ys) k = some j := by
  rcases hr.find_cases h with h | ⟨i, y, _, _, e⟩
  · exact h
  · omega

theorem Reads.all_inj (hr : Reads cv cfg d t ys vs tr ss) (hu : ∀ y ∈ ys, trim y.text = y.text)
    {k k' : Id} {j : Nat} (h : find (idsAll ys vs) k = some j)
    (h' : find (idsAll ys vs) k' = some j) : k = k' := by
  have reg : ∀ {k}, find (idsOf ys) k = some j → j < ys.length := by
    intro k h
    obtain ⟨y, hy, rfl⟩ := Reads.lsp_of_find hu h
    rw [hr.find_lsp hu hy] at h
    cases h
    exact Reads.idx_lt hy
  rcases hr.find_cases h with h1 | ⟨i, y, h1, rfl, e⟩
  · rcases hr.find_cases h' with h2 | ⟨i', y', h2, rfl, e'⟩
    · obtain ⟨y, hy, rfl⟩ := Reads.lsp_of_find hu h1
      obtain ⟨z, hz, rfl⟩ := Reads.lsp_of_find hu h2
      rw [hr.find_lsp hu hy] at h1
      rw [hr.find_lsp hu hz] at h2
      have := hr.idx_inj hy hz (Option.some.inj (h1.trans h2.symm))
      rw [this]
    · have := reg h1; omega
  · rcases hr.find_cases h' with h2 | ⟨i', y', h2, rfl, e'⟩
    · have := reg h2; omega
    · have : i = i' := by omega
      subst this
      rw [h1] at h2; cases h2; rfl

theorem idsAll_keys : ((idsAll ys vs).map Prod.fst).Nodup :=
  keys_insertAll _ _ (keys_insertAll _ _ (keys_insertAll _ _ (by simp)))

theorem Reads.id_of_index (hr : Reads cv cfg d t ys vs tr ss) (hu : ∀ y ∈ ys, trim y.text = y.text)
    {a : Arr K} (ha : a.ids = idsAll ys vs) {k : Id} {j : Nat}
    (h : find (idsAll ys vs) k = some j) : a.idOfIndex j = .ok k := by
  unfold Arr.idOfIndex
  rw [ha]
  cases hf : (idsAll ys vs).find? fun p => p.2 = j with
  | none =>
    have := List.find?_eq_none.1 hf (k, j) (find_mem h)
    simp at this
  | some p =>
    obtain ⟨k', j'⟩ := p
    have h1 := List.find?_some hf
    simp only [decide_eq_true_eq] at h1
    subst h1
    have h2 := mem_find idsAll_keys (List.mem_of_find?_eq_some hf)
    rw [hr.all_inj hu h2 h]

theorem Reads.index_of_id {a : Arr K} (ha : a.ids = idsAll ys vs) {k : Id} {j : Nat} :
    a.indexOfId k = .ok j ↔ find (idsAll ys vs) k = some j := by
  unfold Arr.indexOfId
  rw [ha]
  cases find (idsAll ys vs) k <;> simp

end Ids

end Visr.ArrayConfig
