import Verif.ArrayConfig.Loading

/-!
# Lemmas: the contents of the loaded array, and which configurations are accepted
-/

namespace Visr.ArrayConfig
open Visr

variable {K : Type}

theorem setAll_map {X Y : Type} (f : X → Nat) (g : X → Y) {xs : List X} {l : List Y} {x : X}
    (hn : (xs.map f).Nodup) (hx : x ∈ xs) (hi : f x < l.length) :
    (setAll l (xs.map fun x => (f x, g x)))[f x]? = some (g x) := by
  refine setAll_get _ _ _ _ ?_ (List.mem_map.2 ⟨x, hx, rfl⟩) hi
  rw [List.map_map]; exact hn

theorem setAll_map_other {X Y : Type} (f : X → Nat) (g : X → Y) {xs : List X} {l : List Y} {i : Nat}
    (h : ∀ x ∈ xs, f x ≠ i) : (setAll l (xs.map fun x => (f x, g x)))[i]? = l[i]? := by
  refine setAll_other _ _ _ ?_
  intro p hp
  obtain ⟨x, hx, rfl⟩ := List.mem_map.1 hp
  exact h x hx

theorem zipIdx_snd_nodup {X : Type} (xs : List X) (n : Nat) :
    ((xs.zipIdx n).map Prod.snd).Nodup := by
  rw [List.zipIdx_map_snd]; exact List.nodup_range'

theorem zipIdx_add_nodup {X : Type} (xs : List X) (n m : Nat) :
    ((xs.zipIdx n).map fun x => m + x.2).Nodup := by
  have : ((xs.zipIdx n).map fun x => m + x.2) = ((xs.zipIdx n).map Prod.snd).map (m + ·) := by
    rw [List.map_map]; rfl
  rw [this]
  exact (zipIdx_snd_nodup xs n).map fun a b h => by simpa using h

section

variable [Field K] {cv : Conv K} {cfg : Config K} {d : Bool} {t : Option (EqTable K)}
  {ys : List (LRead K)} {vs : List (VRead K)} {tr : List (Nat × Nat × Option Nat)}
  {ss : List (SRead K)}

/-- The final array. -/
def final (a : Arr K) (cfg : Config K) (d : Bool) (t : Option (EqTable K))
    (ys : List (LRead K)) (vs : List (VRead K)) (tr : List (Nat × Nat × Option Nat))
    (ss : List (SRead K)) : Arr K :=
  ss.zipIdx.foldl updS (beforeSubs a cfg d t ys vs tr)

theorem Reads.idx_nodup (hr : Reads cv cfg d t ys vs tr ss) :
    (ys.map fun y => (chansOf ys).idxOf y.c).Nodup := by
  refine List.Nodup.map_on ?_ hr.chan_nodup.of_map
  intro x hx y hy h
  exact hr.idx_inj hx hy h

theorem afterLsps_fields (a : Arr K) :
    (afterLsps a cfg d t ys).position = setAll (resize a.position (cfg.loudspeakers.length +
        cfg.virtuals.length) ⟨0, 0, 0, false⟩) (ys.map fun y => ((chansOf ys).idxOf y.c, y.p)) ∧
    (afterLsps a cfg d t ys).gainAdj =
      setAll (List.replicate (cfg.loudspeakers.length + cfg.subwoofers.length) 0)
        (ys.map fun y => ((chansOf ys).idxOf y.c, y.g.1)) ∧
    (afterLsps a cfg d t ys).delayAdj =
      setAll (List.replicate (cfg.loudspeakers.length + cfg.subwoofers.length) 0)
        (ys.map fun y => ((chansOf ys).idxOf y.c, y.g.2)) ∧
    (afterLsps a cfg d t ys).eqs = t.map fun t =>
      setAll (List.replicate (cfg.loudspeakers.length + cfg.subwoofers.length)
        (List.replicate t.sections unitSection))
        (ys.map fun y => ((chansOf ys).idxOf y.c, y.row)) := by
  rw [afterLsps, foldl_updL]
  refine ⟨rfl, rfl, rfl, ?_⟩
  cases t <;> rfl

theorem final_fields (a : Arr K) :
    (final a cfg d t ys vs tr ss).position = setAll (afterLsps a cfg d t ys).position
      ((vs.zipIdx ys.length).map fun y => (y.2, y.1.p)) ∧
    (final a cfg d t ys vs tr ss).gainAdj = setAll (afterLsps a cfg d t ys).gainAdj
      (ss.zipIdx.map fun y => (ys.length + y.2, y.1.g.1)) ∧
    (final a cfg d t ys vs tr ss).delayAdj = setAll (afterLsps a cfg d t ys).delayAdj
      (ss.zipIdx.map fun y => (ys.length + y.2, y.1.g.2)) ∧
    (final a cfg d t ys vs tr ss).eqs = ((afterLsps a cfg d t ys).eqs.map fun m => setAll m
      (ss.zipIdx.map fun y => (ys.length + y.2, y.1.row))) ∧
    (final a cfg d t ys vs tr ss).ids = idsAll ys vs ∧
    (final a cfg d t ys vs tr ss).channel = chansOf ys ∧
    (final a cfg d t ys vs tr ss).is2D = d ∧
    (final a cfg d t ys vs tr ss).isInfinite = cfg.infinite.getD false ∧
    (final a cfg d t ys vs tr ss).triplets = tr ∧
    (final a cfg d t ys vs tr ss).reRouting = (afterVirts a cfg d t ys vs).reRouting := by
  obtain ⟨h1, h2, h3, h4, h5, h6, h7, h8, h9, h10, h11⟩ :=
    foldl_updS_same ss.zipIdx (beforeSubs a cfg d t ys vs tr)
  obtain ⟨g1, g2, g3, g4, g5, g6, g7, g8⟩ :=
    foldl_updV_same (vs.zipIdx ys.length) (afterLsps a cfg d t ys)
  have hs := afterVirts_shape a cfg d t ys vs
  have hc : (beforeSubs a cfg d t ys vs tr).channel.length = ys.length := by
    change (afterVirts a cfg d t ys vs).channel.length = _
    rw [hs.chs, chansOf_length]
  rw [hc] at h9 h10 h11
  unfold final
  rw [h1, h2, h3, h4, h5, h6, h7, h9, h10, h11]
  exact ⟨g7, by rw [← g4]; rfl, by rw [← g5]; rfl, by rw [← g6]; rfl, afterVirts_ids _ _ _ _ _ _,
    hs.chs, hs.d, hs.inf, rfl, rfl⟩

theorem final_shape (hr : Reads cv cfg d t ys vs tr ss) (a : Arr K) :
    SubShape d (cfg.infinite.getD false) t (chansOf ys)
      (cfg.loudspeakers.length + cfg.virtuals.length) cfg.subwoofers.length (idsAll ys vs)
      (final a cfg d t ys vs tr ss) := by
  have h0 := beforeSubs_shape a cfg d t ys vs tr hr.lsps.length_eq.symm
  unfold final
  generalize beforeSubs a cfg d t ys vs tr = b at h0
  generalize ss.zipIdx = xs
  induction xs generalizing b with
  | nil => exact h0
  | cons x xs ih => exact ih _ (updS_shape x h0)

theorem planar_iff (hr : Reads cv cfg d t ys vs tr ss) : (d = true) = Planar cfg := by
  rcases parseDimension_ok.1 hr.dim with ⟨rfl, h⟩ | ⟨rfl, h⟩
  · simp [Planar, h]
  · rcases h with h | h <;> simp [Planar, h]

theorem Reads.lsp_name (hu : ∀ y ∈ ys, trim y.text = y.text) {l : Lsp K} {y : LRead K} {name : Id}
    (hy : y ∈ ys) (h : LR cv d (cfg.infinite.getD false) t l y) (hn : HasName l.id name) :
    name = y.text := by
  obtain ⟨s, h1, h2⟩ := hasName_iff.1 hn
  rw [h.text] at h1
  cases h1
  rw [← h2, hu y hy]

theorem Reads.regular_iff (hr : Reads cv cfg d t ys vs tr ss) (hu : ∀ y ∈ ys, trim y.text = y.text)
    {name : Id} : Regular cfg name ↔ ∃ y ∈ ys, y.text = name := by
  constructor
  · rintro ⟨l, hl, hn⟩
    obtain ⟨y, hy, h⟩ := forall₂_left hr.lsps hl
    exact ⟨y, hy, (Reads.lsp_name hu hy h hn).symm⟩
  · rintro ⟨y, hy, rfl⟩
    obtain ⟨l, hl, h⟩ := forall₂_right hr.lsps hy
    exact ⟨l, hl, hasName_iff.2 ⟨_, h.text, hu y hy⟩⟩

theorem Reads.virtual_iff (hr : Reads cv cfg d t ys vs tr ss)
    {name : Id} : Virtual cfg name ↔ ∃ y ∈ vs, trim y.text = name := by
  constructor
  · rintro ⟨l, hl, hn⟩
    obtain ⟨y, hy, h⟩ := forall₂_left hr.virts hl
    obtain ⟨s, h1, h2⟩ := hasName_iff.1 hn
    rw [h.text] at h1
    cases h1
    exact ⟨y, hy, h2⟩
  · rintro ⟨y, hy, rfl⟩
    obtain ⟨l, hl, h⟩ := forall₂_right hr.virts hy
    exact ⟨l, hl, hasName_iff.2 ⟨_, h.text, rfl⟩⟩

theorem Reads.known_iff (hr : Reads cv cfg d t ys vs tr ss) (hu : ∀ y ∈ ys, trim y.text = y.text)
    {name : Id} : (∃ j, find (idsAll ys vs) name = some j) ↔ Regular cfg name ∨ Virtual cfg name := by
  rw [hr.regular_iff hu, hr.virtual_iff]
  constructor
  · rintro ⟨j, h⟩
    rcases hr.find_cases h with h | ⟨i, y, h1, h2, _⟩
    · exact Or.inl (Reads.lsp_of_find hu h)
    · exact Or.inr ⟨y, List.mem_of_getElem? h1, h2⟩
  · rintro (⟨y, hy, rfl⟩ | ⟨y, hy, rfl⟩)
    · exact ⟨_, hr.find_keep (hr.find_lsp hu hy)⟩
    · obtain ⟨i, hi⟩ := List.mem_iff_getElem?.1 hy
      exact ⟨_, hr.find_virt hi⟩

theorem Reads.writable_iff (hr : Reads cv cfg d t ys vs tr ss)
    (hu : ∀ y ∈ ys, trim y.text = y.text) {name : Id} :
    Writable (idsOf ys) ys.length name ↔ Regular cfg name := by
  rw [hr.regular_iff hu]
  constructor
  · rintro ⟨_, j, h, _⟩; exact Reads.lsp_of_find hu h
  · rintro ⟨y, hy, rfl⟩
    refine ⟨?_, _, hr.find_lsp hu hy, Reads.idx_lt hy⟩
    have := (hr.lspIds y hy).1
    rw [hu y hy] at this
    exact (validId_iff.1 this).1

theorem Reads.writable_all (hr : Reads cv cfg d t ys vs tr ss) {name : Id} :
    Writable (idsAll ys vs) ys.length name ↔ Writable (idsOf ys) ys.length name := by
  constructor
  · rintro ⟨h, j, h1, h2⟩; exact ⟨h, j, hr.find_lt h1 h2, h2⟩
  · rintro ⟨h, j, h1, h2⟩; exact ⟨h, j, hr.find_keep h1, h2⟩

theorem lastGain_columns (ids : List (Id × Nat)) (n : Nat) {ps : List (Id × K)} {name : Id} {j : Nat}
    (hw : ∀ p ∈ ps, Writable ids n p.1) (hj : find ids name = some j) (hjn : j < n)
    (hinj : ∀ k, find ids k = some j → k = name) :
    ∃ g, (setAll (List.replicate n (0 : K)) (columns ids ps))[j]? = some g ∧ LastGain ps name g := by
  have := lastGain_setAll (fun k => (find ids k).getD 0) ps (List.replicate n (0 : K)) name
    (by
      intro p hp hne h
      obtain ⟨_, i, hi, _⟩ := hw p hp
      simp only [hi, hj, Option.getD_some] at h
      subst h
      exact hne (hinj _ hi))
    (by simp [hj, hjn])
  simp only [hj, Option.getD_some] at this
  exact this

theorem eqRow_described (hr : Reads cv cfg d t ys vs tr ss) (a : Arr K) {i : Nat} {eq : Option Id}
    {row : List (Biquad.Coef K)} (hrow : RowOf t eq row)
    (hm : ∀ m, (final a cfg d t ys vs tr ss).eqs = some m → m[i]? = some row) :
    EqDescribed cfg (final a cfg d t ys vs tr ss) i eq := by
  have hs := (final_shape hr a).shape.eqs
  rcases parseEqConfig_ok.1 hr.eq with ⟨h1, h2⟩ | ⟨e, t', h1, h2, ht⟩
  · left
    refine ⟨h1, ?_⟩
    rcases hs with ⟨_, h⟩ | ⟨t', m', h, _⟩
    · exact h
    · rw [h2] at h; simp at h
  · right
    rcases hs with ⟨h, _⟩ | ⟨t'', m, h, h3, _⟩
    · rw [h2] at h; simp at h
    · exact ⟨e, m, row, h1, h3, hm m h3, (rowOf_iff hr.eq h1).1 hrow⟩

theorem reads_describes (hr : Reads cv cfg d t ys vs tr ss) (hu : ∀ y ∈ ys, trim y.text = y.text)
    (a : Arr K) : Describes cv cfg (final a cfg d t ys vs tr ss) := by
  obtain ⟨f1, f2, f3, f4, f5, f6, f7, f8, f9, f10⟩ :=
    final_fields (K := K) (cfg := cfg) (d := d) (t := t) (ys := ys) (vs := vs) (tr := tr) (ss := ss) a
  obtain ⟨l1, l2, l3, l4⟩ := afterLsps_fields (K := K) (cfg := cfg) (d := d) (t := t) (ys := ys) a
  have hyl := hr.lsps.length_eq
  have hvl := hr.virts.length_eq
  have hsl := hr.subs.length_eq
  have hsh := final_shape hr a
  have hpl := planar_iff hr
  have hpos : (afterLsps a cfg d t ys).position.length =
      cfg.loudspeakers.length + cfg.virtuals.length := (afterLsps_shape a cfg d t ys).pos
  have hgl : (afterLsps a cfg d t ys).gainAdj.length =
      cfg.loudspeakers.length + cfg.subwoofers.length := (afterLsps_shape a cfg d t ys).gain
  have hdl : (afterLsps a cfg d t ys).delayAdj.length =
      cfg.loudspeakers.length + cfg.subwoofers.length := (afterLsps_shape a cfg d t ys).delay
  have hreg : ∀ name j, Regular cfg name → (final a cfg d t ys vs tr ss).indexOfId name = .ok j →
      find (idsOf ys) name = some j ∧ j < ys.length := by
    intro name j h1 h2
    obtain ⟨y, hy, rfl⟩ := (hr.regular_iff hu).1 h1
    rw [Reads.index_of_id f5] at h2
    have h3 := hr.find_lsp hu hy
    rw [hr.find_keep h3] at h2
    cases h2
    exact ⟨h3, Reads.idx_lt hy⟩
  refine ⟨?_, ?_, ?_, ?_, ?_, ?_, ?_, ?_, ?_, ?_⟩
  · rw [f7, hpl]
  · rw [f8]
    cases h : cfg.infinite <;> simp [Entry.getD]
  · refine ⟨by rw [f6, chansOf_length, hyl], hsh.shape.pos, ?_, ?_, hsh.channels⟩
    · rw [hsh.shape.gain, chansOf_length, hyl]
    · rw [hsh.shape.delay, chansOf_length, hyl]
  · rw [f6]; exact sorted_lt_iff.2 hr.chan_nodup
  · intro l hl name c hn hc
    obtain ⟨y, hy, h⟩ := forall₂_left hr.lsps hl
    have e := Reads.lsp_name hu hy h hn
    subst e
    have ec : y.c = c := by
      have := h.c
      rw [hc] at this
      injection this with this
      exact this.symm
    subst ec
    have hidx := Reads.idx_lt hy
    have hf := hr.find_keep (hr.find_lsp hu hy)
    refine ⟨(chansOf ys).idxOf y.c, (Reads.index_of_id f5).2 hf, hr.id_of_index hu f5 hf, ?_, ?_, ?_,
      ?_, ?_⟩
    · have := List.getElem?_idxOf (Reads.chan_mem hy)
      simp only [Arr.channelOf, element, f6, this]
    · refine ⟨y.p, ?_, ?_⟩
      · rw [f1, setAll_map_other Prod.snd (fun y : VRead K × Nat => y.1.p), l1,
          setAll_map (fun y : LRead K => (chansOf ys).idxOf y.c) (fun y => y.p) hr.idx_nodup hy]
        · simp only [resize, List.length_append, List.length_take, List.length_replicate]; omega
        · rintro ⟨x, i⟩ hx
          have := List.mem_zipIdx hx
          simp only; omega
      · rw [← hpl]; exact parseCoord_ok.1 h.p
    · refine ⟨y.g.1, ?_, (parseAdjust_ok.1 h.g).1⟩
      rw [f2, setAll_map_other (fun y : SRead K × Nat => ys.length + y.2) (fun y => y.1.g.1), l2,
          setAll_map (fun y : LRead K => (chansOf ys).idxOf y.c) (fun y => y.g.1) hr.idx_nodup hy]
      · simp only [List.length_replicate]; omega
      · rintro ⟨x, i⟩ hx
        simp only; omega
    · refine ⟨y.g.2, ?_, (parseAdjust_ok.1 h.g).2⟩
      rw [f3, setAll_map_other (fun y : SRead K × Nat => ys.length + y.2) (fun y => y.1.g.2), l3,
          setAll_map (fun y : LRead K => (chansOf ys).idxOf y.c) (fun y => y.g.2) hr.idx_nodup hy]
      · simp only [List.length_replicate]; omega
      · rintro ⟨x, i⟩ hx
        simp only; omega
    · refine eqRow_described hr a h.row ?_
      intro m hm
      rw [f4, l4] at hm
      cases t with
      | none => simp at hm
      | some t =>
        simp only [Option.map_some, Option.some.injEq] at hm
        subst hm
        rw [setAll_map_other (fun y : SRead K × Nat => ys.length + y.2) (fun y => y.1.row),
          setAll_map (fun y : LRead K => (chansOf ys).idxOf y.c) (fun y => y.row) hr.idx_nodup hy]
        · simp only [List.length_replicate]; omega
        · rintro ⟨x, i⟩ hx
          simp only; omega
  · intro k v name hk hn
    have hkl : k < vs.length := by
      rw [← hvl]; exact (List.getElem?_eq_some_iff.1 hk).1
    have hvk : vs[k]? = some vs[k] := List.getElem?_eq_getElem hkl
    have hV : VR cv d (cfg.infinite.getD false) v vs[k] := by
      obtain ⟨hk', rfl⟩ := List.getElem?_eq_some_iff.1 hk
      exact hr.virts.get hk' hkl
    have hname : trim vs[k].text = name := by
      obtain ⟨s, h1, h2⟩ := hasName_iff.1 hn
      rw [hV.text] at h1
      cases h1; exact h2
    subst hname
    have hf := hr.find_virt hvk
    rw [hyl]
    refine ⟨(Reads.index_of_id f5).2 hf, hr.id_of_index hu f5 hf, vs[k].p, ?_, ?_⟩
    · rw [f1]
      have hm : (vs[k], ys.length + k) ∈ vs.zipIdx ys.length := by
        rw [List.mk_add_mem_zipIdx_iff_getElem?]; exact hvk
      exact setAll_map Prod.snd (fun y : VRead K × Nat => y.1.p) (zipIdx_snd_nodup _ _) hm
        (by simp only [hpos]; omega)
    · rw [← hpl]; exact parseCoord_ok.1 hV.p
  · intro k v hk
    have hkl : k < vs.length := by
      rw [← hvl]; exact (List.getElem?_eq_some_iff.1 hk).1
    have hvk : vs[k]? = some vs[k] := List.getElem?_eq_getElem hkl
    have hV : VR cv d (cfg.infinite.getD false) v vs[k] := by
      obtain ⟨hk', rfl⟩ := List.getElem?_eq_some_iff.1 hk
      exact hr.virts.get hk' hkl
    refine ⟨vs[k].ps, hV.ps, ?_⟩
    intro name j h1 h2
    obtain ⟨h3, h4⟩ := hreg name j h1 h2
    have hids := afterLsps_ids a cfg d t ys
    have hrows := (foldl_updV_rows (n := ys.length) vs (afterLsps a cfg d t ys) ys.length
      (Nat.le_refl _) (by rw [(afterLsps_shape a cfg d t ys).chs, chansOf_length])
      (by rw [hids]; exact fun y hy => (hr.virtIds y hy).2) hr.virtNames).2 k _ hvk
    rw [Nat.sub_self, Nat.zero_add, afterLsps_rerouting, hids] at hrows
    obtain ⟨g, hg1, hg2⟩ := lastGain_columns (K := K) (idsOf ys) ys.length
      (ps := vs[k].ps) (hr.virtIds _ (List.getElem_mem hkl)).2.2 h3 h4
      (fun k' hk' => hr.all_inj hu (hr.find_keep hk') (hr.find_keep h3))
    refine ⟨_, g, ?_, hg1, hg2⟩
    rw [f10]
    change ((vs.zipIdx ys.length).foldl updV (afterLsps a cfg d t ys)).reRouting[k]? = _
    rw [hrows, ← hyl]
    simp only [zeros]
    rw [List.getElem?_replicate, if_pos (by omega)]
    rfl
  · intro name i h
    rw [Reads.index_of_id f5] at h
    exact (hr.known_iff hu).1 ⟨i, h⟩
  · rw [f9]
    refine hr.triplets.imp ?_
    rintro tt x ⟨⟨s1, a1, a2, a3⟩, ⟨s2, b1, b2, b3⟩, hc⟩
    refine ⟨⟨_, hasName_iff.2 ⟨s1, a1, rfl⟩, (Reads.index_of_id f5).2 a2⟩,
      ⟨_, hasName_iff.2 ⟨s2, b1, rfl⟩, (Reads.index_of_id f5).2 b2⟩, ?_⟩
    rcases hc with ⟨h1, h2⟩ | ⟨h1, s3, i, c1, c2, c3, c4⟩
    · exact Or.inl ⟨hpl ▸ h1, h2⟩
    · refine Or.inr ⟨?_, _, i, hasName_iff.2 ⟨s3, c1, rfl⟩, (Reads.index_of_id f5).2 c2, c4⟩
      rw [← hpl, h1]; simp
  · intro k s hk
    have hkl : k < ss.length := by
      rw [← hsl]; exact (List.getElem?_eq_some_iff.1 hk).1
    have hsk : ss[k]? = some ss[k] := List.getElem?_eq_getElem hkl
    have hS : SR cv t (idsAll ys vs) ys.length s ss[k] := by
      obtain ⟨hk', rfl⟩ := List.getElem?_eq_some_iff.1 hk
      exact hr.subs.get hk' hkl
    have hm : (ss[k], k) ∈ ss.zipIdx := by
      rw [List.mk_mem_zipIdx_iff_getElem?]; exact hsk
    refine ⟨⟨ss[k].c, hS.c, ?_⟩, ⟨ss[k].ps, hS.ps, ?_⟩, ⟨ss[k].g.1, ?_, (parseAdjust_ok.1 hS.g).1⟩,
      ⟨ss[k].g.2, ?_, (parseAdjust_ok.1 hS.g).2⟩, ?_⟩
    · rw [final, subs_channels _ _ _ _ _ _ _ _ hsl.symm]
      simp [hkl]
    · intro name j h1 h2
      obtain ⟨h3, h4⟩ := hreg name j h1 h2
      have hrows := (foldl_updS_rows ss (beforeSubs a cfg d t ys vs tr) 0).2 k _ hsk
      rw [Nat.zero_add] at hrows
      have hbi : (beforeSubs a cfg d t ys vs tr).ids = idsAll ys vs := afterVirts_ids _ _ _ _ _ _
      rw [hbi] at hrows
      obtain ⟨g, hg1, hg2⟩ := lastGain_columns (K := K) (idsAll ys vs) ys.length
        (ps := ss[k].ps) hS.w (hr.find_keep h3) h4
        (fun k' hk' => hr.all_inj hu hk' (hr.find_keep h3))
      refine ⟨_, g, ?_, hg1, hg2⟩
      rw [final, hrows]
      simp only [beforeSubs, zeros]
      rw [List.getElem?_replicate, if_pos (by omega), hyl]
      rfl
    · rw [f2, hyl]
      exact setAll_map (fun y : SRead K × Nat => ys.length + y.2) (fun y => y.1.g.1)
        (zipIdx_add_nodup _ _ _) hm (by simp only [hgl]; omega)
    · rw [f3, hyl]
      exact setAll_map (fun y : SRead K × Nat => ys.length + y.2) (fun y => y.1.g.2)
        (zipIdx_add_nodup _ _ _) hm (by simp only [hdl]; omega)
    · refine eqRow_described hr a hS.row ?_
      intro m hm'
      rw [f4, l4] at hm'
      cases t with
      | none => simp at hm'
      | some t =>
        simp only [Option.map_some, Option.some.injEq] at hm'
        subst hm'
        rw [hyl]
        exact setAll_map (fun y : SRead K × Nat => ys.length + y.2) (fun y => y.1.row)
          (zipIdx_add_nodup _ _ _) hm (by
            simp only [setAll_length, List.length_replicate]; omega)

end

end Visr.ArrayConfig
