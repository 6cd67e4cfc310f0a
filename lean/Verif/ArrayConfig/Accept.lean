import Verif.ArrayConfig.Result

/-!
# Lemmas: which configurations are accepted
-/

namespace Visr.ArrayConfig
open Visr

variable {K : Type}

section

variable [Field K] {cv : Conv K} {cfg : Config K} {d : Bool} {t : Option (EqTable K)}
  {ys : List (LRead K)} {vs : List (VRead K)} {tr : List (Nat × Nat × Option Nat)}
  {ss : List (SRead K)}

theorem reads_unpadded {inf : Bool} (h : List.Forall₂ (LR cv d inf t) cfg.loudspeakers ys)
    (hu : Unpadded cfg) : ∀ y ∈ ys, trim y.text = y.text := by
  intro y hy
  obtain ⟨l, hl, h⟩ := forall₂_right h hy
  exact stripped_iff.1 (hu l hl _ h.text)

theorem forall₂_map {X Y Z W : Type} {R : Z → W → Prop} {f : X → Z} {g : Y → W} {xs : List X}
    {ys : List Y} (h : List.Forall₂ (fun x y => R (f x) (g y)) xs ys) :
    List.Forall₂ R (xs.map f) (ys.map g) := by
  induction h with
  | nil => exact .nil
  | cons h _ ih => exact .cons h ih

theorem forall₂_append {X Y : Type} {R : X → Y → Prop} {xs xs' : List X} {ys ys' : List Y}
    (h : List.Forall₂ R xs ys) (h' : List.Forall₂ R xs' ys') :
    List.Forall₂ R (xs ++ xs') (ys ++ ys') := by
  induction h with
  | nil => exact h'
  | cons h _ ih => exact .cons h ih

theorem forall₂_unique {X Y : Type} {R S : X → Y → Prop} (hu : ∀ x y z, R x y → S x z → y = z)
    {xs : List X} {ys zs : List Y} (h : List.Forall₂ R xs ys) (h' : List.Forall₂ S xs zs) :
    ys = zs := by
  induction h generalizing zs with
  | nil => cases h'; rfl
  | cons h _ ih =>
    cases h' with
    | cons h1 h2 => rw [hu _ _ _ h h1, ih h2]

theorem reads_names (h1 : List.Forall₂ (LR cv d (cfg.infinite.getD false) t) cfg.loudspeakers ys)
    (h2 : List.Forall₂ (VR cv d (cfg.infinite.getD false)) cfg.virtuals vs) :
    List.Forall₂ HasName (cfg.loudspeakers.map (·.id) ++ cfg.virtuals.map (·.id))
      ((ys.map fun y => trim y.text) ++ vs.map fun y => trim y.text) := by
  refine forall₂_append (forall₂_map ?_) (forall₂_map ?_)
  · exact h1.imp fun _ _ h => hasName_iff.2 ⟨_, h.text, rfl⟩
  · exact h2.imp fun _ _ h => hasName_iff.2 ⟨_, h.text, rfl⟩

theorem reads_wellFormed (hr : Reads cv cfg d t ys vs tr ss)
    (hu : ∀ y ∈ ys, trim y.text = y.text) : WellFormed cv cfg := by
  have hpl := planar_iff hr
  refine ⟨?_, ?_, ?_, ?_, ?_, ?_, ?_, ?_, ?_⟩
  · rcases parseDimension_ok.1 hr.dim with ⟨_, h⟩ | ⟨_, h | h⟩ <;> simp [h]
  · refine ⟨_, reads_names hr.lsps hr.virts, ?_, ?_⟩
    · refine List.nodup_append.2 ⟨hr.lspNames, hr.virtNames, ?_⟩
      intro n hn m hm e
      subst e
      obtain ⟨y, hy, rfl⟩ := List.mem_map.1 hn
      obtain ⟨v, hv, e⟩ := List.mem_map.1 hm
      have h1 := (hr.virtIds v hv).2.1
      rw [e, hu y hy, hr.find_lsp hu hy] at h1
      simp at h1
    · intro n hn
      rcases List.mem_append.1 hn with hn | hn
      · obtain ⟨y, hy, rfl⟩ := List.mem_map.1 hn
        exact validId_iff.1 (hr.lspIds y hy).1
      · obtain ⟨v, hv, rfl⟩ := List.mem_map.1 hn
        exact validId_iff.1 (hr.virtIds v hv).1
  · refine ⟨ys.map (·.c), ss.map (·.c), ?_, ?_, hr.channels, ?_⟩
    · have := forall₂_map (R := fun (l : Lsp K) c => l.channel = .val c) (f := id) (g := (·.c))
        (hr.lsps.imp fun _ _ h => h.c)
      simpa using this
    · have := forall₂_map (R := fun (l : Sub K) c => l.channel = .val c) (f := id) (g := (·.c))
        (hr.subs.imp fun _ _ h => h.c)
      simpa using this
    · intro c hc
      obtain ⟨y, hy, rfl⟩ := List.mem_map.1 hc
      exact (hr.lspIds y hy).2
  · rintro c (hc | hc)
    · obtain ⟨l, hl, rfl⟩ := List.mem_map.1 hc
      obtain ⟨y, _, h⟩ := forall₂_left hr.lsps hl
      exact ⟨y.p, by rw [← hpl]; exact parseCoord_ok.1 h.p⟩
    · obtain ⟨l, hl, rfl⟩ := List.mem_map.1 hc
      obtain ⟨y, _, h⟩ := forall₂_left hr.virts hl
      exact ⟨y.p, by rw [← hpl]; exact parseCoord_ok.1 h.p⟩
  · rintro n (hn | hn)
    · obtain ⟨l, hl, rfl⟩ := List.mem_map.1 hn
      obtain ⟨y, _, h⟩ := forall₂_left hr.lsps hl
      exact ⟨_, (parseAdjust_ok.1 h.g).1⟩
    · obtain ⟨l, hl, rfl⟩ := List.mem_map.1 hn
      obtain ⟨y, _, h⟩ := forall₂_left hr.subs hl
      exact ⟨_, (parseAdjust_ok.1 h.g).1⟩
  · intro v hv r hr'
    obtain ⟨y, hy, h⟩ := forall₂_left hr.virts hv
    obtain ⟨p, hp, h2⟩ := forall₂_left h.ps hr'
    exact ⟨p, h2, (hr.writable_iff hu).1 ((hr.virtIds y hy).2.2 p hp)⟩
  · intro tt ht
    obtain ⟨x, _, ⟨s1, a1, a2, a3⟩, ⟨s2, b1, b2, b3⟩, hc⟩ := forall₂_left hr.triplets ht
    refine ⟨⟨_, hasName_iff.2 ⟨s1, a1, rfl⟩, (hr.known_iff hu).1 ⟨_, a2⟩⟩,
      ⟨_, hasName_iff.2 ⟨s2, b1, rfl⟩, (hr.known_iff hu).1 ⟨_, b2⟩⟩, ?_⟩
    intro hnp
    rcases hc with ⟨h1, h2⟩ | ⟨h1, s3, i, c1, c2, c3, c4⟩
    · exact absurd (hpl ▸ h1) hnp
    · exact ⟨_, hasName_iff.2 ⟨s3, c1, rfl⟩, (hr.known_iff hu).1 ⟨_, c2⟩⟩
  · intro s hs
    obtain ⟨y, _, h⟩ := forall₂_left hr.subs hs
    exact ⟨y.ps, h.ps, fun p hp => (hr.writable_iff hu).1 (hr.writable_all.1 (h.w p hp))⟩
  · rcases parseEqConfig_ok.1 hr.eq with ⟨h1, h2⟩ | ⟨e, t', h1, h2, ht⟩
    · exact Or.inl h1
    · refine Or.inr ⟨e, h1, isTable_exists.1 ⟨t', ht⟩, ?_⟩
      rintro eq (h | h)
      · obtain ⟨l, hl, rfl⟩ := List.mem_map.1 h
        obtain ⟨y, _, h⟩ := forall₂_left hr.lsps hl
        exact ⟨_, (rowOf_iff hr.eq h1).1 h.row⟩
      · obtain ⟨l, hl, rfl⟩ := List.mem_map.1 h
        obtain ⟨y, _, h⟩ := forall₂_left hr.subs hl
        exact ⟨_, (rowOf_iff hr.eq h1).1 h.row⟩

theorem delay_exists (n : Adjust K) : ∃ x, IsDelay n x := ⟨_, isDelay_iff.2 rfl⟩

theorem wellFormed_reads (hw : WellFormed cv cfg) (hu : Unpadded cfg) :
    ∃ d t ys vs tr ss, Reads cv cfg d t ys vs tr ss := by
  obtain ⟨d, hd⟩ : ∃ d, parseDimension cfg.dimension = .ok d := by
    rcases hw.dimension with h | h | h
    · exact ⟨false, parseDimension_ok.2 (Or.inr ⟨rfl, Or.inl h⟩)⟩
    · exact ⟨true, parseDimension_ok.2 (Or.inl ⟨rfl, h⟩)⟩
    · exact ⟨false, parseDimension_ok.2 (Or.inr ⟨rfl, Or.inr h⟩)⟩
  have hpl : (d = true) = Planar cfg := by
    rcases parseDimension_ok.1 hd with ⟨rfl, h⟩ | ⟨rfl, h⟩
    · simp [Planar, h]
    · rcases h with h | h <;> simp [Planar, h]
  obtain ⟨t, ht⟩ : ∃ t, parseEqConfig cfg.eqConfigs = .ok t := by
    rcases hw.equalisation with h | ⟨e, h, h2, _⟩
    · exact ⟨none, parseEqConfig_ok.2 (Or.inl ⟨h, rfl⟩)⟩
    · obtain ⟨t, h3⟩ := isTable_exists.2 h2
      exact ⟨some t, parseEqConfig_ok.2 (Or.inr ⟨e, t, h, rfl, h3⟩)⟩
  have hrow : ∀ eq, (eq ∈ cfg.loudspeakers.map (·.eq) ∨ eq ∈ cfg.subwoofers.map (·.eq)) →
      ∃ row, RowOf t eq row := by
    intro eq heq
    rcases hw.equalisation with h | ⟨e, h, h2, h3⟩
    · rcases parseEqConfig_ok.1 ht with ⟨_, rfl⟩ | ⟨e, t', h', _⟩
      · exact ⟨[], rfl⟩
      · rw [h] at h'; simp at h'
    · obtain ⟨row, h4⟩ := h3 eq heq
      exact ⟨row, (rowOf_iff ht h).2 h4⟩
  have hgd : ∀ n, (n ∈ cfg.loudspeakers.map (·.adjust) ∨ n ∈ cfg.subwoofers.map (·.adjust)) →
      ∃ x, parseAdjust cv n = .ok x := by
    intro n hn
    obtain ⟨g, hg⟩ := hw.gains n hn
    obtain ⟨x, hx⟩ := delay_exists n
    exact ⟨(g, x), parseAdjust_ok.2 ⟨hg, hx⟩⟩
  obtain ⟨names, hnames, hnd, hval⟩ := hw.names
  obtain ⟨cs, scs, hcs, hscs, hcn, hc1⟩ := hw.channels
  have hname : ∀ i ∈ cfg.loudspeakers.map (·.id) ++ cfg.virtuals.map (·.id), ∃ s, i = some s := by
    intro i hi
    obtain ⟨n, _, h⟩ := forall₂_left hnames hi
    obtain ⟨s, h, _⟩ := hasName_iff.1 h
    exact ⟨s, h⟩
  obtain ⟨ys, hys⟩ : ∃ ys, List.Forall₂ (LR cv d (cfg.infinite.getD false) t)
      cfg.loudspeakers ys := by
    refine forall₂_exists fun l hl => ?_
    obtain ⟨s, h1⟩ := hname l.id (List.mem_append_left _ (List.mem_map.2 ⟨l, hl, rfl⟩))
    obtain ⟨c, _, h2⟩ := forall₂_left hcs hl
    obtain ⟨p, h3⟩ := hw.positions l.coord (Or.inl (List.mem_map.2 ⟨l, hl, rfl⟩))
    obtain ⟨g, h4⟩ := hgd l.adjust (Or.inl (List.mem_map.2 ⟨l, hl, rfl⟩))
    obtain ⟨row, h5⟩ := hrow l.eq (Or.inl (List.mem_map.2 ⟨l, hl, rfl⟩))
    exact ⟨⟨s, c, p, g, row⟩, h1, h2, by rw [← hpl] at h3; exact parseCoord_ok.2 h3, h4, h5⟩
  obtain ⟨vs, hvs⟩ : ∃ vs, List.Forall₂ (VR cv d (cfg.infinite.getD false)) cfg.virtuals vs := by
    refine forall₂_exists fun v hv => ?_
    obtain ⟨s, h1⟩ := hname v.id (List.mem_append_right _ (List.mem_map.2 ⟨v, hv, rfl⟩))
    obtain ⟨p, h3⟩ := hw.positions v.coord (Or.inr (List.mem_map.2 ⟨v, hv, rfl⟩))
    obtain ⟨ps, h4⟩ := forall₂_exists (R := IsRoute cv) (xs := v.routes) fun r hr => by
      obtain ⟨p, h, _⟩ := hw.routes v hv r hr; exact ⟨p, h⟩
    exact ⟨⟨s, ps, p⟩, h1, h4, by rw [← hpl] at h3; exact parseCoord_ok.2 h3⟩
  have hup := reads_unpadded hys hu
  have hnm : names = (ys.map fun y => trim y.text) ++ vs.map fun y => trim y.text :=
    forall₂_unique (R := HasName) (S := HasName) (fun _ _ _ h h' => hasName_unique h h') hnames (reads_names hys hvs)
  have hcs' : cs = ys.map (·.c) := by
    refine forall₂_unique (R := fun (l : Lsp K) c => l.channel = .val c)
      (S := fun (l : Lsp K) c => l.channel = .val c) (fun x y z h h' => ?_) hcs ?_
    · rw [h] at h'; injection h'
    · simpa using forall₂_map (R := fun (l : Lsp K) c => l.channel = .val c) (f := id) (g := (·.c))
        (hys.imp fun _ _ h => h.c)
  rw [hnm] at hnd hval
  obtain ⟨hnd1, hnd2, hnd3⟩ := List.nodup_append.1 hnd
  -- the readings so far, with no triplets and subwoofers
  let cfg0 : Config K := { cfg with triplets := [], subwoofers := [] }
  have hn1 : (ys.map (·.c)).Nodup := by
    rw [← hcs']; exact (List.nodup_append.1 hcn).1
  have hfl : ∀ y ∈ ys, find (idsOf ys) y.text = some ((chansOf ys).idxOf y.c) := by
    intro y hy
    refine find_insertAll _ _ _ _ ?_ (List.mem_map.2 ⟨y, hy, rfl⟩)
    rw [List.map_map]
    have : (ys.map fun y => trim y.text) = ys.map (·.text) :=
      List.map_congr_left fun y hy => hup y hy
    rw [this] at hnd1
    exact hnd1
  have hregw : ∀ n, Regular cfg n → Writable (idsOf ys) ys.length n := by
    rintro n ⟨l, hl, hn⟩
    obtain ⟨y, hy, h⟩ := forall₂_left hys hl
    have e := Reads.lsp_name (cfg := cfg) hup hy h hn
    subst e
    refine ⟨?_, _, hfl y hy, Reads.idx_lt hy⟩
    have := hval (trim y.text) (List.mem_append_left _ (List.mem_map.2 ⟨y, hy, rfl⟩))
    rw [hup y hy] at this
    exact this.1
  have h0 : Reads cv cfg0 d t ys vs [] [] := by
    refine ⟨hd, ht, hys, ?_, hnd1, hvs, ?_, hnd2, .nil, .nil, by simpa using hn1⟩
    · intro y hy
      refine ⟨validId_iff.2 (hval _ (List.mem_append_left _ (List.mem_map.2 ⟨y, hy, rfl⟩))), ?_⟩
      exact hc1 _ (by rw [hcs']; exact List.mem_map.2 ⟨y, hy, rfl⟩)
    · intro v hv
      refine ⟨validId_iff.2 (hval _ (List.mem_append_right _ (List.mem_map.2 ⟨v, hv, rfl⟩))), ?_, ?_⟩
      · cases hf : find (idsOf ys) (trim v.text) with
        | none => rfl
        | some j =>
          obtain ⟨y, hy, e⟩ := Reads.lsp_of_find hup hf
          exact absurd (by rw [hup y hy]; exact e)
            (hnd3 (trim y.text) (List.mem_map.2 ⟨y, hy, rfl⟩) (trim v.text)
              (List.mem_map.2 ⟨v, hv, rfl⟩))
      · intro p hp
        obtain ⟨w, hw', h⟩ := forall₂_right hvs hv
        obtain ⟨r, hr, hp'⟩ := forall₂_right h.ps hp
        obtain ⟨q, hq, hreg⟩ := hw.routes w hw' r hr
        rw [hasName_unique hp'.1 hq.1]
        exact hregw _ hreg
  have hknown : ∀ n, (Regular cfg n ∨ Virtual cfg n) → (∃ j, find (idsAll ys vs) n = some j) ∧ n ≠ [] := by
    intro n hn
    have hk := (h0.known_iff hup (name := n)).2 hn
    refine ⟨hk, ?_⟩
    obtain ⟨j, hk⟩ := hk
    rcases h0.find_cases hk with h | ⟨i, y, h1, h2, _⟩
    · obtain ⟨y, hy, rfl⟩ := Reads.lsp_of_find hup h
      have := (h0.lspIds y hy).1
      rw [hup y hy] at this
      exact (validId_iff.1 this).1
    · rw [← h2]; exact (validId_iff.1 (h0.virtIds y (List.mem_of_getElem? h1)).1).1
  obtain ⟨tr, htr⟩ : ∃ tr, List.Forall₂ (TripletR d (idsAll ys vs)) cfg.triplets tr := by
    refine forall₂_exists fun tt htt => ?_
    obtain ⟨⟨n1, a1, a2⟩, ⟨n2, b1, b2⟩, h3⟩ := hw.triplets tt htt
    obtain ⟨s1, a3, rfl⟩ := hasName_iff.1 a1
    obtain ⟨s2, b3, rfl⟩ := hasName_iff.1 b1
    obtain ⟨⟨i1, a4⟩, a5⟩ := hknown _ a2
    obtain ⟨⟨i2, b4⟩, b5⟩ := hknown _ b2
    cases d with
    | true => exact ⟨(i1, i2, none), ⟨s1, a3, a4, a5⟩, ⟨s2, b3, b4, b5⟩, Or.inl ⟨rfl, rfl⟩⟩
    | false =>
      obtain ⟨n3, c1, c2⟩ := h3 (by rw [← hpl]; simp)
      obtain ⟨s3, c3, rfl⟩ := hasName_iff.1 c1
      obtain ⟨⟨i3, c4⟩, c5⟩ := hknown _ c2
      exact ⟨(i1, i2, some i3), ⟨s1, a3, a4, a5⟩, ⟨s2, b3, b4, b5⟩,
        Or.inr ⟨rfl, s3, i3, c3, c4, c5, rfl⟩⟩
  obtain ⟨ss, hss⟩ : ∃ ss, List.Forall₂ (SR cv t (idsAll ys vs) ys.length) cfg.subwoofers ss := by
    refine forall₂_exists fun s hs => ?_
    obtain ⟨c, _, h1⟩ := forall₂_left hscs hs
    obtain ⟨ps, h2, h3⟩ := hw.subwoofers s hs
    obtain ⟨g, h4⟩ := hgd s.adjust (Or.inr (List.mem_map.2 ⟨s, hs, rfl⟩))
    obtain ⟨row, h5⟩ := hrow s.eq (Or.inr (List.mem_map.2 ⟨s, hs, rfl⟩))
    exact ⟨⟨c, ps, g, row⟩, h1, h2,
      fun p hp => h0.writable_all.2 (hregw _ (h3 p hp)), h4, h5⟩
  have hss' : scs = ss.map (·.c) := by
    refine forall₂_unique (R := fun (l : Sub K) c => l.channel = .val c)
      (S := fun (l : Sub K) c => l.channel = .val c) (fun x y z h h' => ?_) hscs ?_
    · rw [h] at h'; injection h'
    · simpa using forall₂_map (R := fun (l : Sub K) c => l.channel = .val c) (f := id) (g := (·.c))
        (hss.imp fun _ _ h => h.c)
  exact ⟨d, t, ys, vs, tr, ss, hd, ht, hys, h0.lspIds, hnd1, hvs, h0.virtIds, hnd2, htr, hss, by
    rw [← hcs', ← hss']; exact hcn⟩

theorem load_no_ub {a : Arr K} (ha : a.ids = []) (href : RegularReferences cfg) :
    load cv a cfg ≠ .ub := by
  intro h
  simp only [load, bind_ub, parseDimension_ub, parseEqConfig_ub, registerAll_ub, parseTriplets_ub,
    checkChannels_ub, false_or, reduceCtorEq, and_false, exists_false, or_false] at h
  obtain ⟨d, h1, t, h2, s, h3, h⟩ := h
  rw [ha, registerAll_ok] at h3
  obtain ⟨ps, h9, h10, h11, rfl⟩ := h3
  simp only [List.nil_append] at h
  have hpl := h9.length_eq
  have hcl : (sorted (ps.map Prod.snd)).length = cfg.loudspeakers.length := by
    rw [(sorted_perm _).length_eq, List.length_map, hpl]
  have hcm : ∀ l ∈ cfg.loudspeakers, ∀ c, l.channel = .val c →
      c ∈ sorted (ps.map Prod.snd) := by
    intro l hl c hc
    obtain ⟨p, hp, hr⟩ := forall₂_left h9 hl
    rw [(sorted_perm _).mem_iff]
    have := hr.2
    rw [hc] at this
    cases this
    exact List.mem_map.2 ⟨p, hp, rfl⟩
  rcases h with h | ⟨a1, h4, h⟩
  · exact placeAll_ub (prepared_shape _ _ _ _ _ _) (by omega) (by omega) hcm h
  rw [placeAll_ok (prepared_shape _ _ _ _ _ _) (by omega) (by omega) hcm] at h4
  obtain ⟨ys, h12, rfl⟩ := h4
  have hps := reg_eq h9 h12
  have hyl := h12.length_eq
  have e1 : ps.map Prod.snd = ys.map (·.c) := by rw [hps, List.map_map]; rfl
  have e2 : (ps.map fun p => (trim p.1, 0)) = ys.map fun y => (trim y.text, 0) := by
    rw [hps, List.map_map]; rfl
  have ea : ys.foldl updL (prepared a cfg d t (insertAll [] (ps.map fun p => (trim p.1, 0)))
      (sorted (ps.map Prod.snd))) = afterLsps a cfg d t ys := by
    rw [e1, e2]; rfl
  rw [ea] at h
  have hcl' : (chansOf ys).length = cfg.loudspeakers.length := by rw [chansOf_length, ← hyl]
  have hlt : ∀ k j, find (idsOf ys) k = some j → j < ys.length := by
    intro k j hk
    have key : ∀ (ps ids : List (Id × Nat)) (k : Id) (j : Nat), find (insertAll ids ps) k = some j →
        find ids k = some j ∨ ∃ p ∈ ps, p.2 = j := by
      intro ps
      induction ps with
      | nil => intro ids k j h; exact Or.inl h
      | cons p ps ih =>
        intro ids k j h
        rcases ih (insert ids p.1 p.2) k j h with h | ⟨q, hq, e⟩
        · rw [find_insert] at h
          split_ifs at h with e
          · cases h; exact Or.inr ⟨p, by simp, rfl⟩
          · exact Or.inl h
        · exact Or.inr ⟨q, by simp [hq], e⟩
    rcases key _ _ _ _ hk with hk | ⟨p, hp, rfl⟩
    · rcases key _ _ _ _ hk with hk | ⟨p, hp, rfl⟩
      · simp [find] at hk
      · obtain ⟨y, hy, rfl⟩ := List.mem_map.1 hp
        simp only
        have := List.length_pos_of_mem hy
        omega
    · obtain ⟨y, hy, rfl⟩ := List.mem_map.1 hp
      exact Reads.idx_lt hy
  have hshape : Shape d (cfg.infinite.getD false) t (chansOf ys)
      ((chansOf ys).length + cfg.virtuals.length)
      (cfg.loudspeakers.length + cfg.subwoofers.length) (afterLsps a cfg d t ys) ∧
      Rows cfg.virtuals.length (chansOf ys).length (afterLsps a cfg d t ys).reRouting :=
    ⟨by rw [hcl']; exact afterLsps_shape a cfg d t ys, by
      rw [afterLsps_rerouting, hcl']; exact zeros_rows _ _⟩
  rw [← hcl'] at h
  rcases h with h | ⟨a2, h5, tr, h6, h⟩
  · refine placeVirtuals_ub (cv := cv) hshape ?_ ?_ h
    · rw [afterLsps_ids, chansOf_length]; exact hlt
    · intro v hv r hr s hs w hw s' hs' e
      exact href.routes v hv r hr (trim s) (hasName_iff.2 ⟨s, hs, rfl⟩)
        ⟨w, hw, hasName_iff.2 ⟨s', hs', e⟩⟩
  rw [placeVirtuals_ok hshape] at h5
  obtain ⟨vs, h13, h14, h15, rfl⟩ := h5
  rw [chansOf_length] at h
  have hsub := beforeSubs_shape a cfg d t ys vs tr hyl.symm
  rw [← hyl] at h
  rw [beforeSubs, afterVirts, ← hyl] at hsub
  refine placeSubs_ub hsub ?_ h
  intro s hs text htext hne n hn j hj
  rw [chansOf_length]
  have hsep : Separated (text.filter fun c => !decide (White c)) (assignedNames text) := by
    rw [separated_iff, assignedNames_eq]
    exact ⟨rfl, by rw [← assignedNames_eq]; exact hne⟩
  have hnv := href.subwoofers s hs text _ htext hsep n hn
  rw [idsAll, find_insertAll_other] at hj
  · exact hlt _ _ hj
  · rw [Reads.virt_pairs]
    intro hm
    obtain ⟨y, hy, e⟩ := List.mem_map.1 hm
    obtain ⟨v, hv, hV⟩ := forall₂_right h13 hy
    exact hnv ⟨v, hv, hasName_iff.2 ⟨_, hV.text, e⟩⟩

end

end Visr.ArrayConfig
