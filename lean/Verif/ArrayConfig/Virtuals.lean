import Verif.ArrayConfig.Loops

/-!
# Lemmas: virtual loudspeakers, triplets, subwoofers and the checks of the channels
-/

namespace Visr.ArrayConfig
open Visr

variable {K : Type}

theorem zipIdx_forall₂ {X Y : Type} {R : X → Y → Prop} {xs : List X} {n : Nat}
    {ys : List (Y × Nat)} :
    List.Forall₂ (fun x y => x.2 = y.2 ∧ R x.1 y.1) (xs.zipIdx n) ys ↔
      ∃ zs, List.Forall₂ R xs zs ∧ ys = zs.zipIdx n := by
  induction xs generalizing n ys with
  | nil =>
    simp only [List.zipIdx_nil, List.forall₂_nil_left_iff]
    constructor
    · rintro rfl; exact ⟨[], rfl, rfl⟩
    · rintro ⟨zs, rfl, rfl⟩; rfl
  | cons x xs ih =>
    rw [List.zipIdx_cons, List.forall₂_cons_left_iff]
    constructor
    · rintro ⟨⟨y, m⟩, ys', ⟨h1, h2⟩, h3, rfl⟩
      obtain ⟨zs, h4, rfl⟩ := ih.1 h3
      simp only at h1 h2
      subst h1
      exact ⟨y :: zs, .cons h2 h4, by rw [List.zipIdx_cons]⟩
    · rintro ⟨zs, h, rfl⟩
      cases h with
      | cons h1 h2 =>
        rename_i y zs
        exact ⟨(y, n), zs.zipIdx (n + 1), ⟨rfl, h1⟩, ih.2 ⟨zs, h2, rfl⟩, by rw [List.zipIdx_cons]⟩

/-! ### Names and their indices -/

theorem resolve_ok {ids : List (Id × Nat)} {n : Id} {i : Nat} :
    resolve ids n = .ok i ↔ find ids n = some i ∧ n ≠ [] := by
  unfold resolve
  split
  · rename_i h; simp [h]
  · rename_i j h
    rw [h]
    cases n <;> simp

theorem resolve_ub {ids : List (Id × Nat)} {n : Id} : resolve ids n ≠ .ub := by
  unfold resolve
  split
  · simp
  · split_ifs <;> simp

/-- The pairs of columns and values written for names. -/
def columns (ids : List (Id × Nat)) (ps : List (Id × K)) : List (Nat × K) :=
  ps.map fun p => ((find ids p.1).getD 0, p.2)

/-- A name that can be written to a row of `n` columns. -/
def Writable (ids : List (Id × Nat)) (n : Nat) (name : Id) : Prop :=
  name ≠ [] ∧ ∃ j, find ids name = some j ∧ j < n

/-! ### Routes -/

theorem isRoute_iff {cv : Conv K} {r : Route K} {p : Id × K} :
    IsRoute cv r p ↔ ∃ s d, r.lspId = some s ∧ r.gainDB = .val d ∧ p = (trim s, cv.dB d) := by
  obtain ⟨n, v⟩ := p
  simp only [IsRoute, hasName_iff, Prod.mk.injEq]
  constructor
  · rintro ⟨⟨s, h1, h2⟩, d, h3, h4⟩; exact ⟨s, d, h1, h3, h2.symm, h4⟩
  · rintro ⟨s, d, h1, h3, h2, h4⟩; exact ⟨⟨s, h1, h2.symm⟩, d, h3, h4⟩

theorem chain_const {S Y : Type} (C : Y → Prop) (g : S → Y → S) (s : S) (ys : List Y) :
    Chain (fun _ y => C y) g s ys ↔ ∀ y ∈ ys, C y := by
  induction ys generalizing s with
  | nil => simp [Chain]
  | cons y ys ih => simp [Chain, ih]

theorem routes_ok {cv : Conv K} {ids : List (Id × Nat)} {row n : Nat} {m r : List (List K)}
    {rs : List (Route K)} (hm : ∃ l, m[row]? = some l ∧ l.length = n) :
    rs.foldlM (route cv ids row) m = .ok r ↔ ∃ ps, List.Forall₂ (IsRoute cv) rs ps ∧
      (∀ p ∈ ps, Writable ids n p.1) ∧
      r = m.modify row (fun l => setAll l (columns ids ps)) := by
  have key := loop_ok (f := route cv ids row) (R := IsRoute cv)
    (C := fun _ p => Writable ids n p.1)
    (g := fun m p => m.modify row (·.set ((find ids p.1).getD 0) p.2))
    (I := fun m => ∃ l, m[row]? = some l ∧ l.length = n) (P := fun _ => True)
    (by
      rintro m x r ⟨l, hl, hn⟩ -
      simp only [route, bind_ok, getText_ok, entry_get_ok, resolve_ok, putAt_ok hl, isRoute_iff]
      constructor
      · rintro ⟨s, h1, d, h2, j, ⟨h3, h4⟩, h5, rfl⟩
        refine ⟨(trim s, cv.dB d), ⟨s, d, h1, h2, rfl⟩, ⟨h4, j, h3, by omega⟩, ?_⟩
        simp [h3]
      · rintro ⟨_, ⟨s, d, h1, h2, rfl⟩, ⟨h4, j, h3, h5⟩, rfl⟩
        simp only at h3 h4
        exact ⟨s, h1, d, h2, j, ⟨h3, h4⟩, by omega, by simp [h3]⟩)
    (by
      rintro m x y ⟨l, hl, hn⟩ - - -
      refine ⟨_, by rw [getElem?_modify_self, hl]; rfl, by simpa using hn⟩)
    rs m r hm (by intros; trivial)
  rw [key]
  constructor
  · rintro ⟨ps, h1, h2, rfl⟩
    refine ⟨ps, h1, (chain_const _ _ _ _).1 h2, ?_⟩
    exact foldl_modify row (fun p : Id × K => ((find ids p.1).getD 0, p.2)) ps m
  · rintro ⟨ps, h1, h2, rfl⟩
    refine ⟨ps, h1, (chain_const _ _ _ _).2 h2, ?_⟩
    exact (foldl_modify row (fun p : Id × K => ((find ids p.1).getD 0, p.2)) ps m).symm

theorem routes_ub {cv : Conv K} {ids : List (Id × Nat)} {row n : Nat} {m : List (List K)}
    {rs : List (Route K)} (hm : ∃ l, m[row]? = some l ∧ l.length = n)
    (hr : ∀ r ∈ rs, ∀ t, r.lspId = some t → ∀ j, find ids (trim t) = some j → j < n) :
    rs.foldlM (route cv ids row) m ≠ .ub := by
  refine loop_ub (I := fun m => ∃ l, m[row]? = some l ∧ l.length = n)
    (P := fun r => ∀ t, r.lspId = some t → ∀ j, find ids (trim t) = some j → j < n) ?_ ?_ rs m hm hr
  · rintro m x ⟨l, hl, hn⟩ hx
    simp only [route, bind_ub, getText_ub, entry_get_ub, resolve_ub, getText_ok, entry_get_ok,
      resolve_ok, false_or, putAt_ub hl, ne_eq, not_exists, not_and, not_not]
    rintro t h1 d - j h3
    have := hx t h1 j h3.1
    omega
  · rintro m x r ⟨l, hl, hn⟩ _ h
    simp only [route, bind_ok, getText_ok, entry_get_ok, resolve_ok, putAt_ok hl] at h
    obtain ⟨s, _, d, _, j, _, _, rfl⟩ := h
    refine ⟨_, by rw [getElem?_modify_self, hl]; rfl, by simpa using hn⟩

/-! ### Virtual loudspeakers -/

/-- The contents of a virtual loudspeaker node. -/
structure VRead (K : Type) where
  text : Id
  ps : List (Id × K)
  p : XYZ K

/-- Reading a virtual loudspeaker node. -/
structure VR [Zero K] (cv : Conv K) (d inf : Bool) (v : Virt K) (y : VRead K) : Prop where
  text : v.id = some y.text
  ps : List.Forall₂ (IsRoute cv) v.routes y.ps
  p : parseCoord cv d inf v.coord = .ok y.p

/-- The effect of a virtual loudspeaker node. -/
def updV (a : Arr K) (y : VRead K × Nat) : Arr K :=
  { a with
    ids := insert a.ids (trim y.1.text) y.2
    reRouting := a.reRouting.modify (y.2 - a.channel.length)
      fun l => setAll l (columns (insert a.ids (trim y.1.text) y.2) y.1.ps)
    position := a.position.set y.2 y.1.p }

/-- The conditions on a virtual loudspeaker node. -/
def CV (n : Nat) (a : Arr K) (y : VRead K × Nat) : Prop :=
  validId (trim y.1.text) = true ∧ find a.ids (trim y.1.text) = none ∧
    ∀ p ∈ y.1.ps, Writable (insert a.ids (trim y.1.text) y.2) n p.1

/-- Every row of the re-routing matrix exists. -/
def Rows (v n : Nat) (m : List (List K)) : Prop := ∀ k < v, ∃ l, m[k]? = some l ∧ l.length = n

theorem rows_modify {v n k : Nat} {m : List (List K)} {ps : List (Nat × K)} (h : Rows v n m) :
    Rows v n (m.modify k fun l => setAll l ps) := by
  intro i hi
  obtain ⟨l, hl, hn⟩ := h i hi
  by_cases e : k = i
  · subst e
    exact ⟨_, by rw [getElem?_modify_self, hl]; rfl, by rw [setAll_length]; exact hn⟩
  · exact ⟨l, by rw [getElem?_modify_ne _ _ e]; exact hl, hn⟩

theorem placeVirtual_ok [Zero K] [One K] {cv : Conv K} {d inf : Bool} {t : Option (EqTable K)}
    {chs : List Nat} {v o : Nat} {a r : Arr K} {x : Virt K × Nat}
    (ha : Shape d inf t chs (chs.length + v) o a ∧ Rows v chs.length a.reRouting)
    (hx : chs.length ≤ x.2 ∧ x.2 < chs.length + v) :
    placeVirtual cv a x = .ok r ↔
      ∃ y : VRead K × Nat, (x.2 = y.2 ∧ VR cv d inf x.1 y.1) ∧ CV chs.length a y ∧ r = updV a y := by
  obtain ⟨ha, hr⟩ := ha
  obtain ⟨v', i⟩ := x
  have hrow := hr (i - chs.length) (by simp only at hx; omega)
  simp only at hx
  constructor
  · intro h
    simp only [placeVirtual, bind_ok, getText_ok, checkId_ok, Outcome.ok.injEq] at h
    rw [ha.chs] at h
    obtain ⟨text, h1, _, ⟨h2, h3⟩, m, h4, p, h5, pos, h6, rfl⟩ := h
    rw [routes_ok hrow] at h4
    rw [put_ok (by rw [ha.pos]; omega)] at h6
    obtain ⟨ps, h7, h8, rfl⟩ := h4
    subst h6
    rw [ha.d, ha.inf] at h5
    refine ⟨(⟨text, ps, p⟩, i), ⟨rfl, h1, h7, h5⟩, ⟨h2, h3, h8⟩, ?_⟩
    simp only [updV, ha.chs]
  · rintro ⟨⟨y, j⟩, ⟨h0, h1, h7, h5⟩, ⟨h2, h3, h8⟩, rfl⟩
    simp only at h0 h2 h3 h8 h5 h7 h1
    subst h0
    simp only [placeVirtual, bind_ok, getText_ok, checkId_ok, Outcome.ok.injEq]
    rw [ha.chs, ha.d, ha.inf]
    refine ⟨y.text, h1, (), ⟨h2, h3⟩, _, (routes_ok hrow).2 ⟨y.ps, h7, h8, rfl⟩, y.p, h5, _,
      (put_ok (by rw [ha.pos]; omega)).2 rfl, ?_⟩
    simp only [updV, ha.chs, ha.d, ha.inf]

theorem updV_shape [Zero K] [One K] {d inf : Bool} {t : Option (EqTable K)}
    {chs : List Nat} {N v n o : Nat} {a : Arr K} (y : VRead K × Nat)
    (ha : Shape d inf t chs N o a ∧ Rows v n a.reRouting) :
    Shape d inf t chs N o (updV a y) ∧ Rows v n (updV a y).reRouting :=
  ⟨⟨ha.1.d, ha.1.inf, ha.1.chs, by simpa [updV] using ha.1.pos, ha.1.gain, ha.1.delay, ha.1.eqs⟩,
    rows_modify ha.2⟩

theorem chainV_iff {n : Nat} (ys : List (VRead K)) (a : Arr K) (i : Nat) (hi : n ≤ i) :
    Chain (CV n) updV a (ys.zipIdx i) ↔
      (∀ y ∈ ys, validId (trim y.text) = true ∧ find a.ids (trim y.text) = none ∧
        ∀ p ∈ y.ps, Writable a.ids n p.1) ∧ (ys.map fun y => trim y.text).Nodup := by
  induction ys generalizing a i with
  | nil => simp [Chain]
  | cons y ys ih =>
    have wr : ∀ (ids : List (Id × Nat)) (name q : Id), find ids name = none →
        (Writable (insert ids name i) n q ↔ Writable ids n q) := by
      intro ids name q h
      simp only [Writable, find_insert]
      constructor
      · rintro ⟨h1, j, h2, h3⟩
        split_ifs at h2 with e
        · simp at h2; omega
        · exact ⟨h1, j, h2, h3⟩
      · rintro ⟨h1, j, h2, h3⟩
        refine ⟨h1, j, ?_, h3⟩
        rw [if_neg, h2]
        rintro rfl
        rw [h] at h2; simp at h2
    rw [List.zipIdx_cons]
    simp only [Chain, ih (updV a (y, i)) (i + 1) (by omega), List.map_cons, List.nodup_cons,
      List.mem_cons, forall_eq_or_imp, CV]
    constructor
    · rintro ⟨⟨h1, h2, h3⟩, h4, h5⟩
      refine ⟨⟨⟨h1, h2, fun p hp => (wr _ _ _ h2).1 (h3 p hp)⟩, fun z hz => ?_⟩, ?_, h5⟩
      · obtain ⟨a1, a2, a3⟩ := h4 z hz
        simp only [updV, find_insert] at a2
        split_ifs at a2
        exact ⟨a1, a2, fun p hp => (wr _ _ _ h2).1 (a3 p hp)⟩
      · intro hm
        obtain ⟨z, hz, e⟩ := List.mem_map.1 hm
        obtain ⟨a1, a2, a3⟩ := h4 z hz
        simp only [updV, find_insert] at a2
        rw [if_pos e.symm] at a2
        simp at a2
    · rintro ⟨⟨⟨h1, h2, h3⟩, h4⟩, h5, h6⟩
      refine ⟨⟨h1, h2, fun p hp => (wr _ _ _ h2).2 (h3 p hp)⟩, fun z hz => ?_, h6⟩
      obtain ⟨a1, a2, a3⟩ := h4 z hz
      refine ⟨a1, ?_, fun p hp => (wr _ _ _ h2).2 (a3 p hp)⟩
      simp only [updV, find_insert]
      rw [if_neg, a2]
      intro e
      exact h5 (List.mem_map.2 ⟨z, hz, e.symm⟩)

theorem placeVirtuals_ok [Zero K] [One K] {cv : Conv K} {d inf : Bool} {t : Option (EqTable K)}
    {chs : List Nat} {o : Nat} {a r : Arr K} {vs : List (Virt K)}
    (ha : Shape d inf t chs (chs.length + vs.length) o a ∧ Rows vs.length chs.length a.reRouting) :
    (vs.zipIdx chs.length).foldlM (placeVirtual cv) a = .ok r ↔
      ∃ ys, List.Forall₂ (VR cv d inf) vs ys ∧
        (∀ y ∈ ys, validId (trim y.text) = true ∧ find a.ids (trim y.text) = none ∧
          ∀ p ∈ y.ps, Writable a.ids chs.length p.1) ∧ (ys.map fun y => trim y.text).Nodup ∧
        r = (ys.zipIdx chs.length).foldl updV a := by
  rw [loop_ok (R := fun (x : Virt K × Nat) (y : VRead K × Nat) => x.2 = y.2 ∧ VR cv d inf x.1 y.1)
    (C := CV chs.length) (g := updV)
    (I := fun a => Shape d inf t chs (chs.length + vs.length) o a ∧
      Rows vs.length chs.length a.reRouting)
    (P := fun x => chs.length ≤ x.2 ∧ x.2 < chs.length + vs.length)
    (fun s x r hs hx => placeVirtual_ok hs hx) (fun s x y hs _ _ _ => updV_shape y hs) _ a r ha
    (fun x hx => by
      obtain ⟨x, i⟩ := x
      have := List.mem_zipIdx hx
      simp only; omega)]
  constructor
  · rintro ⟨ys, h1, h2, rfl⟩
    obtain ⟨zs, h3, rfl⟩ := zipIdx_forall₂.1 h1
    obtain ⟨h4, h5⟩ := (chainV_iff zs a _ (Nat.le_refl _)).1 h2
    exact ⟨zs, h3, h4, h5, rfl⟩
  · rintro ⟨zs, h3, h4, h5, rfl⟩
    exact ⟨_, zipIdx_forall₂.2 ⟨zs, h3, rfl⟩, (chainV_iff zs a _ (Nat.le_refl _)).2 ⟨h4, h5⟩, rfl⟩

theorem placeVirtuals_ub [Zero K] [One K] {cv : Conv K} {d inf : Bool} {t : Option (EqTable K)}
    {chs : List Nat} {o : Nat} {a : Arr K} {vs : List (Virt K)}
    (ha : Shape d inf t chs (chs.length + vs.length) o a ∧ Rows vs.length chs.length a.reRouting)
    (hids : ∀ k j, find a.ids k = some j → j < chs.length)
    (href : ∀ v ∈ vs, ∀ r ∈ v.routes, ∀ s, r.lspId = some s →
      ∀ w ∈ vs, ∀ s', w.id = some s' → trim s' ≠ trim s) :
    (vs.zipIdx chs.length).foldlM (placeVirtual cv) a ≠ .ub := by
  have hstep : ∀ (s : Arr K) (x : Virt K × Nat),
      (Shape d inf t chs (chs.length + vs.length) o s ∧ Rows vs.length chs.length s.reRouting) ∧
        (∀ k j, find s.ids k = some j → j < chs.length ∨ ∃ w ∈ vs, ∃ s', w.id = some s' ∧ trim s' = k) →
      x.1 ∈ vs ∧ chs.length ≤ x.2 ∧ x.2 < chs.length + vs.length →
      ∀ text, x.1.id = some text → ∀ r ∈ x.1.routes, ∀ u, r.lspId = some u → ∀ j,
        find (insert s.ids (trim text) x.2) (trim u) = some j → j < chs.length := by
    intro s x ⟨_, hi⟩ ⟨hx, _⟩ text h1 r hr u hu j hj
    rw [find_insert] at hj
    split_ifs at hj with e
    · exact absurd e (href x.1 hx r hr u hu x.1 hx text h1)
    · rcases hi _ _ hj with h | ⟨w, hw, s', hs', e'⟩
      · exact h
      · exact absurd e' (href x.1 hx r hr u hu w hw s' hs')
  refine loop_ub (I := fun s => (Shape d inf t chs (chs.length + vs.length) o s ∧
      Rows vs.length chs.length s.reRouting) ∧
      ∀ k j, find s.ids k = some j → j < chs.length ∨ ∃ w ∈ vs, ∃ s', w.id = some s' ∧ trim s' = k)
    (P := fun x => x.1 ∈ vs ∧ chs.length ≤ x.2 ∧ x.2 < chs.length + vs.length) ?_ ?_ _ a
    ⟨ha, fun k j h => Or.inl (hids k j h)⟩ ?_
  · intro s x hs hx h
    obtain ⟨⟨hs1, hs2⟩, _⟩ := id hs
    simp only [placeVirtual, bind_ub, getText_ub, checkId_ub, parseCoord_ub, false_or, getText_ok,
      checkId_ok] at h
    obtain ⟨text, h1, _, h2, h | ⟨m, _, p, _, h⟩⟩ := h
    · rw [hs1.chs] at h
      refine routes_ub (hs2 (x.2 - chs.length) (by omega)) ?_ h
      exact fun r hr u hu j hj => hstep s x hs hx text h1 r hr u hu j hj
    · rcases h with h | ⟨_, _, h⟩
      · exact put_ub (by rw [hs1.pos]; exact hx.2.2) h
      · cases h
  · intro s x r hs hx h
    obtain ⟨y, ⟨h0, h1⟩, _, rfl⟩ := (placeVirtual_ok hs.1 hx.2).1 h
    refine ⟨updV_shape y hs.1, ?_⟩
    intro k j hk
    simp only [updV, find_insert] at hk
    split_ifs at hk with e
    · exact Or.inr ⟨x.1, hx.1, _, h1.text, e⟩
    · exact hs.2 k j hk
  · rintro ⟨x, i⟩ hx
    have := List.mem_zipIdx hx
    refine ⟨?_, by simp only; omega, by simp only; omega⟩
    obtain ⟨_, _, h⟩ := this
    rw [h]; exact List.getElem_mem _

theorem foldl_updV_same (ys : List (VRead K × Nat)) (a : Arr K) :
    (ys.foldl updV a).is2D = a.is2D ∧ (ys.foldl updV a).isInfinite = a.isInfinite ∧
    (ys.foldl updV a).channel = a.channel ∧ (ys.foldl updV a).gainAdj = a.gainAdj ∧
    (ys.foldl updV a).delayAdj = a.delayAdj ∧ (ys.foldl updV a).eqs = a.eqs ∧
    (ys.foldl updV a).position = setAll a.position (ys.map fun y => (y.2, y.1.p)) ∧
    (ys.foldl updV a).ids = insertAll a.ids (ys.map fun y => (trim y.1.text, y.2)) := by
  induction ys generalizing a with
  | nil => simp [setAll, insertAll]
  | cons y ys ih =>
    rw [List.foldl_cons]
    obtain ⟨h1, h2, h3, h4, h5, h6, h7, h8⟩ := ih (updV a y)
    rw [h1, h2, h3, h4, h5, h6, h7, h8]
    simp [updV, setAll, insertAll]

theorem foldl_updV_rows {n : Nat} (ys : List (VRead K)) (a : Arr K) (i : Nat) (hi : n ≤ i)
    (hc : a.channel.length = n)
    (h : ∀ y ∈ ys, find a.ids (trim y.text) = none ∧ ∀ p ∈ y.ps, Writable a.ids n p.1)
    (hn : (ys.map fun y => trim y.text).Nodup) :
    (∀ k < i - n, ((ys.zipIdx i).foldl updV a).reRouting[k]? = a.reRouting[k]?) ∧
    ∀ k y, ys[k]? = some y → ((ys.zipIdx i).foldl updV a).reRouting[i - n + k]? =
      (a.reRouting[i - n + k]?).map fun l => setAll l (columns a.ids y.ps) := by
  induction ys generalizing a i with
  | nil => simp
  | cons y ys ih =>
    rw [List.zipIdx_cons, List.foldl_cons]
    simp only [List.map_cons, List.nodup_cons] at hn
    have keep : ∀ q, Writable a.ids n q → find (updV a (y, i)).ids q = find a.ids q := by
      rintro q ⟨_, j, hj, _⟩
      simp only [updV, find_insert]
      rw [if_neg]
      rintro rfl
      rw [(h y (by simp)).1] at hj; simp at hj
    have hcol : ∀ z ∈ y :: ys, columns (updV a (y, i)).ids z.ps = columns a.ids z.ps := by
      intro z hz
      refine List.map_congr_left fun p hp => ?_
      rw [keep p.1 ((h z hz).2 p hp)]
    obtain ⟨g1, g2⟩ := ih (updV a (y, i)) (i + 1) (by omega) (by simpa [updV] using hc)
      (fun z hz => by
        refine ⟨?_, fun p hp => ?_⟩
        · simp only [updV, find_insert]
          rw [if_neg, (h z (by simp [hz])).1]
          intro e
          exact hn.1 (List.mem_map.2 ⟨z, hz, e.symm⟩)
        · have hw := (h z (by simp [hz])).2 p hp
          obtain ⟨w1, j, w2, w3⟩ := id hw
          exact ⟨w1, j, by rw [keep _ hw]; exact w2, w3⟩) hn.2
    have hrow : ∀ k, (updV a (y, i)).reRouting[k]? = if k = i - n then
        (a.reRouting[k]?).map (fun l => setAll l (columns a.ids y.ps)) else a.reRouting[k]? := by
      intro k
      have e := hcol y (by simp)
      simp only [updV] at e
      simp only [updV, hc]
      by_cases hk : k = i - n
      · rw [if_pos hk, hk, getElem?_modify_self, e]
      · rw [if_neg hk, getElem?_modify_ne _ _ fun h => hk h.symm]
    constructor
    · intro k hk
      rw [g1 k (by omega), hrow, if_neg (by omega)]
    · intro k z hz
      cases k with
      | zero =>
        simp only [List.getElem?_cons_zero, Option.some.injEq] at hz
        subst hz
        have e := g1 (i - n) (by omega)
        rw [hrow, if_pos rfl] at e
        exact e
      | succ k =>
        simp only [List.getElem?_cons_succ] at hz
        have := g2 k z hz
        rw [show i + 1 - n + k = i - n + (k + 1) by omega] at this
        rw [this, hrow, if_neg (by omega)]
        rw [hcol z (by simp [List.mem_of_getElem? hz])]

/-! ### Triplets -/

/-- The meaning of a triplet node for given ids. -/
def TripletR (d : Bool) (ids : List (Id × Nat)) (t : Triplet) (x : Nat × Nat × Option Nat) : Prop :=
  (∃ s, t.l1 = some s ∧ find ids (trim s) = some x.1 ∧ trim s ≠ []) ∧
  (∃ s, t.l2 = some s ∧ find ids (trim s) = some x.2.1 ∧ trim s ≠ []) ∧
  ((d = true ∧ x.2.2 = none) ∨
    (d = false ∧ ∃ s i, t.l3 = some s ∧ find ids (trim s) = some i ∧ trim s ≠ [] ∧ x.2.2 = some i))

theorem thirdIndex_ok {d : Bool} {ids : List (Id × Nat)} {t : Option Id} {k : Option Nat} :
    thirdIndex d ids t = .ok k ↔ (d = true ∧ k = none) ∨
      (d = false ∧ ∃ s i, t = some s ∧ find ids (trim s) = some i ∧ trim s ≠ [] ∧ k = some i) := by
  cases d with
  | true =>
    simp only [thirdIndex, if_true, Outcome.ok.injEq, true_and, Bool.true_eq_false, false_and,
      or_false]
    exact eq_comm
  | false =>
    simp only [thirdIndex, Bool.false_eq_true, if_false, bind_ok, getText_ok, resolve_ok,
      Outcome.ok.injEq, false_and, false_or, true_and]
    constructor
    · rintro ⟨s, h1, i, ⟨h2, h3⟩, rfl⟩; exact ⟨s, i, h1, h2, h3, rfl⟩
    · rintro ⟨s, i, h1, h2, h3, rfl⟩; exact ⟨s, h1, i, ⟨h2, h3⟩, rfl⟩

theorem thirdIndex_ub {d : Bool} {ids : List (Id × Nat)} {t : Option Id} :
    thirdIndex d ids t ≠ .ub := by
  cases d <;> simp [thirdIndex, bind_ub, getText_ub, resolve_ub]

theorem parseTriplet_ok {d : Bool} {ids : List (Id × Nat)} {t : Triplet}
    {x : Nat × Nat × Option Nat} : parseTriplet d ids t = .ok x ↔ TripletR d ids t x := by
  obtain ⟨i, j, k⟩ := x
  simp only [parseTriplet, bind_ok, getText_ok, resolve_ok, thirdIndex_ok, Outcome.ok.injEq,
    TripletR]
  constructor
  · rintro ⟨s1, h1, s2, h2, i', ⟨h3, h4⟩, j', ⟨h5, h6⟩, k', h7, h8⟩
    cases h8
    exact ⟨⟨s1, h1, h3, h4⟩, ⟨s2, h2, h5, h6⟩, h7⟩
  · rintro ⟨⟨s1, h1, h3, h4⟩, ⟨s2, h2, h5, h6⟩, h7⟩
    exact ⟨s1, h1, s2, h2, i, ⟨h3, h4⟩, j, ⟨h5, h6⟩, k, h7, rfl⟩

theorem parseTriplets_ok {d : Bool} {ids : List (Id × Nat)} {ts : List Triplet}
    {xs : List (Nat × Nat × Option Nat)} :
    parseTriplets d ids ts = .ok xs ↔ List.Forall₂ (TripletR d ids) ts xs := by
  induction ts generalizing xs with
  | nil => simp [parseTriplets, eq_comm]
  | cons t ts ih =>
    simp only [parseTriplets, bind_ok, parseTriplet_ok, ih, Outcome.ok.injEq,
      List.forall₂_cons_left_iff]
    constructor
    · rintro ⟨c, h1, cs', h2, rfl⟩; exact ⟨c, cs', h1, h2, rfl⟩
    · rintro ⟨c, cs', h1, h2, rfl⟩; exact ⟨c, h1, cs', h2, rfl⟩

theorem parseTriplets_ub {d : Bool} {ids : List (Id × Nat)} {ts : List Triplet} :
    parseTriplets d ids ts ≠ .ub := by
  induction ts with
  | nil => simp [parseTriplets]
  | cons t ts ih =>
    simp [parseTriplets, parseTriplet, bind_ub, getText_ub, resolve_ub, thirdIndex_ub, ih]

/-! ### Subwoofers -/

theorem assignAll_ok {ids : List (Id × Nat)} {row n : Nat} {m r : List (List K)}
    {ps : List (Id × K)} (hm : ∃ l, m[row]? = some l ∧ l.length = n) :
    ps.foldlM (assign ids row) m = .ok r ↔ (∀ p ∈ ps, (find ids p.1).getD 0 < n) ∧
      r = m.modify row (fun l => setAll l (columns ids ps)) := by
  have key := loop_ok (f := assign ids row) (R := fun (p q : Id × K) => p = q)
    (C := fun _ p => (find ids p.1).getD 0 < n)
    (g := fun m p => m.modify row (·.set ((find ids p.1).getD 0) p.2))
    (I := fun m => ∃ l, m[row]? = some l ∧ l.length = n) (P := fun _ => True)
    (by
      rintro m x r ⟨l, hl, hn⟩ -
      simp only [assign, putAt_ok hl, hn]
      constructor
      · rintro ⟨h1, h2⟩; exact ⟨x, rfl, h1, h2⟩
      · rintro ⟨_, rfl, h1, h2⟩; exact ⟨h1, h2⟩)
    (by
      rintro m x y ⟨l, hl, hn⟩ - - -
      refine ⟨_, by rw [getElem?_modify_self, hl]; rfl, by simpa using hn⟩)
    ps m r hm (by intros; trivial)
  rw [key]
  have e := foldl_modify row (fun p : Id × K => ((find ids p.1).getD 0, p.2)) ps m
  constructor
  · rintro ⟨qs, h1, h2, rfl⟩
    have : ps = qs := by
      clear key e h2
      induction h1 with
      | nil => rfl
      | cons h _ ih => rw [h, ih]
    subst this
    exact ⟨(chain_const _ _ _ _).1 h2, e⟩
  · rintro ⟨h2, rfl⟩
    exact ⟨ps, List.forall₂_same.2 fun _ _ => rfl, (chain_const _ _ _ _).2 h2, e.symm⟩

theorem assignAll_ub {ids : List (Id × Nat)} {row n : Nat} {m : List (List K)}
    {ps : List (Id × K)} (hm : ∃ l, m[row]? = some l ∧ l.length = n)
    (hp : ∀ p ∈ ps, (find ids p.1).getD 0 < n) : ps.foldlM (assign ids row) m ≠ .ub := by
  rw [(assignAll_ok hm (r := _)).2 ⟨hp, rfl⟩]; simp

theorem checkAssigned_ok {ids : List (Id × Nat)} {names : List Id} {u : Unit} :
    checkAssigned ids names = .ok u ↔ ∀ n ∈ names, n ≠ [] ∧ ∃ j, find ids n = some j := by
  unfold checkAssigned
  split_ifs with h
  · simp only [reduceCtorEq, false_iff]
    intro hc
    obtain ⟨n, hn, h⟩ := List.any_eq_true.1 h
    obtain ⟨h1, j, h2⟩ := hc n hn
    simp [h1, h2] at h
  · simp only [true_iff]
    intro n hn
    have : ¬ ((find ids n).isNone || n.isEmpty) = true := fun hc =>
      h (List.any_eq_true.2 ⟨n, hn, hc⟩)
    cases hf : find ids n with
    | none => simp [hf] at this
    | some j => simp [hf] at this; exact ⟨this, j, rfl⟩

theorem checkAssigned_ub {ids : List (Id × Nat)} {names : List Id} :
    checkAssigned ids names ≠ .ub := by
  unfold checkAssigned
  split_ifs <;> simp

theorem parseWeights_ok [One K] {w : Entry (List K)} {n : Nat} {ws : List K} :
    parseWeights w n = .ok ws ↔ ws.length = n ∧
      ((w = .missing ∧ ∀ v ∈ ws, v = 1) ∨ w = .val ws) := by
  cases w with
  | missing =>
    simp only [parseWeights, Outcome.ok.injEq, reduceCtorEq, or_false, true_and]
    constructor
    · rintro rfl
      exact ⟨by simp, fun v hv => (List.mem_replicate.1 hv).2⟩
    · rintro ⟨h1, h2⟩
      exact (List.eq_replicate_iff.2 ⟨h1, h2⟩).symm
  | malformed => simp [parseWeights]
  | val vs =>
    simp only [parseWeights]
    split_ifs with h
    · simp only [reduceCtorEq, false_and, false_or, false_iff, not_and, Entry.val.injEq]
      rintro h1 rfl; exact h h1
    · simp only [Outcome.ok.injEq, reduceCtorEq, false_and, false_or, Entry.val.injEq]
      constructor
      · rintro rfl; exact ⟨by simpa using h, rfl⟩
      · rintro ⟨_, h⟩; exact h

theorem parseWeights_ub [One K] {w : Entry (List K)} {n : Nat} : parseWeights w n ≠ .ub := by
  unfold parseWeights
  split
  · simp
  · simp
  · split_ifs <;> simp

theorem assignedNames_eq (text : Id) :
    assignedNames text = split (text.filter fun c => !decide (White c)) := by
  unfold assignedNames
  congr 1
  exact List.filter_congr fun c _ => by rw [white_iff]

theorem isAssignment_iff [One K] {s : Sub K} {ps : List (Id × K)} :
    IsAssignment s ps ↔ ∃ text ws, s.assigned = some text ∧
      (∀ n ∈ assignedNames text, n ≠ []) ∧
      parseWeights s.weights (assignedNames text).length = .ok ws ∧
      ps = (assignedNames text).zip ws := by
  simp only [IsAssignment, separated_iff, parseWeights_ok, assignedNames_eq]
  constructor
  · rintro ⟨text, h1, ⟨h2, h3⟩, h4⟩
    refine ⟨text, ps.map Prod.snd, h1, ?_, ?_, ?_⟩
    · rw [h2]; exact h3
    · rw [h2]
      refine ⟨by simp, ?_⟩
      rcases h4 with ⟨h4, h5⟩ | h4
      · refine Or.inl ⟨h4, ?_⟩
        intro v hv
        obtain ⟨p, hp, rfl⟩ := List.mem_map.1 hv
        exact h5 p hp
      · exact Or.inr h4
    · rw [h2]
      clear h2 h3 h4
      induction ps with
      | nil => rfl
      | cons p ps ih => simp only [List.map_cons, List.zip_cons_cons, ← ih]
  · rintro ⟨text, ws, h1, h2, ⟨h3, h4⟩, rfl⟩
    have e1 := List.map_fst_zip (l₁ := split (text.filter fun c => !decide (White c))) (l₂ := ws)
      (by omega)
    have e2 := List.map_snd_zip (l₁ := split (text.filter fun c => !decide (White c))) (l₂ := ws)
      (by omega)
    refine ⟨text, h1, ⟨e1.symm, by rw [e1]; exact h2⟩, ?_⟩
    rcases h4 with ⟨h4, h5⟩ | h4
    · refine Or.inl ⟨h4, ?_⟩
      rintro ⟨n, v⟩ hp
      exact h5 v (List.of_mem_zip hp).2
    · rw [e2]; exact Or.inr h4

/-- The contents of a subwoofer node. -/
structure SRead (K : Type) where
  c : Nat
  ps : List (Id × K)
  g : K × K
  row : List (Biquad.Coef K)

/-- Reading a subwoofer node. -/
structure SR [Zero K] [One K] (cv : Conv K) (t : Option (EqTable K)) (ids : List (Id × Nat))
    (n : Nat) (s : Sub K) (y : SRead K) : Prop where
  c : s.channel = .val y.c
  ps : IsAssignment s y.ps
  w : ∀ p ∈ y.ps, Writable ids n p.1
  g : parseAdjust cv s.adjust = .ok y.g
  row : RowOf t s.eq y.row

/-- The effect of a subwoofer node. -/
def updS (a : Arr K) (y : SRead K × Nat) : Arr K :=
  { a with
    subChannels := a.subChannels.set y.2 y.1.c
    subGains := a.subGains.modify y.2 fun l => setAll l (columns a.ids y.1.ps)
    gainAdj := a.gainAdj.set (a.channel.length + y.2) y.1.g.1
    delayAdj := a.delayAdj.set (a.channel.length + y.2) y.1.g.2
    eqs := a.eqs.map (·.set (a.channel.length + y.2) y.1.row) }

/-- The sizes that stay fixed while subwoofers are placed. -/
structure SubShape (d inf : Bool) (t : Option (EqTable K)) (chs : List Nat) (N v : Nat)
    (ids : List (Id × Nat)) (a : Arr K) : Prop where
  shape : Shape d inf t chs N (chs.length + v) a
  rows : Rows v chs.length a.subGains
  channels : a.subChannels.length = v
  ids : a.ids = ids

theorem updS_shape [Zero K] [One K] {d inf : Bool} {t : Option (EqTable K)} {chs : List Nat}
    {N v : Nat} {ids : List (Id × Nat)} {a : Arr K} (y : SRead K × Nat)
    (ha : SubShape d inf t chs N v ids a) : SubShape d inf t chs N v ids (updS a y) :=
  ⟨⟨ha.shape.d, ha.shape.inf, ha.shape.chs, ha.shape.pos, by simpa [updS] using ha.shape.gain,
      by simpa [updS] using ha.shape.delay, eqShape_set ha.shape.eqs⟩,
    rows_modify ha.rows, by simpa [updS] using ha.channels, ha.ids⟩

theorem placeSub_ok [Zero K] [One K] {cv : Conv K} {d inf : Bool} {t : Option (EqTable K)}
    {chs : List Nat} {N v : Nat} {ids : List (Id × Nat)} {a r : Arr K} {x : Sub K × Nat}
    (ha : SubShape d inf t chs N v ids a) (hx : x.2 < v) :
    placeSub cv t a x = .ok r ↔ ∃ y : SRead K × Nat,
      (x.2 = y.2 ∧ SR cv t ids chs.length x.1 y.1) ∧ True ∧ r = updS a y := by
  obtain ⟨s, k⟩ := x
  simp only at hx
  have hrow := ha.rows k hx
  constructor
  · intro h
    simp only [placeSub, bind_ok, getText_ok, entry_get_ok, checkAssigned_ok, Outcome.ok.injEq] at h
    obtain ⟨c, h1, sc, h2, text, h3, _, h4, ws, h5, m, h6, g, h7, ga, h8, de, h9, eqs, h10, rfl⟩ := h
    rw [put_ok (by rw [ha.channels]; omega)] at h2
    rw [put_ok (by rw [ha.shape.gain, ha.shape.chs]; omega)] at h8
    rw [put_ok (by rw [ha.shape.delay, ha.shape.chs]; omega)] at h9
    rw [applyEq_ok ha.shape.eqs (by rw [ha.shape.chs]; omega)] at h10
    rw [assignAll_ok hrow] at h6
    obtain ⟨h6, rfl⟩ := h6
    obtain ⟨row, h10, rfl⟩ := h10
    subst h2 h8 h9
    refine ⟨(⟨c, (assignedNames text).zip ws, g, row⟩, k), ⟨rfl, h1, ?_, ?_, h7, h10⟩, trivial, rfl⟩
    · exact isAssignment_iff.2 ⟨text, ws, h3, fun n hn => (h4 n hn).1, h5, rfl⟩
    · rintro ⟨n, w⟩ hp
      obtain ⟨h11, j, h12⟩ := h4 n (List.of_mem_zip hp).1
      have := h6 _ hp
      simp only [h12, Option.getD_some] at this
      rw [← ha.ids]
      exact ⟨h11, j, h12, this⟩
  · rintro ⟨⟨y, i⟩, ⟨h0, h1, h2, h3, h4, h5⟩, -, rfl⟩
    simp only at h0 h1 h2 h3 h4 h5
    subst h0
    obtain ⟨text, ws, h6, h7, h8, h9⟩ := isAssignment_iff.1 h2
    have hlen : (assignedNames text).length = ws.length := ((parseWeights_ok.1 h8).1).symm
    have hw : ∀ n ∈ assignedNames text, Writable ids chs.length n := by
      intro n hn
      have e := List.map_fst_zip (l₁ := assignedNames text) (l₂ := ws) (by omega)
      rw [← e, ← h9] at hn
      obtain ⟨p, hp, rfl⟩ := List.mem_map.1 hn
      exact h3 p hp
    simp only [placeSub, bind_ok, getText_ok, entry_get_ok, checkAssigned_ok, Outcome.ok.injEq]
    refine ⟨y.c, h1, _, (put_ok (by rw [ha.channels]; omega)).2 rfl, text, h6, (), ?_, ws, h8, _,
      (assignAll_ok hrow).2 ⟨?_, rfl⟩, y.g, h4, _,
      (put_ok (by rw [ha.shape.gain, ha.shape.chs]; omega)).2 rfl, _,
      (put_ok (by rw [ha.shape.delay, ha.shape.chs]; omega)).2 rfl, _,
      (applyEq_ok ha.shape.eqs (by rw [ha.shape.chs]; omega)).2 ⟨y.row, h5, rfl⟩, ?_⟩
    · intro n hn
      obtain ⟨a1, j, a2, _⟩ := hw n hn
      rw [ha.ids]; exact ⟨a1, j, a2⟩
    · intro p hp
      rw [← h9] at hp
      obtain ⟨a1, j, a2, a3⟩ := h3 p hp
      rw [ha.ids, a2]; exact a3
    · simp only [updS]
      rw [h9]

theorem placeSub_ub [Zero K] [One K] {cv : Conv K} {d inf : Bool} {t : Option (EqTable K)}
    {chs : List Nat} {N v : Nat} {ids : List (Id × Nat)} {a : Arr K} {x : Sub K × Nat}
    (ha : SubShape d inf t chs N v ids a) (hx : x.2 < v)
    (href : ∀ text, x.1.assigned = some text → (∀ n ∈ assignedNames text, n ≠ []) →
      ∀ n ∈ assignedNames text, ∀ j, find ids n = some j → j < chs.length) :
    placeSub cv t a x ≠ .ub := by
  obtain ⟨s, k⟩ := x
  simp only at hx href
  have hrow := ha.rows k hx
  intro h
  simp only [placeSub, bind_ub, getText_ub, entry_get_ub, checkAssigned_ub, parseWeights_ub,
    parseAdjust_ub, applyEq_ub, false_or, getText_ok, entry_get_ok, checkAssigned_ok] at h
  obtain ⟨c, _, h | ⟨_, _, text, h3, _, h4, ws, h5, h⟩⟩ := h
  · exact put_ub (by rw [ha.channels]; omega) h
  · rcases h with h | ⟨_, _, g, _, h⟩
    · refine assignAll_ub hrow ?_ h
      rintro ⟨n, w⟩ hp
      have hn := (List.of_mem_zip hp).1
      obtain ⟨_, j, h12⟩ := h4 n hn
      simp only [h12, Option.getD_some]
      exact href text h3 (fun n hn => (h4 n hn).1) n hn j (by rw [← ha.ids]; exact h12)
    · rcases h with h | ⟨_, _, h⟩
      · exact put_ub (by rw [ha.shape.gain, ha.shape.chs]; omega) h
      · rcases h with h | ⟨_, _, _, _, h⟩
        · exact put_ub (by rw [ha.shape.delay, ha.shape.chs]; omega) h
        · cases h

theorem placeSubs_ok [Zero K] [One K] {cv : Conv K} {d inf : Bool} {t : Option (EqTable K)}
    {chs : List Nat} {N : Nat} {ids : List (Id × Nat)} {a r : Arr K} {ss : List (Sub K)}
    (ha : SubShape d inf t chs N ss.length ids a) :
    ss.zipIdx.foldlM (placeSub cv t) a = .ok r ↔ ∃ ys,
      List.Forall₂ (SR cv t ids chs.length) ss ys ∧ r = ys.zipIdx.foldl updS a := by
  rw [loop_ok (R := fun (x : Sub K × Nat) (y : SRead K × Nat) =>
      x.2 = y.2 ∧ SR cv t ids chs.length x.1 y.1)
    (C := fun _ _ => True) (g := updS) (I := SubShape d inf t chs N ss.length ids)
    (P := fun x => x.2 < ss.length)
    (fun s x r hs hx => placeSub_ok hs hx) (fun s x y hs _ _ _ => updS_shape y hs) _ a r ha
    (fun x hx => by
      obtain ⟨x, i⟩ := x
      have := List.mem_zipIdx hx
      simp only; omega)]
  constructor
  · rintro ⟨ys, h1, _, rfl⟩
    obtain ⟨zs, h3, rfl⟩ := zipIdx_forall₂.1 h1
    exact ⟨zs, h3, rfl⟩
  · rintro ⟨zs, h3, rfl⟩
    exact ⟨_, zipIdx_forall₂.2 ⟨zs, h3, rfl⟩, chain_true _ _ _, rfl⟩

theorem placeSubs_ub [Zero K] [One K] {cv : Conv K} {d inf : Bool} {t : Option (EqTable K)}
    {chs : List Nat} {N : Nat} {ids : List (Id × Nat)} {a : Arr K} {ss : List (Sub K)}
    (ha : SubShape d inf t chs N ss.length ids a)
    (href : ∀ s ∈ ss, ∀ text, s.assigned = some text → (∀ n ∈ assignedNames text, n ≠ []) →
      ∀ n ∈ assignedNames text, ∀ j, find ids n = some j → j < chs.length) :
    ss.zipIdx.foldlM (placeSub cv t) a ≠ .ub := by
  refine loop_ub (I := SubShape d inf t chs N ss.length ids)
    (P := fun x => x.1 ∈ ss ∧ x.2 < ss.length)
    (fun s x hs hx => placeSub_ub hs hx.2 (href x.1 hx.1)) ?_ _ a ha ?_
  · intro s x r hs hx h
    obtain ⟨y, _, _, rfl⟩ := (placeSub_ok hs hx.2).1 h
    exact updS_shape y hs
  · rintro ⟨x, i⟩ hx
    have := List.mem_zipIdx hx
    refine ⟨?_, by simp only; omega⟩
    obtain ⟨_, _, h⟩ := this
    rw [h]; exact List.getElem_mem _

theorem foldl_updS_same (ys : List (SRead K × Nat)) (a : Arr K) :
    (ys.foldl updS a).is2D = a.is2D ∧ (ys.foldl updS a).isInfinite = a.isInfinite ∧
    (ys.foldl updS a).channel = a.channel ∧ (ys.foldl updS a).position = a.position ∧
    (ys.foldl updS a).ids = a.ids ∧ (ys.foldl updS a).reRouting = a.reRouting ∧
    (ys.foldl updS a).triplets = a.triplets ∧
    (ys.foldl updS a).subChannels = setAll a.subChannels (ys.map fun y => (y.2, y.1.c)) ∧
    (ys.foldl updS a).gainAdj =
      setAll a.gainAdj (ys.map fun y => (a.channel.length + y.2, y.1.g.1)) ∧
    (ys.foldl updS a).delayAdj =
      setAll a.delayAdj (ys.map fun y => (a.channel.length + y.2, y.1.g.2)) ∧
    (ys.foldl updS a).eqs =
      a.eqs.map fun m => setAll m (ys.map fun y => (a.channel.length + y.2, y.1.row)) := by
  induction ys generalizing a with
  | nil => simp [setAll]
  | cons y ys ih =>
    rw [List.foldl_cons]
    obtain ⟨h1, h2, h3, h4, h5, h6, h7, h8, h9, h10, h11⟩ := ih (updS a y)
    rw [h1, h2, h3, h4, h5, h6, h7, h8, h9, h10, h11]
    simp [updS, setAll, Function.comp_def]

theorem foldl_updS_rows (ys : List (SRead K)) (a : Arr K) (i : Nat) :
    (∀ k < i, ((ys.zipIdx i).foldl updS a).subGains[k]? = a.subGains[k]?) ∧
    ∀ k y, ys[k]? = some y → ((ys.zipIdx i).foldl updS a).subGains[i + k]? =
      (a.subGains[i + k]?).map fun l => setAll l (columns a.ids y.ps) := by
  induction ys generalizing a i with
  | nil => simp
  | cons y ys ih =>
    rw [List.zipIdx_cons, List.foldl_cons]
    obtain ⟨g1, g2⟩ := ih (updS a (y, i)) (i + 1)
    constructor
    · intro k hk
      rw [g1 k (by omega)]
      simp only [updS]
      rw [getElem?_modify_ne _ _ (by omega)]
    · intro k z hz
      cases k with
      | zero =>
        simp only [List.getElem?_cons_zero, Option.some.injEq] at hz
        subst hz
        have e := g1 i (by omega)
        simp only [updS] at e
        rw [getElem?_modify_self] at e
        exact e
      | succ k =>
        simp only [List.getElem?_cons_succ] at hz
        have := g2 k z hz
        rw [show i + 1 + k = i + (k + 1) by omega] at this
        rw [this]
        simp only [updS]
        rw [getElem?_modify_ne _ _ (by omega)]

/-! ### Channels -/

theorem sorted_perm (l : List Nat) : (sorted l).Perm l := List.perm_insertionSort _ l

theorem sorted_le (l : List Nat) : (sorted l).Pairwise (· ≤ ·) := by
  exact List.pairwise_insertionSort _ l

theorem hasAdjacent_iff {l : List Nat} (h : l.Pairwise (· ≤ ·)) :
    hasAdjacent l = false ↔ l.Pairwise (· < ·) := by
  induction l with
  | nil => simp [hasAdjacent]
  | cons a l ih =>
    cases l with
    | nil => simp [hasAdjacent]
    | cons b l =>
      rw [List.pairwise_cons] at h
      simp only [hasAdjacent, Bool.or_eq_false_iff, decide_eq_false_iff_not, ih h.2]
      constructor
      · rintro ⟨h1, h2⟩
        refine List.pairwise_cons.2 ⟨?_, h2⟩
        intro c hc
        have hab := h.1 b (by simp)
        rcases List.mem_cons.1 hc with rfl | hc
        · omega
        · have := (List.pairwise_cons.1 h2).1 c hc
          omega
      · intro h1
        rw [List.pairwise_cons] at h1
        exact ⟨by have := h1.1 b (by simp); omega, h1.2⟩

theorem pairwise_lt_nodup {l : List Nat} (h : l.Pairwise (· < ·)) : l.Nodup :=
  h.imp fun h => by omega

theorem sorted_lt_iff {l : List Nat} : (sorted l).Pairwise (· < ·) ↔ l.Nodup := by
  constructor
  · intro h; exact (sorted_perm l).nodup_iff.1 (pairwise_lt_nodup h)
  · intro h
    have hn := (sorted_perm l).nodup_iff.2 h
    have := (sorted_le l).and hn
    exact this.imp fun ⟨h1, h2⟩ => by omega

theorem checkChannels_ok {l m : List Nat} {u : Unit} :
    checkChannels l m = .ok u ↔ (l ++ m).Nodup := by
  have hl : hasAdjacent (sorted l) = true ↔ ¬ l.Nodup := by
    rw [← sorted_lt_iff, ← hasAdjacent_iff (sorted_le l)]; simp
  have hm : hasAdjacent (sorted m) = true ↔ ¬ m.Nodup := by
    rw [← sorted_lt_iff, ← hasAdjacent_iff (sorted_le m)]; simp
  have hi : intersects (sorted l) (sorted m) = true ↔ ¬ ∀ c ∈ l, c ∉ m := by
    simp only [intersects, List.any_eq_true, List.contains_iff_mem]
    constructor
    · rintro ⟨c, h1, h2⟩ h
      exact h c ((sorted_perm l).mem_iff.1 h1) ((sorted_perm m).mem_iff.1 h2)
    · intro h
      simp only [not_forall, not_not] at h
      obtain ⟨c, h1, h2⟩ := h
      exact ⟨c, (sorted_perm l).mem_iff.2 h1, (sorted_perm m).mem_iff.2 h2⟩
  rw [List.nodup_append]
  unfold checkChannels
  split_ifs with h1 h2 h3
  · simp only [reduceCtorEq, false_iff]; exact fun h => hl.1 h1 h.1
  · simp only [reduceCtorEq, false_iff]; exact fun h => hm.1 h2 h.2.1
  · simp only [reduceCtorEq, false_iff]
    exact fun h => hi.1 h3 fun c hc hc' => h.2.2 c hc c hc' rfl
  · simp only [true_iff]
    refine ⟨not_not.1 fun h => h1 (hl.2 h), not_not.1 fun h => h2 (hm.2 h), ?_⟩
    rintro a ha b hb rfl
    exact (not_not.1 fun h => h3 (hi.2 h)) a ha hb

theorem checkChannels_ub {l m : List Nat} : checkChannels l m ≠ .ub := by
  unfold checkChannels
  split_ifs <;> simp

end Visr.ArrayConfig
