import Verif.Layout.Lemmas

/-!
# Lemmas about buffer assignment: all receive ports, all sample types, addresses
-/

namespace Visr.Layout
open Visr

theorem recvLoop_spec {env : Env} {ty : Nat} {typed : List Conn} {c0 : List (Chan × Chan)}
    (hs : ∀ k ∈ typed, k.1.2 < env.width k.1.1) (hroute : env.routable ty = true) :
    ∀ (rs ps : List Nat) (st : St), Inv env typed c0 ps st → (ps ++ rs).Nodup → (∀ r ∈ rs, 0 < env.width r) →
      (∀ r ∈ rs, Complete (env.width r) r (typed.filter fun k => k.2.1 = r)) →
      ∃ st', recvLoop env ty typed rs st = .ok st' ∧ Inv env typed c0 (ps ++ rs) st' := by
  intro rs
  induction rs with
  | nil => intro ps st hi _ _ _; exact ⟨st, rfl, by simpa using hi⟩
  | cons r rs ih =>
    intro ps st hi hn hw hc
    have hr : r ∉ ps := by
      intro h
      have := List.nodup_append.1 hn
      exact this.2.2 r h r (by simp) rfl
    obtain ⟨st1, h1, h2⟩ := recvStep_spec (ty := ty) hi hr (hw r (by simp)) hs (hc r (by simp)) hroute
    obtain ⟨st', h3, h4⟩ := ih (ps ++ [r]) st1 h2 (by simpa using hn) (fun x hx => hw x (by simp [hx]))
      (fun x hx => hc x (by simp [hx]))
    refine ⟨st', ?_, by simpa using h4⟩
    simp only [recvLoop, h1]
    exact h3

theorem sendLoop_spec {env : Env} : ∀ (ss : List Nat) (t : Offsets) (n : Nat), Tiled (sendWidth env) t n → ss.Nodup →
    (∀ s ∈ ss, find t (.orig s) = none) →
    Tiled (sendWidth env) (sendLoop env ss (t, n)).1 (sendLoop env ss (t, n)).2 ∧
    (∀ p, (∃ o, find (sendLoop env ss (t, n)).1 p = some o) ↔ (∃ o, find t p = some o) ∨ ∃ s ∈ ss, p = .orig s) := by
  intro ss
  induction ss with
  | nil => intro t n h _ _; exact ⟨h, by simp [sendLoop]⟩
  | cons s ss ih =>
    intro t n h hn hf
    have hs := hf s (by simp)
    have hn' := List.nodup_cons.1 hn
    obtain ⟨i1, i2⟩ := ih (insert t (.orig s) n) (n + env.width s) (h.insert hs) hn'.2 (by
      intro x hx
      rw [find_insert_new hs, if_neg, hf x (by simp [hx])]
      intro e
      injection e with e
      subst e
      exact hn'.1 hx)
    refine ⟨i1, ?_⟩
    intro p
    show (∃ o, find (sendLoop env ss (insert t (.orig s) n, n + env.width s)).1 p = some o) ↔ _
    rw [i2 p, find_insert_new hs]
    by_cases e : PortRef.orig s = p
    · subst e
      simp
    · simp only [if_neg e, List.mem_cons, exists_eq_or_imp]
      have e' : ¬ p = PortRef.orig s := fun h => e h.symm
      simp [e']

/-- The connections of one sample type. -/
def typedConns (env : Env) (conns : List Conn) (ty : Nat) : List Conn := conns.filter fun k => env.stype k.1.1 = ty

theorem mem_typedConns {env : Env} {conns : List Conn} {ty : Nat} {k : Conn} :
    k ∈ typedConns env conns ty ↔ k ∈ conns ∧ env.stype k.1.1 = ty := by
  simp [typedConns]

/-- In a well-formed flow all connections to a port have the same type, so each port is complete within its type. -/
theorem complete_of_wellFormed {env : Env} {conns : List Conn} (hwf : WellFormed env conns) {ty : Nat} {k0 : Conn}
    (hk0 : k0 ∈ typedConns env conns ty) :
    Complete (env.width k0.2.1) k0.2.1 ((typedConns env conns ty).filter fun k => k.2.1 = k0.2.1) := by
  have hmem : ∀ k, k ∈ (typedConns env conns ty).filter (fun k => k.2.1 = k0.2.1) ↔ k ∈ conns ∧ k.2.1 = k0.2.1 := by
    intro k
    rw [List.mem_filter, mem_typedConns]
    simp only [decide_eq_true_eq]
    constructor
    · rintro ⟨⟨h1, _⟩, h2⟩; exact ⟨h1, h2⟩
    · rintro ⟨h1, h2⟩
      obtain ⟨h3, h4⟩ := mem_typedConns.1 hk0
      refine ⟨⟨h1, ?_⟩, h2⟩
      rw [hwf.types k h1, h2, ← hwf.types k0 h3, h4]
  obtain ⟨hk0c, _⟩ := mem_typedConns.1 hk0
  refine ⟨fun k hk => ((hmem k).1 hk).2, ?_, ?_, ?_⟩
  · intro k hk
    obtain ⟨h1, h2⟩ := (hmem k).1 hk
    rw [← h2]; exact hwf.recvIdx k h1
  · have hsub : (((typedConns env conns ty).filter fun k => k.2.1 = k0.2.1).map Prod.snd).Sublist (conns.map Prod.snd) :=
      (List.Sublist.trans List.filter_sublist List.filter_sublist).map _
    have hnd : (((typedConns env conns ty).filter fun k => k.2.1 = k0.2.1).map Prod.snd).Nodup := by
      rw [List.nodup_iff_count_le_one]
      intro x
      by_cases hx : x ∈ ((typedConns env conns ty).filter fun k => k.2.1 = k0.2.1).map Prod.snd
      · obtain ⟨k, hk, rfl⟩ := List.mem_map.1 hx
        obtain ⟨h1, _⟩ := (hmem k).1 hk
        have h2 := hwf.once k h1 k.2.2 (hwf.recvIdx k h1)
        have h3 := hsub.count_le k.2
        have h4 : (k.2.1, k.2.2) = k.2 := rfl
        rw [h4] at h2
        omega
      · rw [List.count_eq_zero_of_not_mem hx]; omega
    have : (((typedConns env conns ty).filter fun k => k.2.1 = k0.2.1).map fun k => k.2.2)
        = (((typedConns env conns ty).filter fun k => k.2.1 = k0.2.1).map Prod.snd).map Prod.snd := by
      rw [List.map_map]; rfl
    rw [this]
    refine List.Nodup.map_on ?_ hnd
    intro x hx y hy hxy
    obtain ⟨kx, hkx, rfl⟩ := List.mem_map.1 hx
    obtain ⟨ky, hky, rfl⟩ := List.mem_map.1 hy
    exact Prod.ext (((hmem kx).1 hkx).2.trans ((hmem ky).1 hky).2.symm) hxy
  · intro j hj
    have h1 := hwf.once k0 hk0c j hj
    have h2 : (k0.2.1, j) ∈ conns.map Prod.snd := List.count_pos_iff.1 (by omega)
    obtain ⟨k, hk, he⟩ := List.mem_map.1 h2
    exact ⟨k, (hmem k).2 ⟨hk, by rw [he]⟩, by rw [he]⟩

/-- The state of a sample type after the first loop. -/
structure Final (env : Env) (conns : List Conn) (c0 : List (Chan × Chan)) (ty : Nat) (st : St) : Prop where
  inv : ∃ ps, Inv env (typedConns env conns ty) c0 ps st ∧ ∀ k ∈ typedConns env conns ty, k.2.1 ∈ ps

theorem typeStep_spec {env : Env} {conns : List Conn} (henv : EnvOK env) (hwf : WellFormed env conns)
    (c0 : List (Chan × Chan)) {ty : Nat} (hroute : env.routable ty = true) :
    ∃ st, typeStep env conns c0 ty = .ok st ∧ Final env conns c0 ty st := by
  have hsnd : (env.order ((typedConns env conns ty).map fun k => k.1.1).dedup).Nodup :=
    (henv.order _).nodup_iff.2 (List.nodup_dedup _)
  have hrnd : (env.order ((typedConns env conns ty).map fun k => k.2.1).dedup).Nodup :=
    (henv.order _).nodup_iff.2 (List.nodup_dedup _)
  have hsm : ∀ s, s ∈ env.order ((typedConns env conns ty).map fun k => k.1.1).dedup ↔
      ∃ k ∈ typedConns env conns ty, k.1.1 = s := by
    intro s; rw [(henv.order _).mem_iff, List.mem_dedup, List.mem_map]
  have hrm : ∀ s, s ∈ env.order ((typedConns env conns ty).map fun k => k.2.1).dedup ↔
      ∃ k ∈ typedConns env conns ty, k.2.1 = s := by
    intro s; rw [(henv.order _).mem_iff, List.mem_dedup, List.mem_map]
  obtain ⟨s1, s2⟩ := sendLoop_spec (env := env) _ [] 0 .nil hsnd (fun _ _ => find_nil)
  generalize hsl : sendLoop env (env.order ((typedConns env conns ty).map fun k => k.1.1).dedup) ([], 0) = sl at s1 s2
  have hinit : Inv env (typedConns env conns ty) c0 [] ⟨sl.1, [], sl.2, c0, []⟩ := by
    refine ⟨s1, ?_, List.nodup_nil, ?_, by simp, by simp, by simp, by simp, by simp, fun _ h => h, fun _ h => Or.inl h⟩
    · intro k hk
      exact (s2 _).2 (Or.inr ⟨_, (hsm _).2 ⟨k, hk, rfl⟩, rfl⟩)
    · intro e he
      rcases (s2 e.1).1 ⟨e.2, s1.keys.find he⟩ with ⟨o, h⟩ | ⟨s, hs, h⟩
      · rw [find_nil] at h; cases h
      · obtain ⟨k, hk, rfl⟩ := (hsm s).1 hs
        exact Or.inl ⟨k, hk, h⟩
  have hs : ∀ k ∈ typedConns env conns ty, k.1.2 < env.width k.1.1 :=
    fun k hk => hwf.sendIdx k (mem_typedConns.1 hk).1
  obtain ⟨st, h1, h2⟩ := recvLoop_spec (ty := ty) hs hroute _ [] _ hinit
    (by rw [List.nil_append]; exact hrnd)
    (by
      intro r hr
      obtain ⟨k, hk, rfl⟩ := (hrm r).1 hr
      exact Nat.lt_of_le_of_lt (Nat.zero_le _) (hwf.recvIdx k (mem_typedConns.1 hk).1))
    (by
      intro r hr
      obtain ⟨k, hk, rfl⟩ := (hrm r).1 hr
      exact complete_of_wellFormed hwf hk)
  refine ⟨st, ?_, ⟨_, h2, ?_⟩⟩
  · unfold typeStep
    simp only []
    show recvLoop env ty (typedConns env conns ty) (env.order ((typedConns env conns ty).map fun k => k.2.1).dedup)
      ⟨(sendLoop env (env.order ((typedConns env conns ty).map fun k => k.1.1).dedup) ([], 0)).1, [],
       (sendLoop env (env.order ((typedConns env conns ty).map fun k => k.1.1).dedup) ([], 0)).2, c0, []⟩ = _
    rw [hsl]
    exact h1
  · intro k hk
    rw [List.nil_append]
    exact (hrm _).2 ⟨k, hk, rfl⟩

theorem typeLoop_spec {env : Env} {conns : List Conn} (henv : EnvOK env) (hwf : WellFormed env conns)
    (hroute : ∀ k ∈ conns, env.routable (env.stype k.1.1) = true) : ∀ (tys : List Nat) (c0 : List (Chan × Chan)),
    (∀ ty ∈ tys, ∃ k ∈ conns, env.stype k.1.1 = ty) →
    ∃ sts cs, typeLoop env conns tys c0 = .ok (sts, cs) ∧ sts.map Prod.fst = tys ∧
      (∀ e ∈ sts, (∃ c1, Final env conns c1 e.1 e.2) ∧ ∀ d ∈ e.2.conns, d ∈ cs) ∧ (∀ d ∈ c0, d ∈ cs) ∧
      ∀ d ∈ cs, d ∈ c0 ∨ ∃ e ∈ sts, SoundConn (typedConns env conns e.1) e.2 d := by
  intro tys
  induction tys with
  | nil => intro c0 _; exact ⟨[], c0, rfl, rfl, by simp, fun _ h => h, fun _ h => Or.inl h⟩
  | cons ty tys ih =>
    intro c0 hty
    obtain ⟨k, hk, hkt⟩ := hty ty (by simp)
    obtain ⟨st, h1, h2⟩ := typeStep_spec henv hwf c0 (ty := ty) (by rw [← hkt]; exact hroute k hk)
    obtain ⟨sts, cs, i1, i2, i3, i4, i5⟩ := ih st.conns (fun t ht => hty t (by simp [ht]))
    obtain ⟨ps, hinv, _⟩ := h2.inv
    refine ⟨(ty, st) :: sts, cs, by simp only [typeLoop, h1, i1], by simp [i2], ?_, ?_, ?_⟩
    · intro e he
      rcases List.mem_cons.1 he with rfl | he
      · exact ⟨⟨c0, h2⟩, i4⟩
      · exact i3 e he
    · intro d hd
      exact i4 d (hinv.keep d hd)
    · intro d hd
      rcases i5 d hd with h | ⟨e, he, h⟩
      · rcases hinv.conns d h with h | h
        · exact Or.inl h
        · exact Or.inr ⟨(ty, st), by simp, h⟩
      · exact Or.inr ⟨e, by simp [he], h⟩

/-! ## Addresses -/

/-- The buffer configuration given to a port at position `o` when the pool for its type starts at `off`. -/
def cfgOf (env : Env) (ty off : Nat) (e : PortRef × Nat) : Cfg :=
  ⟨e.1, off + chanSize env ty * e.2, chanSize env ty / env.size ty, sampleSize env ty e.1⟩

theorem chanSize_spec {env : Env} (henv : EnvOK env) (ty : Nat) :
    env.period * env.size ty ≤ chanSize env ty ∧ env.align ∣ chanSize env ty ∧ env.size ty ∣ chanSize env ty := by
  have h := (Efl.nextAlignedSize_spec (env.period * env.size ty) env.align).2 henv.align
  exact ⟨h.1, h.2.1, Dvd.dvd.trans (henv.size ty).2 h.2.1⟩

theorem assign_spec {env : Env} (henv : EnvOK env) : ∀ (sts : List (Nat × St)) (off : Nat),
    (sts.map Prod.fst).Nodup → (∀ e ∈ sts, Tiled (sendWidth env) e.2.send e.2.next) → env.align ∣ off →
    ∃ (cfgs : List Cfg) (start : Nat → Nat), assign env sts off = .ok (cfgs, off + totalSize env sts) ∧
      (∀ c, c ∈ cfgs ↔ ∃ e ∈ sts, ∃ x, (x ∈ e.2.send ∨ x ∈ e.2.recv) ∧ c = cfgOf env e.1 (start e.1) x) ∧
      (∀ e ∈ sts, off ≤ start e.1 ∧ start e.1 + e.2.next * chanSize env e.1 ≤ off + totalSize env sts ∧
        env.align ∣ start e.1) ∧
      (∀ e ∈ sts, ∀ e' ∈ sts, e.1 ≠ e'.1 → start e.1 + e.2.next * chanSize env e.1 ≤ start e'.1 ∨
        start e'.1 + e'.2.next * chanSize env e'.1 ≤ start e.1) := by
  intro sts
  induction sts with
  | nil => intro off _ _ _; exact ⟨[], fun _ => 0, rfl, by simp, by simp, by simp⟩
  | cons x sts ih =>
    obtain ⟨ty, st⟩ := x
    intro off hn ht hoff
    rw [List.map_cons] at hn
    obtain ⟨hn1, hn2⟩ := List.nodup_cons.1 hn
    obtain ⟨hc1, hc2, hc3⟩ := chanSize_spec henv ty
    have htile := ht (ty, st) (by simp)
    obtain ⟨cfgs, start, i1, i2, i3, i4⟩ := ih (off + st.next * chanSize env ty) hn2 (fun e he => ht e (by simp [he]))
      (Dvd.dvd.trans (by exact Nat.dvd_refl _) (Nat.dvd_add hoff (Dvd.dvd.mul_left hc2 _)))
    have hne : ∀ e ∈ sts, e.1 ≠ ty := by
      rintro e he rfl
      exact hn1 (List.mem_map.2 ⟨e, he, rfl⟩)
    have htot : totalSize env ((ty, st) :: sts) = st.next * chanSize env ty + totalSize env sts := by
      simp [totalSize]
    refine ⟨st.send.map (cfgOf env ty off) ++ st.recv.map (cfgOf env ty off) ++ cfgs,
      fun t => if t = ty then off else start t, ?_, ?_, ?_, ?_⟩
    · unfold assign
      rw [if_neg (by rw [not_not]; exact Nat.mod_eq_zero_of_dvd hc3)]
      simp only []
      rw [htile.sum, i1, htot, ← Nat.add_assoc]
      rfl
    · intro c
      simp only [List.mem_append, List.mem_map, i2, List.mem_cons, exists_eq_or_imp, if_true]
      constructor
      · rintro ((⟨x, hx, rfl⟩ | ⟨x, hx, rfl⟩) | ⟨e, he, x, hx, rfl⟩)
        · exact Or.inl ⟨x, Or.inl hx, rfl⟩
        · exact Or.inl ⟨x, Or.inr hx, rfl⟩
        · exact Or.inr ⟨e, he, x, hx, by rw [if_neg (hne e he)]⟩
      · rintro (⟨x, hx | hx, rfl⟩ | ⟨e, he, x, hx, hc⟩)
        · exact Or.inl (Or.inl ⟨x, hx, rfl⟩)
        · exact Or.inl (Or.inr ⟨x, hx, rfl⟩)
        · rw [if_neg (hne e he)] at hc
          exact Or.inr ⟨e, he, x, hx, hc⟩
    · intro e he
      rw [htot]
      rcases List.mem_cons.1 he with rfl | he
      · simp only [if_true]
        exact ⟨by omega, by omega, hoff⟩
      · simp only [if_neg (hne e he)]
        obtain ⟨h1, h2, h3⟩ := i3 e he
        exact ⟨by omega, by omega, h3⟩
    · intro e he e' he' hee
      rcases List.mem_cons.1 he with rfl | he <;> rcases List.mem_cons.1 he' with rfl | he'
      · exact absurd rfl hee
      · simp only [if_true, if_neg (hne e' he')]
        exact Or.inl (i3 e' he').1
      · simp only [if_true, if_neg (hne e he)]
        exact Or.inr (i3 e he).1
      · simp only [if_neg (hne e he), if_neg (hne e' he')]
        exact i4 e he e' he' hee

end Visr.Layout
