import Verif.Layout.Spec
import Verif.Schedule.Lemmas
import Verif.Efl.PropsAligned
import Mathlib.Data.List.Nodup
import Mathlib.Data.List.Perm.Basic
import Mathlib.Data.List.Perm.Subperm
import Mathlib.Tactic.Common
import Mathlib.Tactic.Ring
import Mathlib.Tactic.Linarith

/-!
# Lemmas about buffer assignment
-/

namespace Visr.Layout
open Visr

/-! ## Offset tables -/

theorem find_append {t u : Offsets} {p : PortRef} : find (t ++ u) p = (find t p).or (find u p) := by
  unfold find
  rw [List.find?_append]
  cases List.find? (fun e => decide (e.1 = p)) t <;> simp

theorem find_single {p q : PortRef} {o : Nat} : find [(q, o)] p = if q = p then some o else none := by
  unfold find
  by_cases h : q = p <;> simp [h]

theorem find_nil {p : PortRef} : find [] p = none := rfl

theorem find_mem {t : Offsets} {p : PortRef} {o : Nat} (h : find t p = some o) : (p, o) ∈ t := by
  unfold find at h
  rw [Option.map_eq_some_iff] at h
  obtain ⟨e, h1, h2⟩ := h
  have h3 := List.mem_of_find?_eq_some h1
  have h4 : e.1 = p := by simpa using List.find?_some h1
  obtain ⟨a, b⟩ := e
  simp only at h2 h4
  subst h2; subst h4
  exact h3

theorem find_eq_none {t : Offsets} {p : PortRef} : find t p = none ↔ ∀ o, (p, o) ∉ t := by
  unfold find
  rw [Option.map_eq_none_iff, List.find?_eq_none]
  constructor
  · intro h o hm
    simpa using h _ hm
  · intro h e he
    simp only [decide_eq_true_eq]
    intro e1
    subst e1
    exact h e.2 he

theorem insert_new {t : Offsets} {p : PortRef} {o : Nat} (h : find t p = none) : insert t p o = t ++ [(p, o)] := by
  simp [insert, h]

theorem find_insert_new {t : Offsets} {p q : PortRef} {o : Nat} (h : find t p = none) :
    find (insert t p o) q = if p = q then some o else find t q := by
  rw [insert_new h, find_append, find_single]
  by_cases e : p = q
  · subst e; simp [h]
  · simp [e]

/-- Keys are unique. -/
def Keys (t : Offsets) : Prop := (t.map Prod.fst).Nodup

theorem Keys.find {t : Offsets} (h : Keys t) {p : PortRef} {o : Nat} (hm : (p, o) ∈ t) : find t p = some o := by
  cases hf : Layout.find t p with
  | none => exact absurd hm (find_eq_none.1 hf o)
  | some o' =>
    have := find_mem hf
    have e := List.inj_on_of_nodup_map h hm this rfl
    injection e with _ e
    rw [e]

theorem Keys.insert {t : Offsets} (h : Keys t) {p : PortRef} {o : Nat} (hn : Layout.find t p = none) :
    Keys (Layout.insert t p o) := by
  rw [insert_new hn]
  unfold Keys at *
  rw [List.map_append, List.nodup_append]
  refine ⟨h, by simp, ?_⟩
  intro a ha b hb
  simp only [List.map_cons, List.map_nil, List.mem_singleton] at hb
  subst hb
  rintro rfl
  obtain ⟨e, he, rfl⟩ := List.mem_map.1 ha
  exact find_eq_none.1 hn e.2 he

/-- The send areas of the ports in `t` follow each other without gaps and cover the positions below `n`. -/
inductive Tiled (w : PortRef → Nat) : Offsets → Nat → Prop
  | nil : Tiled w [] 0
  | snoc {t : Offsets} {n : Nat} {p : PortRef} : Tiled w t n → find t p = none → Tiled w (t ++ [(p, n)]) (n + w p)

namespace Tiled
variable {w : PortRef → Nat}

theorem insert {t : Offsets} {n : Nat} {p : PortRef} (h : Tiled w t n) (hp : Layout.find t p = none) :
    Tiled w (Layout.insert t p n) (n + w p) := by
  rw [insert_new hp]; exact h.snoc hp

theorem keys {t : Offsets} {n : Nat} (h : Tiled w t n) : Keys t := by
  induction h with
  | nil => exact List.nodup_nil
  | @snoc t n p _ hp ih => have := ih.insert (o := n) hp; rwa [insert_new hp] at this

theorem le {t : Offsets} {n : Nat} (h : Tiled w t n) : ∀ e ∈ t, e.2 + w e.1 ≤ n := by
  induction h with
  | nil => simp
  | snoc _ hp ih =>
    intro e he
    rcases List.mem_append.1 he with he | he
    · have := ih e he; omega
    · simp only [List.mem_singleton] at he
      subst he; simp

theorem cover {t : Offsets} {n : Nat} (h : Tiled w t n) : ∀ c < n, ∃ e ∈ t, e.2 ≤ c ∧ c < e.2 + w e.1 := by
  induction h with
  | nil => intro c hc; omega
  | @snoc t n p _ hp ih =>
    intro c hc
    by_cases h : c < n
    · obtain ⟨e, he, h⟩ := ih c h
      exact ⟨e, by simp [he], h⟩
    · exact ⟨(p, n), by simp, by simpa using h, hc⟩

theorem unique {t : Offsets} {n : Nat} (h : Tiled w t n) {c : Nat} : ∀ e ∈ t, ∀ e' ∈ t, e.2 ≤ c → c < e.2 + w e.1 →
    e'.2 ≤ c → c < e'.2 + w e'.1 → e = e' := by
  induction h with
  | nil => simp
  | @snoc t n p h hp ih =>
    intro e he e' he' h1 h2 h3 h4
    rcases List.mem_append.1 he with he | he <;> rcases List.mem_append.1 he' with he' | he'
    · exact ih e he e' he' h1 h2 h3 h4
    · have := h.le e he
      simp only [List.mem_singleton] at he'
      subst he'
      simp only at h3; omega
    · have := h.le e' he'
      simp only [List.mem_singleton] at he
      subst he
      simp only at h1; omega
    · simp only [List.mem_singleton] at he he'
      rw [he, he']

theorem sum {t : Offsets} {n : Nat} (h : Tiled w t n) : (t.map fun e => w e.1).sum = n := by
  induction h with
  | nil => rfl
  | snoc _ _ ih => simp [ih]

end Tiled

/-! ## The send channels of a receive port -/

theorem fillRange_spec {w : Nat} : ∀ (ks : List Conn) (v : List (Option (Nat × Nat))), v.length = w →
    (∀ k ∈ ks, k.2.2 < w) → (ks.map fun k => k.2.2).Nodup → (∀ k ∈ ks, v[k.2.2]? = some none) →
    ∃ v', fillRange w ks v = .ok v' ∧ v'.length = w ∧ (∀ k ∈ ks, v'[k.2.2]? = some (some k.1)) ∧
      ∀ j, (∀ k ∈ ks, k.2.2 ≠ j) → v'[j]? = v[j]? := by
  intro ks
  induction ks with
  | nil => intro v hl _ _ _; exact ⟨v, rfl, hl, by simp, fun _ _ => rfl⟩
  | cons k ks ih =>
    intro v hl hw hn hv
    rw [List.map_cons] at hn
    have hn' := List.nodup_cons.1 hn
    have hne : ∀ k' ∈ ks, k'.2.2 ≠ k.2.2 := by
      intro k' hk' e
      exact hn'.1 (by rw [← e]; exact List.mem_map.2 ⟨k', hk', rfl⟩)
    obtain ⟨v', e1, e2, e3, e4⟩ := ih (v.set k.2.2 (some k.1)) (by simp [hl]) (fun x hx => hw x (by simp [hx])) hn'.2
      (by
        intro x hx
        rw [List.getElem?_set_ne (Ne.symm (hne x hx))]
        exact hv x (by simp [hx]))
    refine ⟨v', ?_, e2, ?_, ?_⟩
    · unfold fillRange
      have h1 := hw k (by simp)
      rw [if_neg (by omega), hv k (by simp)]
      exact e1
    · intro x hx
      rcases List.mem_cons.1 hx with rfl | hx
      · rw [e4 _ hne, List.getElem?_set_self (by rw [hl]; exact hw _ (by simp))]
      · exact e3 x hx
    · intro j hj
      rw [e4 j (fun x hx => hj x (by simp [hx])), List.getElem?_set_ne (hj k (by simp))]

/-- The connections to a receive port of width `w`: one to each channel. -/
structure Complete (w r : Nat) (loc : List Conn) : Prop where
  recv : ∀ k ∈ loc, k.2.1 = r
  idx : ∀ k ∈ loc, k.2.2 < w
  nodup : (loc.map fun k => k.2.2).Nodup
  all : ∀ j < w, ∃ k ∈ loc, k.2.2 = j

theorem Complete.length {w r : Nat} {loc : List Conn} (h : Complete w r loc) : loc.length = w := by
  have hp : (loc.map fun k => k.2.2).Perm (List.range w) := by
    rw [List.perm_ext_iff_of_nodup h.nodup List.nodup_range]
    intro j
    simp only [List.mem_map, List.mem_range]
    constructor
    · rintro ⟨k, hk, rfl⟩; exact h.idx k hk
    · exact h.all j
  have := hp.length_eq
  simpa using this

theorem sendChannels_spec {w r : Nat} {loc : List Conn} (h : Complete w r loc) :
    ∃ v, sendChannels w r loc = .ok v ∧ v.length = w ∧ ∀ k ∈ loc, v[k.2.2]? = some (some k.1) := by
  have hf : (loc.filter fun k => k.2.1 = r) = loc := by
    rw [List.filter_eq_self]
    intro k hk
    simpa using h.recv k hk
  obtain ⟨v, e1, e2, e3, _⟩ := fillRange_spec loc (List.replicate w none) (by simp) h.idx h.nodup
    (by intro k hk; rw [List.getElem?_replicate]; simp [h.idx k hk])
  refine ⟨v, ?_, e2, e3⟩
  unfold sendChannels
  simp only [hf]
  rw [if_neg (by rw [h.length]; simp)]
  exact e1

/-! ## Contiguity -/

theorem contiguousRange_spec {t : Offsets} : ∀ (v : List (Option (Nat × Nat))),
    (∀ x ∈ v, ∃ a, position t x = some a) → ∃ b, contiguousRange t v = .ok b ∧
      (b = true → ∀ o, v.head? = some o → ∀ a, position t o = some a → ∀ j x, v[j]? = some x → position t x = some (a + j)) := by
  intro v
  induction v with
  | nil => intro _; exact ⟨true, rfl, by simp⟩
  | cons x xs ih =>
    intro hv
    cases xs with
    | nil =>
      refine ⟨true, rfl, ?_⟩
      intro _ o ho a ha j y hy
      simp only [List.head?_cons, Option.some.injEq] at ho
      subst ho
      cases j with
      | zero => simp at hy; subst hy; simpa using ha
      | succ j => simp at hy
    | cons y ys =>
      obtain ⟨a, ha⟩ := hv x (by simp)
      obtain ⟨b, hb⟩ := hv y (by simp)
      obtain ⟨r, hr1, hr2⟩ := ih (fun z hz => hv z (by simp [hz]))
      unfold contiguousRange
      simp only [ha, hb]
      by_cases hab : a + 1 = b
      · rw [if_neg (by simpa using hab)]
        refine ⟨r, hr1, ?_⟩
        intro hrt o ho a' ha' j z hz
        simp only [List.head?_cons, Option.some.injEq] at ho
        subst ho
        rw [ha] at ha'
        injection ha' with ha'
        subst ha'
        cases j with
        | zero => simp at hz; subst hz; simpa using ha
        | succ j =>
          have := hr2 hrt y rfl b hb j z (by simpa using hz)
          rw [this]; congr 1; omega
      · rw [if_pos (by simpa using hab)]
        exact ⟨false, rfl, by simp⟩

theorem sendIndices_spec {t : Offsets} : ∀ (v : List (Option (Nat × Nat))),
    (∀ x ∈ v, ∃ a, position t x = some a) → ∃ l, sendIndices t v = .ok l ∧ l.length = v.length ∧
      ∀ (j : Nat) x, v[j]? = some x → l[j]? = position t x := by
  intro v
  induction v with
  | nil => intro _; exact ⟨[], rfl, rfl, by simp⟩
  | cons x xs ih =>
    intro hv
    obtain ⟨a, ha⟩ := hv x (by simp)
    obtain ⟨l, h1, h2, h3⟩ := ih (fun z hz => hv z (by simp [hz]))
    refine ⟨a :: l, by simp [sendIndices, ha, h1], by simp [h2], ?_⟩
    intro j y hy
    cases j with
    | zero => simp at hy; subst hy; simp [ha]
    | succ j => simpa using h3 j y (by simpa using hy)

theorem foldl_min_le {l : List Nat} {m : Nat} : l.foldl min m ≤ m ∧ ∀ a ∈ l, l.foldl min m ≤ a := by
  induction l generalizing m with
  | nil => simp
  | cons x xs ih =>
    obtain ⟨h1, h2⟩ := ih (m := min m x)
    simp only [List.foldl_cons]
    refine ⟨by omega, ?_⟩
    intro a ha
    rcases List.mem_cons.1 ha with rfl | ha
    · omega
    · exact h2 a ha

theorem le_foldl_max {l : List Nat} {m : Nat} : m ≤ l.foldl max m ∧ ∀ a ∈ l, a ≤ l.foldl max m := by
  induction l generalizing m with
  | nil => simp
  | cons x xs ih =>
    obtain ⟨h1, h2⟩ := ih (m := max m x)
    simp only [List.foldl_cons]
    refine ⟨by omega, ?_⟩
    intro a ha
    rcases List.mem_cons.1 ha with rfl | ha
    · omega
    · exact h2 a ha

theorem foldl_max_le {l : List Nat} {m n : Nat} (hm : m ≤ n) (h : ∀ a ∈ l, a ≤ n) : l.foldl max m ≤ n := by
  induction l generalizing m with
  | nil => simpa
  | cons x xs ih =>
    simp only [List.foldl_cons]
    exact ih (by have := h x (by simp); omega) (fun a ha => h a (by simp [ha]))

theorem routeConns_spec {env : Env} {t : Offsets} {r lo : Nat} {idx : List Nat} : ∀ (is : List Nat),
    (∀ i ∈ is, ∃ e, findPort env t (lo + i) = some e) → ∃ cs, routeConns env t r lo idx is = .ok cs ∧
      ∀ d, d ∈ cs ↔ ∃ i ∈ is, i ∈ idx ∧ ∃ e, findPort env t (lo + i) = some e ∧
        d = ((e.1, lo + i - e.2), (.routeIn r, i)) := by
  intro is
  induction is with
  | nil => intro _; exact ⟨[], rfl, by simp⟩
  | cons i is ih =>
    intro h
    obtain ⟨e, he⟩ := h i (by simp)
    obtain ⟨cs, h1, h2⟩ := ih (fun x hx => h x (by simp [hx]))
    refine ⟨if i ∈ idx then ((e.1, lo + i - e.2), (.routeIn r, i)) :: cs else cs, by simp only [routeConns, he, h1], ?_⟩
    intro d
    by_cases hi : i ∈ idx
    · simp only [hi, if_true, List.mem_cons, h2]
      constructor
      · rintro (rfl | ⟨x, hx, hh⟩)
        · exact ⟨i, Or.inl rfl, hi, e, he, rfl⟩
        · exact ⟨x, Or.inr hx, hh⟩
      · rintro ⟨x, rfl | hx, hh, e', he', hd⟩
        · rw [he] at he'
          injection he' with he'
          subst he'
          exact Or.inl hd
        · exact Or.inr ⟨x, hx, hh, e', he', hd⟩
    · simp only [hi, if_false, h2]
      constructor
      · rintro ⟨x, hx, hh⟩; exact ⟨x, by simp [hx], hh⟩
      · rintro ⟨x, hx, hh, rest⟩
        rcases List.mem_cons.1 hx with rfl | hx
        · exact absurd hh hi
        · exact ⟨x, hx, hh, rest⟩

theorem findPort_eq {env : Env} {t : Offsets} {n : Nat} (ht : Tiled (sendWidth env) t n) {e : PortRef × Nat} {c : Nat}
    (he : e ∈ t) (h1 : e.2 ≤ c) (h2 : c < e.2 + sendWidth env e.1) : findPort env t c = some e := by
  unfold findPort
  cases hf : t.find? (fun e => decide (e.2 ≤ c ∧ c < e.2 + sendWidth env e.1)) with
  | none =>
    rw [List.find?_eq_none] at hf
    have := hf e he
    simp [h1, h2] at this
  | some e' =>
    have hm := List.mem_of_find?_eq_some hf
    have hp := List.find?_some hf
    simp only [decide_eq_true_eq] at hp
    rw [ht.unique e he e' hm h1 h2 hp.1 hp.2]

/-! ## The state after some receive ports -/

/-- The receive channel has the position of its sender. -/
def DirectAt (st : St) (k : Conn) : Prop :=
  ∃ a o, find st.send (.orig k.1.1) = some a ∧ find st.recv (.orig k.2.1) = some o ∧ o + k.2.2 = a + k.1.2

/-- The receive channel is served by the copy component `ρ`. -/
def ViaAt (st : St) (ρ : Routing) (k : Conn) : Prop :=
  ρ.recv = k.2.1 ∧ ∃ j a o lo, ρ.indices[k.2.2]? = some j ∧ j < ρ.inWidth ∧
    find st.send (.orig k.1.1) = some a ∧ find st.recv (.routeIn ρ.recv) = some lo ∧ lo + j = a + k.1.2 ∧
    find st.send (.routeOut ρ.recv) = some o ∧ find st.recv (.orig k.2.1) = some o ∧
    ((.orig k.1.1, k.1.2), (.routeIn ρ.recv, j)) ∈ st.conns ∧
    ((.routeOut ρ.recv, k.2.2), (.orig k.2.1, k.2.2)) ∈ st.conns

/-- A connection that is needed. -/
def SoundConn (typed : List Conn) (st : St) (d : Chan × Chan) : Prop :=
  (∃ k ∈ typed, DirectAt st k ∧ d = lift k ∧ d ∈ st.conns) ∨
  (∃ k ∈ typed, ∃ ρ ∈ st.routings, ρ.recv = k.2.1 ∧ ∃ j, ρ.indices[k.2.2]? = some j ∧
      (d = ((.orig k.1.1, k.1.2), (.routeIn ρ.recv, j)) ∨ d = ((.routeOut ρ.recv, k.2.2), (.orig k.2.1, k.2.2))))

/-- Later states keep all entries. -/
structure Ext (st st' : St) : Prop where
  send : ∀ p o, find st.send p = some o → find st'.send p = some o
  recv : ∀ p o, find st.recv p = some o → find st'.recv p = some o
  conns : ∀ d ∈ st.conns, d ∈ st'.conns
  routings : ∀ ρ ∈ st.routings, ρ ∈ st'.routings

theorem DirectAt.mono {st st' : St} (h : Ext st st') {k : Conn} : DirectAt st k → DirectAt st' k := by
  rintro ⟨a, o, h1, h2, h3⟩
  exact ⟨a, o, h.send _ _ h1, h.recv _ _ h2, h3⟩

theorem ViaAt.mono {st st' : St} (h : Ext st st') {ρ : Routing} {k : Conn} : ViaAt st ρ k → ViaAt st' ρ k := by
  rintro ⟨e, j, a, o, lo, h1, h2, h3, h4, h5, h6, h7, h8, h9⟩
  exact ⟨e, j, a, o, lo, h1, h2, h.send _ _ h3, h.recv _ _ h4, h5, h.send _ _ h6, h.recv _ _ h7,
    h.conns _ h8, h.conns _ h9⟩

theorem SoundConn.mono {st st' : St} (h : Ext st st') {typed : List Conn} {d : Chan × Chan} :
    SoundConn typed st d → SoundConn typed st' d := by
  rintro (⟨k, hk, h1, h2, h3⟩ | ⟨k, hk, ρ, hρ, h1⟩)
  · exact Or.inl ⟨k, hk, h1.mono h, h2, h.conns _ h3⟩
  · exact Or.inr ⟨k, hk, ρ, h.routings _ hρ, h1⟩

/-- Invariant of the loop over the receive ports; `ps` are the ports done, `c0` the connections of earlier types. -/
structure Inv (env : Env) (typed : List Conn) (c0 : List (Chan × Chan)) (ps : List Nat) (st : St) : Prop where
  tiled : Tiled (sendWidth env) st.send st.next
  sends : ∀ k ∈ typed, ∃ o, find st.send (.orig k.1.1) = some o
  keysR : Keys st.recv
  sendKeys : ∀ e ∈ st.send, (∃ k ∈ typed, e.1 = .orig k.1.1) ∨ (∃ ρ ∈ st.routings, e.1 = .routeOut ρ.recv)
  recvKeys : ∀ e ∈ st.recv, ∃ r ∈ ps, (∃ k ∈ typed, k.2.1 = r) ∧ (e.1 = .orig r ∨ e.1 = .routeIn r)
  routes : ∀ ρ ∈ st.routings, ρ.recv ∈ ps ∧ (∃ k ∈ typed, k.2.1 = ρ.recv) ∧ ρ.indices.length = env.width ρ.recv ∧
    ∃ o, find st.send (.routeOut ρ.recv) = some o
  via : ∀ ρ ∈ st.routings, ∀ k ∈ typed, k.2.1 = ρ.recv → ViaAt st ρ k
  nodup : (st.routings.map Routing.recv).Nodup
  served : ∀ k ∈ typed, k.2.1 ∈ ps → (DirectAt st k ∧ lift k ∈ st.conns) ∨ ∃ ρ ∈ st.routings, ViaAt st ρ k
  keep : ∀ d ∈ c0, d ∈ st.conns
  conns : ∀ d ∈ st.conns, d ∈ c0 ∨ SoundConn typed st d

theorem recvStep_spec {env : Env} {ty : Nat} {typed : List Conn} {c0 : List (Chan × Chan)} {ps : List Nat} {st : St}
    (hi : Inv env typed c0 ps st) {r : Nat} (hr : r ∉ ps) (hw : 0 < env.width r)
    (hs : ∀ k ∈ typed, k.1.2 < env.width k.1.1)
    (hc : Complete (env.width r) r (typed.filter fun k => k.2.1 = r)) (hroute : env.routable ty = true) :
    ∃ st', recvStep env ty typed st r = .ok st' ∧ Inv env typed c0 (ps ++ [r]) st' := by
  have hloc : ∀ k, k ∈ typed.filter (fun k => k.2.1 = r) ↔ k ∈ typed ∧ k.2.1 = r := by
    intro k; simp
  obtain ⟨v, hv1, hv2, hv3⟩ := sendChannels_spec hc
  -- every element of `v` is the sender of some connection
  have hv : ∀ (j : Nat) x, v[j]? = some x → ∃ k ∈ typed, k.2.1 = r ∧ k.2.2 = j ∧ x = some k.1 := by
    intro j x hx
    have hj : j < env.width r := by
      have := (List.getElem?_eq_some_iff.1 hx).1
      omega
    obtain ⟨k, hk, rfl⟩ := hc.all j hj
    have := hv3 k hk
    rw [this] at hx
    injection hx with hx
    exact ⟨k, ((hloc k).1 hk).1, ((hloc k).1 hk).2, rfl, hx.symm⟩
  have hpos : ∀ k ∈ typed, ∃ a, find st.send (.orig k.1.1) = some a ∧ position st.send (some k.1) = some (a + k.1.2) := by
    intro k hk
    obtain ⟨o, ho⟩ := hi.sends k hk
    exact ⟨o, ho, by simp [position, ho]⟩
  have hvpos : ∀ x ∈ v, ∃ a, position st.send x = some a := by
    intro x hx
    obtain ⟨j, hj⟩ := List.mem_iff_getElem?.1 hx
    obtain ⟨k, hk, _, _, rfl⟩ := hv j x hj
    obtain ⟨a, _, ha⟩ := hpos k hk
    exact ⟨_, ha⟩
  have hfreshR : find st.recv (.orig r) = none := by
    rw [find_eq_none]
    intro o ho
    obtain ⟨r', hr', _, e | e⟩ := hi.recvKeys _ ho
    · injection e with e; subst e; exact hr hr'
    · cases e
  have hfreshI : find st.recv (.routeIn r) = none := by
    rw [find_eq_none]
    intro o ho
    obtain ⟨r', hr', _, e | e⟩ := hi.recvKeys _ ho
    · cases e
    · injection e with e; subst e; exact hr hr'
  have hfreshO : find st.send (.routeOut r) = none := by
    rw [find_eq_none]
    intro o ho
    rcases hi.sendKeys _ ho with ⟨k, _, e⟩ | ⟨ρ, hρ, e⟩
    · cases e
    · injection e with e; subst e; exact hr (hi.routes ρ hρ).1
  obtain ⟨k0, hk0, hk0j⟩ := hc.all 0 hw
  obtain ⟨hk0t, hk0r⟩ := (hloc k0).1 hk0
  obtain ⟨b, hb1, hb2⟩ := contiguousRange_spec v hvpos
  unfold recvStep
  rw [if_neg (by omega)]
  simp only [hv1, hb1]
  cases b with
  | true =>
    -- contiguous
    cases hve : v with
    | nil => rw [hve] at hv2; simp at hv2; omega
    | cons x xs =>
      have hx0 : v[0]? = some x := by rw [hve]; rfl
      obtain ⟨a0, ha0⟩ := hvpos x (by rw [hve]; simp)
      simp only [ha0]
      refine ⟨_, rfl, ?_⟩
      have hext : Ext st { st with recv := insert st.recv (.orig r) a0, conns := st.conns ++ (typed.filter fun k => k.2.1 = r).map lift } := by
        refine ⟨fun _ _ h => h, ?_, fun d hd => List.mem_append_left _ hd, fun _ h => h⟩
        intro p o hp
        show find (insert st.recv (.orig r) a0) p = some o
        rw [find_insert_new hfreshR]
        by_cases e : PortRef.orig r = p
        · subst e; rw [hfreshR] at hp; cases hp
        · rw [if_neg e]; exact hp
      have hdir : ∀ k ∈ typed, k.2.1 = r →
          DirectAt { st with recv := insert st.recv (.orig r) a0, conns := st.conns ++ (typed.filter fun k => k.2.1 = r).map lift } k := by
        intro k hk hkr
        obtain ⟨a, h1, h2⟩ := hpos k hk
        have h3 := hb2 rfl x (by rw [hve]; rfl) a0 ha0 k.2.2 _ (hv3 k ((hloc k).2 ⟨hk, hkr⟩))
        rw [h2] at h3
        injection h3 with h3
        refine ⟨a, a0, h1, ?_, h3.symm⟩
        show find (insert st.recv (.orig r) a0) _ = _
        rw [find_insert_new hfreshR, hkr, if_pos rfl]
      refine ⟨hi.tiled, hi.sends, hi.keysR.insert hfreshR, hi.sendKeys, ?_, ?_,
        fun ρ hρ k hk e => (hi.via ρ hρ k hk e).mono hext, hi.nodup, ?_, ?_, ?_⟩
      · intro e he
        have he' : e ∈ st.recv ++ [(PortRef.orig r, a0)] := by rw [← insert_new hfreshR]; exact he
        rcases List.mem_append.1 he' with he | he
        · obtain ⟨r', h1, h2⟩ := hi.recvKeys e he
          exact ⟨r', by simp [h1], h2⟩
        · simp only [List.mem_singleton] at he
          subst he
          exact ⟨r, by simp, ⟨k0, hk0t, hk0r⟩, Or.inl rfl⟩
      · intro ρ hρ
        obtain ⟨h1, h2⟩ := hi.routes ρ hρ
        exact ⟨by simp [h1], h2⟩
      · intro k hk hkp
        by_cases hkr : k.2.1 = r
        · refine Or.inl ⟨hdir k hk hkr, ?_⟩
          exact List.mem_append_right _ (List.mem_map.2 ⟨k, (hloc k).2 ⟨hk, hkr⟩, rfl⟩)
        · have : k.2.1 ∈ ps := by simpa [hkr] using hkp
          rcases hi.served k hk this with ⟨h1, h2⟩ | h
          · exact Or.inl ⟨h1.mono hext, hext.conns _ h2⟩
          · obtain ⟨ρ, hρ, h⟩ := h
            exact Or.inr ⟨ρ, hρ, h.mono hext⟩
      · intro d hd
        exact List.mem_append_left _ (hi.keep d hd)
      · intro d hd
        rcases List.mem_append.1 hd with hd | hd
        · rcases hi.conns d hd with h | h
          · exact Or.inl h
          · exact Or.inr (h.mono hext)
        · obtain ⟨k, hk, rfl⟩ := List.mem_map.1 hd
          obtain ⟨hk1, hk2⟩ := (hloc k).1 hk
          refine Or.inr (Or.inl ⟨k, hk1, hdir k hk1 hk2, rfl, ?_⟩)
          exact List.mem_append_right _ (List.mem_map.2 ⟨k, hk, rfl⟩)
  | false =>
    obtain ⟨abs, hs1, hs2, hs3⟩ := sendIndices_spec v hvpos
    simp only [hs1]
    rw [if_neg (by simp [hroute])]
    generalize hlo : abs.foldl min (abs.headD 0) = lo
    generalize hidx : abs.map (fun a => a - lo) = idx
    have hlo_le : ∀ a ∈ abs, lo ≤ a := by
      intro a ha; rw [← hlo]; exact foldl_min_le.2 a ha
    -- absolute position of each connection
    have habs : ∀ k ∈ typed, k.2.1 = r → ∃ a, find st.send (.orig k.1.1) = some a ∧ abs[k.2.2]? = some (a + k.1.2) ∧
        ∃ j, idx[k.2.2]? = some j ∧ lo + j = a + k.1.2 ∧ j ∈ idx := by
      intro k hk hkr
      obtain ⟨a, h1, h2⟩ := hpos k hk
      have h3 := hs3 k.2.2 _ (hv3 k ((hloc k).2 ⟨hk, hkr⟩))
      rw [h2] at h3
      have h4 : a + k.1.2 ∈ abs := List.mem_iff_getElem?.2 ⟨_, h3⟩
      have h5 := hlo_le _ h4
      have h6 : idx[k.2.2]? = some (a + k.1.2 - lo) := by
        rw [← hidx, List.getElem?_map, h3]; rfl
      exact ⟨a, h1, h3, a + k.1.2 - lo, h6, by omega, List.mem_iff_getElem?.2 ⟨_, h6⟩⟩
    -- each relative index comes from a connection
    have hidx' : ∀ j ∈ idx, ∃ k ∈ typed, k.2.1 = r ∧ idx[k.2.2]? = some j := by
      intro j hj
      obtain ⟨i, hi'⟩ := List.mem_iff_getElem?.1 hj
      have hlt : i < env.width r := by
        have := (List.getElem?_eq_some_iff.1 hi').1
        rw [← hidx, List.length_map, hs2, hv2] at this
        exact this
      obtain ⟨k, hk, rfl⟩ := hc.all i hlt
      exact ⟨k, ((hloc k).1 hk).1, ((hloc k).1 hk).2, hi'⟩
    have hbound : ∀ j ∈ idx, lo + j < st.next := by
      intro j hj
      obtain ⟨k, hk, hkr, hkj⟩ := hidx' j hj
      obtain ⟨a, h1, _, j', h2, h3, _⟩ := habs k hk hkr
      rw [hkj] at h2
      injection h2 with h2
      subst h2
      have := hi.tiled.le _ (find_mem h1)
      have hk' := hs k hk
      simp only [sendWidth] at this
      omega
    have hidxne : idx ≠ [] := by
      obtain ⟨_, _, _, j, h, _⟩ := habs k0 hk0t hk0r
      intro e
      rw [e] at h
      simp at h
    have hmax : ∀ i ∈ List.range (idx.foldl max 0 + 1), lo + i < st.next := by
      intro i hi'
      rw [List.mem_range] at hi'
      have hpos' : lo < st.next := by
        obtain ⟨j, hj⟩ := List.exists_mem_of_ne_nil _ hidxne
        have := hbound j hj
        omega
      have : idx.foldl max 0 ≤ st.next - 1 - lo := foldl_max_le (by omega) (fun a ha => by have := hbound a ha; omega)
      omega
    obtain ⟨cs, hcs1, hcs2⟩ := routeConns_spec (env := env) (t := st.send) (r := r) (lo := lo) (idx := idx)
      (List.range (idx.foldl max 0 + 1)) (by
        intro i hi'
        obtain ⟨e, he, h1, h2⟩ := hi.tiled.cover _ (hmax i hi')
        exact ⟨e, findPort_eq hi.tiled he h1 h2⟩)
    simp only [hcs1]
    refine ⟨_, rfl, ?_⟩
    generalize hst' : (⟨insert st.send (.routeOut r) st.next, insert (insert st.recv (.routeIn r) lo) (.orig r) st.next,
      st.next + env.width r, st.conns ++ cs ++ (List.range (env.width r)).map fun i => ((.routeOut r, i), (.orig r, i)),
      st.routings ++ [⟨r, idx.foldl max 0 + 1, idx, ty⟩]⟩ : St) = st'
    have e1 : st'.send = insert st.send (.routeOut r) st.next := by rw [← hst']
    have e2 : st'.recv = insert (insert st.recv (.routeIn r) lo) (.orig r) st.next := by rw [← hst']
    have e3 : st'.next = st.next + env.width r := by rw [← hst']
    have e4 : st'.conns = st.conns ++ cs ++ (List.range (env.width r)).map fun i => ((.routeOut r, i), (.orig r, i)) := by
      rw [← hst']
    have e5 : st'.routings = st.routings ++ [⟨r, idx.foldl max 0 + 1, idx, ty⟩] := by rw [← hst']
    have hfreshR' : find (insert st.recv (.routeIn r) lo) (.orig r) = none := by
      rw [find_insert_new hfreshI, if_neg (by simp), hfreshR]
    have hfs : ∀ p, find st'.send p = if PortRef.routeOut r = p then some st.next else find st.send p := by
      intro p; rw [e1, find_insert_new hfreshO]
    have hfr : ∀ p, find st'.recv p = if PortRef.orig r = p then some st.next else
        if PortRef.routeIn r = p then some lo else find st.recv p := by
      intro p; rw [e2, find_insert_new hfreshR', find_insert_new hfreshI]
    have hext : Ext st st' := by
      refine ⟨?_, ?_, ?_, ?_⟩
      · intro p o hp
        rw [hfs]
        by_cases e : PortRef.routeOut r = p
        · subst e; rw [hfreshO] at hp; cases hp
        · rw [if_neg e]; exact hp
      · intro p o hp
        rw [hfr]
        by_cases e : PortRef.orig r = p
        · subst e; rw [hfreshR] at hp; cases hp
        · rw [if_neg e]
          by_cases e' : PortRef.routeIn r = p
          · subst e'; rw [hfreshI] at hp; cases hp
          · rw [if_neg e']; exact hp
      · intro d hd
        rw [e4]; simp [hd]
      · intro ρ hρ
        rw [e5]; simp [hρ]
    have hρnew : (⟨r, idx.foldl max 0 + 1, idx, ty⟩ : Routing) ∈ st'.routings := by rw [e5]; simp
    have hlen : idx.length = env.width r := by rw [← hidx, List.length_map, hs2, hv2]
    have hnewconn : ∀ k ∈ typed, k.2.1 = r → ∀ j, idx[k.2.2]? = some j →
        ((PortRef.orig k.1.1, k.1.2), (PortRef.routeIn r, j)) ∈ cs := by
      intro k hk hkr j hj
      obtain ⟨a, h1, _, j', h2, h3, h4⟩ := habs k hk hkr
      rw [hj] at h2
      injection h2 with h2
      subst h2
      have hk' := hs k hk
      have hfp : findPort env st.send (lo + j) = some (.orig k.1.1, a) :=
        findPort_eq hi.tiled (find_mem h1) (by simp only; omega) (by simp only [sendWidth]; omega)
      refine (hcs2 _).2 ⟨j, ?_, h4, _, hfp, ?_⟩
      · rw [List.mem_range]
        have := (le_foldl_max (l := idx) (m := 0)).2 j h4
        omega
      · simp only
        have : lo + j - a = k.1.2 := by omega
        rw [this]
    have hvianew : ∀ k ∈ typed, k.2.1 = r → ViaAt st' ⟨r, idx.foldl max 0 + 1, idx, ty⟩ k := by
      intro k hk hkr
      obtain ⟨a, h1, _, j, h2, h3, h4⟩ := habs k hk hkr
      refine ⟨hkr.symm, j, a, st.next, lo, h2, ?_, hext.send _ _ h1, ?_, h3, ?_, ?_, ?_, ?_⟩
      · have := (le_foldl_max (l := idx) (m := 0)).2 j h4
        show j < idx.foldl max 0 + 1
        omega
      · rw [hfr, if_neg (by simp), if_pos rfl]
      · rw [hfs, if_pos rfl]
      · rw [hfr, hkr, if_pos rfl]
      · rw [e4]
        exact List.mem_append_left _ (List.mem_append_right _ (hnewconn k hk hkr j h2))
      · rw [e4]
        refine List.mem_append_right _ (List.mem_map.2 ⟨k.2.2, ?_, by rw [hkr]⟩)
        rw [List.mem_range]
        exact hc.idx k ((hloc k).2 ⟨hk, hkr⟩)
    refine ⟨?_, ?_, ?_, ?_, ?_, ?_, ?_, ?_, ?_, ?_, ?_⟩
    · rw [e1, e3]; exact hi.tiled.insert hfreshO
    · intro k hk
      obtain ⟨o, ho⟩ := hi.sends k hk
      exact ⟨o, hext.send _ _ ho⟩
    · rw [e2]; exact (hi.keysR.insert hfreshI).insert hfreshR'
    · intro e he
      rw [e1, insert_new hfreshO] at he
      rcases List.mem_append.1 he with he | he
      · rcases hi.sendKeys e he with h | ⟨ρ, hρ, h⟩
        · exact Or.inl h
        · exact Or.inr ⟨ρ, hext.routings _ hρ, h⟩
      · simp only [List.mem_singleton] at he
        subst he
        exact Or.inr ⟨_, hρnew, rfl⟩
    · intro e he
      rw [e2, insert_new hfreshR', insert_new hfreshI] at he
      rcases List.mem_append.1 he with he | he
      · rcases List.mem_append.1 he with he | he
        · obtain ⟨r', h1, h2⟩ := hi.recvKeys e he
          exact ⟨r', by simp [h1], h2⟩
        · simp only [List.mem_singleton] at he
          subst he
          exact ⟨r, by simp, ⟨k0, hk0t, hk0r⟩, Or.inr rfl⟩
      · simp only [List.mem_singleton] at he
        subst he
        exact ⟨r, by simp, ⟨k0, hk0t, hk0r⟩, Or.inl rfl⟩
    · intro ρ hρ
      rw [e5] at hρ
      rcases List.mem_append.1 hρ with hρ | hρ
      · obtain ⟨h1, h2, h3, o, ho⟩ := hi.routes ρ hρ
        exact ⟨by simp [h1], h2, h3, o, hext.send _ _ ho⟩
      · simp only [List.mem_singleton] at hρ
        subst hρ
        exact ⟨by simp, ⟨k0, hk0t, hk0r⟩, hlen, st.next, by rw [hfs, if_pos rfl]⟩
    · intro ρ hρ k hk hkr
      rw [e5] at hρ
      rcases List.mem_append.1 hρ with hρ | hρ
      · exact (hi.via ρ hρ k hk hkr).mono hext
      · simp only [List.mem_singleton] at hρ
        subst hρ
        exact hvianew k hk hkr
    · rw [e5, List.map_append, List.nodup_append]
      refine ⟨hi.nodup, by simp, ?_⟩
      intro x hx y hy
      obtain ⟨ρ, hρ, rfl⟩ := List.mem_map.1 hx
      simp only [List.map_cons, List.map_nil, List.mem_singleton] at hy
      subst hy
      rintro rfl
      exact hr (hi.routes ρ hρ).1
    · intro k hk hkp
      by_cases hkr : k.2.1 = r
      · exact Or.inr ⟨_, hρnew, hvianew k hk hkr⟩
      · have : k.2.1 ∈ ps := by simpa [hkr] using hkp
        rcases hi.served k hk this with ⟨h1, h2⟩ | ⟨ρ, hρ, h⟩
        · exact Or.inl ⟨h1.mono hext, hext.conns _ h2⟩
        · exact Or.inr ⟨ρ, hext.routings _ hρ, h.mono hext⟩
    · intro d hd
      exact hext.conns _ (hi.keep d hd)
    · intro d hd
      rw [e4] at hd
      rcases List.mem_append.1 hd with hd | hd
      · rcases List.mem_append.1 hd with hd | hd
        · rcases hi.conns d hd with h | h
          · exact Or.inl h
          · exact Or.inr (h.mono hext)
        · obtain ⟨j, _, hj, e, he, rfl⟩ := (hcs2 d).1 hd
          obtain ⟨k, hk, hkr, hkj⟩ := hidx' j hj
          obtain ⟨a, h1, _, j', h2, h3, _⟩ := habs k hk hkr
          rw [hkj] at h2
          injection h2 with h2
          subst h2
          have hk' := hs k hk
          have hfp : findPort env st.send (lo + j) = some (.orig k.1.1, a) :=
            findPort_eq hi.tiled (find_mem h1) (by simp only; omega) (by simp only [sendWidth]; omega)
          rw [he] at hfp
          injection hfp with hfp
          subst hfp
          refine Or.inr (Or.inr ⟨k, hk, _, hρnew, hkr.symm, j, hkj, Or.inl ?_⟩)
          simp only
          have : lo + j - a = k.1.2 := by omega
          rw [this]
      · obtain ⟨i, hi', rfl⟩ := List.mem_map.1 hd
        rw [List.mem_range] at hi'
        obtain ⟨k, hk, rfl⟩ := hc.all i hi'
        obtain ⟨hk1, hk2⟩ := (hloc k).1 hk
        obtain ⟨a, h1, _, j, h2, h3, _⟩ := habs k hk1 hk2
        refine Or.inr (Or.inr ⟨k, hk1, _, hρnew, hk2.symm, j, h2, Or.inr ?_⟩)
        rw [hk2]

end Visr.Layout
