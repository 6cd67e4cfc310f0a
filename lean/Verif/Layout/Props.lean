import Verif.Layout.Assign
import Verif.Efl.PropsAligned

/-!
# C26: audio buffers are laid out without overlap and receivers see their senders
-/

namespace Visr.Layout
open Visr

section
variable {env : Env} {conns : List Conn}

/-- The tables of a sample type contain only ports of this type, and no port is in both. -/
theorem Final.keys (hwf : WellFormed env conns) {c0 : List (Chan × Chan)} {ty : Nat} {st : St}
    (h : Final env conns c0 ty st) :
    (∀ x ∈ st.send, typeOf env x.1 = ty) ∧ (∀ x ∈ st.recv, typeOf env x.1 = ty) ∧
    (∀ x ∈ st.send, ∀ y ∈ st.recv, x.1 ≠ y.1) ∧ Keys st.send ∧ Keys st.recv := by
  obtain ⟨ps, hi, _⟩ := h.inv
  have hr : ∀ k ∈ typedConns env conns ty, env.stype k.2.1 = ty := by
    intro k hk
    obtain ⟨h1, h2⟩ := mem_typedConns.1 hk
    rw [← hwf.types k h1]; exact h2
  refine ⟨?_, ?_, ?_, hi.tiled.keys, hi.keysR⟩
  · intro x hx
    rcases hi.sendKeys x hx with ⟨k, hk, e⟩ | ⟨ρ, hρ, e⟩
    · rw [e]; exact (mem_typedConns.1 hk).2
    · obtain ⟨_, ⟨k, hk, hkr⟩, _⟩ := hi.routes ρ hρ
      rw [e, ← hkr]; exact hr k hk
  · intro x hx
    obtain ⟨r, _, ⟨k, hk, hkr⟩, e | e⟩ := hi.recvKeys x hx
    · rw [e, ← hkr]; exact hr k hk
    · rw [e, ← hkr]; exact hr k hk
  · intro x hx y hy e
    obtain ⟨r, _, ⟨k', hk', hkr⟩, e' | e'⟩ := hi.recvKeys y hy <;>
      rcases hi.sendKeys x hx with ⟨k, hk, e1⟩ | ⟨ρ, hρ, e1⟩ <;> rw [e1, e'] at e
    · injection e with e
      exact hwf.roles k (mem_typedConns.1 hk).1 k' (mem_typedConns.1 hk').1 (e.trans hkr.symm)
    · cases e
    · cases e
    · cases e

/-- If all sample types of the flow can be routed, buffer assignment succeeds with a correct result. -/
theorem initialise_ok (henv : EnvOK env) (hwf : WellFormed env conns)
    (hroute : ∀ k ∈ conns, env.routable (env.stype k.1.1) = true) :
    ∃ l, initialise env conns = .ok l ∧ Correct env conns l := by
  obtain ⟨sts, cs, t1, t2, t3, _, t5⟩ := typeLoop_spec henv hwf hroute (Schedule.toSet (conns.map fun k => env.stype k.1.1))
    [] (by
      intro ty hty
      rw [Schedule.mem_toSet, List.mem_map] at hty
      exact hty)
  have hnd : (sts.map Prod.fst).Nodup := by rw [t2]; exact Schedule.nodup_toSet _
  have htiled : ∀ e ∈ sts, Tiled (sendWidth env) e.2.send e.2.next := by
    intro e he
    obtain ⟨⟨c1, hf⟩, _⟩ := t3 e he
    obtain ⟨ps, hi, _⟩ := hf.inv
    exact hi.tiled
  obtain ⟨cfgs, start, a1, a2, a3, a4⟩ := assign_spec henv sts 0 hnd htiled (Nat.dvd_zero _)
  simp only [Nat.zero_add] at a1 a3
  have hres : initialise env conns = .ok ⟨cfgs, totalSize env sts, cs, sts.flatMap fun e => e.2.routings⟩ := by
    unfold initialise
    simp only [t1, a1]
    rw [if_neg (by simp)]
  generalize hl : (⟨cfgs, totalSize env sts, cs, sts.flatMap fun e => e.2.routings⟩ : Result) = l at hres
  have hlc : l.cfgs = cfgs := by rw [← hl]
  have hlp : l.pool = totalSize env sts := by rw [← hl]
  have hlk : l.conns = cs := by rw [← hl]
  have hlr : l.routings = sts.flatMap fun e => e.2.routings := by rw [← hl]
  -- types of the entries
  have htype : ∀ e ∈ sts, ∀ x, (x ∈ e.2.send ∨ x ∈ e.2.recv) → typeOf env x.1 = e.1 := by
    intro e he x hx
    obtain ⟨⟨c1, hf⟩, _⟩ := t3 e he
    obtain ⟨k1, k2, _⟩ := hf.keys hwf
    exact hx.elim (k1 x) (k2 x)
  -- the configuration of a port
  have hcfg : ∀ e ∈ sts, ∀ x, (x ∈ e.2.send ∨ x ∈ e.2.recv) → l.cfg x.1 = some (cfgOf env e.1 (start e.1) x) := by
    intro e he x hx
    have huniq : ∀ c ∈ cfgs, c.port = x.1 → c = cfgOf env e.1 (start e.1) x := by
      intro c hc hcp
      obtain ⟨e', he', x', hx', rfl⟩ := (a2 c).1 hc
      have hxx : x'.1 = x.1 := hcp
      have het : e'.1 = e.1 := by rw [← htype e' he' x' hx', ← htype e he x hx, hxx]
      have hee : e' = e := List.inj_on_of_nodup_map hnd he' he het
      subst hee
      obtain ⟨⟨c1, hf⟩, _⟩ := t3 e' he'
      obtain ⟨_, _, k3, k4, k5⟩ := hf.keys hwf
      have : x' = x := by
        rcases hx' with hx' | hx' <;> rcases hx with hx | hx
        · exact List.inj_on_of_nodup_map k4 hx' hx hxx
        · exact absurd hxx (k3 x' hx' x hx)
        · exact absurd hxx.symm (k3 x hx x' hx')
        · exact List.inj_on_of_nodup_map k5 hx' hx hxx
      rw [this]
    unfold Result.cfg
    rw [hlc]
    cases hf : cfgs.reverse.find? (fun c => decide (c.port = x.1)) with
    | none =>
      rw [List.find?_eq_none] at hf
      have := hf _ (List.mem_reverse.2 ((a2 _).2 ⟨e, he, x, hx, rfl⟩))
      simp [cfgOf] at this
    | some c =>
      have h1 := List.mem_reverse.1 (List.mem_of_find?_eq_some hf)
      have h2 : c.port = x.1 := by simpa using List.find?_some hf
      rw [huniq c h1 h2]
  -- the address of a channel
  have haddr : ∀ e ∈ sts, ∀ x, (x ∈ e.2.send ∨ x ∈ e.2.recv) → ∀ i,
      l.addr (x.1, i) = some (start e.1 + chanSize env e.1 * (x.2 + i)) := by
    intro e he x hx i
    unfold Result.addr
    simp only [hcfg e he x hx, Option.map_some, cfgOf]
    have hsz : sampleSize env e.1 x.1 = env.size e.1 := by
      have := htype e he x hx
      cases hp : x.1 with
      | orig a => rw [hp] at this; simp only [typeOf] at this; simp [sampleSize, this]
      | routeIn r => rfl
      | routeOut r => rfl
    rw [hsz, Nat.div_mul_cancel (chanSize_spec henv e.1).2.2]
    congr 1
    rw [Nat.mul_add, Nat.mul_comm i, Nat.add_assoc]
  -- types of connections
  have htyped : ∀ k ∈ conns, ∃ e ∈ sts, k ∈ typedConns env conns e.1 := by
    intro k hk
    have : env.stype k.1.1 ∈ sts.map Prod.fst := by
      rw [t2, Schedule.mem_toSet]
      exact List.mem_map.2 ⟨k, hk, rfl⟩
    obtain ⟨e, he, hek⟩ := List.mem_map.1 this
    exact ⟨e, he, mem_typedConns.2 ⟨hk, hek.symm⟩⟩
  -- written channels
  have hwritten : ∀ c, Written env conns l c → ∃ e ∈ sts, ∃ o, (c.1, o) ∈ e.2.send ∧ c.2 < sendWidth env c.1 := by
    rintro c (⟨k, hk, h1, h2⟩ | ⟨ρ, hρ, h1, h2⟩)
    · obtain ⟨e, he, hke⟩ := htyped k hk
      obtain ⟨⟨c1, hf⟩, _⟩ := t3 e he
      obtain ⟨ps, hi, _⟩ := hf.inv
      obtain ⟨o, ho⟩ := hi.sends k hke
      exact ⟨e, he, o, by rw [h1]; exact find_mem ho, by rw [h1]; exact h2⟩
    · rw [hlr] at hρ
      obtain ⟨e, he, hρ⟩ := List.mem_flatMap.1 hρ
      obtain ⟨⟨c1, hf⟩, _⟩ := t3 e he
      obtain ⟨ps, hi, _⟩ := hf.inv
      obtain ⟨_, _, hlen, o, ho⟩ := hi.routes ρ hρ
      exact ⟨e, he, o, by rw [h1]; exact find_mem ho, by rw [h1]; simp only [sendWidth]; omega⟩
  have hbytes : ∀ e ∈ sts, ∀ c : Chan, ∀ o, (c.1, o) ∈ e.2.send → bytes env c ≤ chanSize env e.1 := by
    intro e he c o ho
    unfold bytes
    rw [htype e he _ (Or.inl ho)]
    exact (chanSize_spec henv e.1).1
  have hdirect : ∀ e ∈ sts, ∀ k, DirectAt e.2 k → lift k ∈ e.2.conns → Direct l k := by
    rintro e he k ⟨a, o, h1, h2, h3⟩ h4
    refine ⟨⟨_, haddr e he _ (Or.inl (find_mem h1)) _, ?_⟩, ?_⟩
    · rw [haddr e he _ (Or.inr (find_mem h2)) k.2.2]
      simp only
      rw [h3]
    · rw [hlk]; exact (t3 e he).2 _ h4
  have hvia : ∀ e ∈ sts, ∀ ρ k, ViaAt e.2 ρ k → ViaCopy l ρ k := by
    rintro e he ρ k ⟨hρr, j, a, o, lo, h1, h2, h3, h4, h5, h6, h7, h8, h9⟩
    have hcs := (t3 e he).2
    refine ⟨hρr, j, h1, h2, ⟨_, haddr e he _ (Or.inl (find_mem h3)) _, ?_⟩,
      ⟨_, haddr e he _ (Or.inl (find_mem h6)) _, ?_⟩, by rw [hlk]; exact hcs _ h8, by rw [hlk]; exact hcs _ h9⟩
    · rw [haddr e he _ (Or.inr (find_mem h4)) j]
      simp only
      rw [h5]
    · rw [haddr e he _ (Or.inr (find_mem h7)) k.2.2]
  refine ⟨l, hres, ?_, ?_, ?_, ?_, ?_⟩
  · -- inside the pool
    intro c hc
    obtain ⟨e, he, o, ho, hlt⟩ := hwritten c hc
    refine ⟨_, haddr e he _ (Or.inl ho) c.2, ?_, ?_⟩
    · have h1 := (htiled e he).le _ ho
      have h2 := (a3 e he).2.1
      have h3 := hbytes e he c o ho
      have h4 : chanSize env e.1 * (o + c.2) + chanSize env e.1 ≤ e.2.next * chanSize env e.1 := by
        rw [← Nat.mul_succ, Nat.mul_comm]
        refine Nat.mul_le_mul_right _ ?_
        simp only at h1
        omega
      rw [hlp]
      simp only
      omega
    · exact Nat.dvd_add (a3 e he).2.2 (Dvd.dvd.mul_right (chanSize_spec henv e.1).2.1 _)
  · -- disjoint
    intro c c' hc hc' hne a a' ha ha'
    obtain ⟨e, he, o, ho, hlt⟩ := hwritten c hc
    obtain ⟨e', he', o', ho', hlt'⟩ := hwritten c' hc'
    have h1 := haddr e he _ (Or.inl ho) c.2
    have h1' := haddr e' he' _ (Or.inl ho') c'.2
    simp only at h1 h1'
    rw [ha] at h1
    rw [ha'] at h1'
    injection h1 with h1
    injection h1' with h1'
    have h3 := hbytes e he c o ho
    have h3' := hbytes e' he' c' o' ho'
    have h4 : chanSize env e.1 * (o + c.2) + chanSize env e.1 ≤ e.2.next * chanSize env e.1 := by
      have h1 := (htiled e he).le _ ho
      rw [← Nat.mul_succ, Nat.mul_comm]
      refine Nat.mul_le_mul_right _ ?_
      simp only at h1
      omega
    have h4' : chanSize env e'.1 * (o' + c'.2) + chanSize env e'.1 ≤ e'.2.next * chanSize env e'.1 := by
      have h1 := (htiled e' he').le _ ho'
      rw [← Nat.mul_succ, Nat.mul_comm]
      refine Nat.mul_le_mul_right _ ?_
      simp only at h1
      omega
    by_cases hty : e.1 = e'.1
    · have hee : e = e' := List.inj_on_of_nodup_map hnd he he' hty
      subst hee
      have hq : o + c.2 ≠ o' + c'.2 := by
        intro heq
        have := (htiled e he).unique (c := o + c.2) _ ho _ ho' (by simp) (by simp only; omega) (by simp only; omega)
          (by simp only; omega)
        injection this with e1 e2
        exact hne (Prod.ext e1 (by omega))
      rcases Nat.lt_or_gt_of_ne hq with hlt1 | hlt1
      · left
        have : chanSize env e.1 * (o + c.2 + 1) ≤ chanSize env e.1 * (o' + c'.2) := Nat.mul_le_mul_left _ hlt1
        rw [Nat.mul_succ] at this
        omega
      · right
        have : chanSize env e.1 * (o' + c'.2 + 1) ≤ chanSize env e.1 * (o + c.2) := Nat.mul_le_mul_left _ hlt1
        rw [Nat.mul_succ] at this
        omega
    · rcases a4 e he e' he' hty with h | h
      · left; omega
      · right; omega
  · -- received
    intro k hk
    obtain ⟨e, he, hke⟩ := htyped k hk
    obtain ⟨⟨c1, hf⟩, hcs⟩ := t3 e he
    obtain ⟨ps, hi, hps⟩ := hf.inv
    rcases hi.served k hke (hps k hke) with ⟨h1, h2⟩ | h
    · exact Or.inl (hdirect e he k h1 h2)
    · obtain ⟨ρ, hρ, h⟩ := h
      exact Or.inr ⟨ρ, by rw [hlr]; exact List.mem_flatMap.2 ⟨e, he, hρ⟩, hvia e he ρ k h⟩
  · -- copies
    have hrty : ∀ e ∈ sts, ∀ ρ ∈ e.2.routings, env.stype ρ.recv = e.1 := by
      intro e he ρ hρ
      obtain ⟨⟨c1, hf⟩, _⟩ := t3 e he
      obtain ⟨ps, hi, _⟩ := hf.inv
      obtain ⟨_, ⟨k, hk, hkr⟩, _⟩ := hi.routes ρ hρ
      obtain ⟨h1, h2⟩ := mem_typedConns.1 hk
      rw [← hkr, ← hwf.types k h1, h2]
    constructor
    · rw [hlr, List.map_flatMap, List.nodup_flatMap]
      constructor
      · intro e he
        obtain ⟨⟨c1, hf⟩, _⟩ := t3 e he
        obtain ⟨ps, hi, _⟩ := hf.inv
        exact hi.nodup
      · rw [List.nodup_iff_pairwise_ne, List.pairwise_map] at hnd
        refine hnd.imp_of_mem ?_
        intro e e' he he' hne x hx hx'
        obtain ⟨ρ, hρ, rfl⟩ := List.mem_map.1 hx
        obtain ⟨ρ', hρ', hρρ⟩ := List.mem_map.1 hx'
        exact hne (by rw [← hrty e he ρ hρ, ← hrty e' he' ρ' hρ', hρρ])
    · intro ρ hρ
      rw [hlr] at hρ
      obtain ⟨e, he, hρ⟩ := List.mem_flatMap.1 hρ
      have hty := hrty e he ρ hρ
      obtain ⟨⟨c1, hf⟩, _⟩ := t3 e he
      obtain ⟨ps, hi, _⟩ := hf.inv
      obtain ⟨_, ⟨k, hk, hkr⟩, hlen, _⟩ := hi.routes ρ hρ
      refine ⟨⟨k, (mem_typedConns.1 hk).1, hkr⟩, hlen, ?_⟩
      intro k hk hkr
      exact hvia e he ρ k (hi.via ρ hρ k (mem_typedConns.2 ⟨hk, by rw [hwf.types k hk, hkr, hty]⟩) hkr)
  · -- no other connections
    intro d hd
    rw [hlk] at hd
    rcases t5 d hd with h | ⟨e, he, h⟩
    · cases h
    · rcases h with ⟨k, hk, h1, rfl, h3⟩ | ⟨k, hk, ρ, hρ, h1, j, h2, h3⟩
      · exact Or.inl ⟨k, (mem_typedConns.1 hk).1, hdirect e he k h1 h3, rfl⟩
      · exact Or.inr ⟨k, (mem_typedConns.1 hk).1, ρ, by rw [hlr]; exact List.mem_flatMap.2 ⟨e, he, hρ⟩, h1, j, h2, h3⟩

/-- The environment in which all sample types can be routed. -/
def Env.allRoutable (env : Env) : Env := { env with routable := fun _ => true }

theorem sendWidth_allRoutable : sendWidth env.allRoutable = sendWidth env := by
  funext p
  cases p <;> rfl

theorem findPort_allRoutable (t : Offsets) (c : Nat) : findPort env.allRoutable t c = findPort env t c := by
  unfold findPort
  rw [sendWidth_allRoutable]

theorem routeConns_allRoutable (t : Offsets) (r lo : Nat) (idx : List Nat) : ∀ l,
    routeConns env.allRoutable t r lo idx l = routeConns env t r lo idx l := by
  intro l
  induction l with
  | nil => rfl
  | cons j l ih => rw [routeConns, routeConns, ih, findPort_allRoutable]

theorem recvStep_allRoutable (ty : Nat) (typed : List Conn) (st : St) (r : Nat) :
    recvStep env ty typed st r = recvStep env.allRoutable ty typed st r ∨
      (recvStep env ty typed st r = .throw .invalidArgument ∧ env.routable ty = false) := by
  have hw : env.allRoutable.width = env.width := rfl
  have ht : env.allRoutable.routable ty = true := rfl
  unfold recvStep
  simp only [routeConns_allRoutable, hw, ht]
  cases hr : env.routable ty with
  | true => exact Or.inl rfl
  | false =>
    by_cases h0 : env.width r = 0
    · left; rw [if_pos h0, if_pos h0]
    rw [if_neg h0, if_neg h0]
    cases sendChannels (env.width r) r (typed.filter fun k => k.2.1 = r) with
    | throw e => exact Or.inl rfl
    | ub => exact Or.inl rfl
    | ok sends =>
      simp only []
      cases contiguousRange st.send sends with
      | throw e => exact Or.inl rfl
      | ub => exact Or.inl rfl
      | ok b =>
        cases b with
        | true => exact Or.inl rfl
        | false =>
          cases sendIndices st.send sends with
          | throw e => exact Or.inl rfl
          | ub => exact Or.inl rfl
          | ok abs => right; simp

theorem recvLoop_allRoutable (ty : Nat) (typed : List Conn) : ∀ (rs : List Nat) (st : St),
    recvLoop env ty typed rs st = recvLoop env.allRoutable ty typed rs st ∨
      (recvLoop env ty typed rs st = .throw .invalidArgument ∧ env.routable ty = false) := by
  intro rs
  induction rs with
  | nil => intro st; exact Or.inl rfl
  | cons r rs ih =>
    intro st
    rw [recvLoop, recvLoop]
    rcases recvStep_allRoutable (env := env) ty typed st r with h | ⟨h, h'⟩
    · rw [h]
      cases recvStep env.allRoutable ty typed st r with
      | ok st' => exact ih st'
      | throw e => exact Or.inl rfl
      | ub => exact Or.inl rfl
    · rw [h]; exact Or.inr ⟨rfl, h'⟩

theorem sendLoop_allRoutable : ∀ (ss : List Nat) (a : Offsets × Nat), sendLoop env.allRoutable ss a = sendLoop env ss a := by
  intro ss
  induction ss with
  | nil => intro a; rfl
  | cons s ss ih => intro a; rw [sendLoop, sendLoop, ih]; rfl

theorem typeLoop_allRoutable : ∀ (tys : List Nat) (done : List (Chan × Chan)),
    typeLoop env conns tys done = typeLoop env.allRoutable conns tys done ∨
      (typeLoop env conns tys done = .throw .invalidArgument ∧ ∃ ty ∈ tys, env.routable ty = false) := by
  intro tys
  induction tys with
  | nil => intro done; exact Or.inl rfl
  | cons ty tys ih =>
    intro done
    rw [typeLoop, typeLoop]
    have hstep : typeStep env conns done ty = typeStep env.allRoutable conns done ty ∨
        (typeStep env conns done ty = .throw .invalidArgument ∧ env.routable ty = false) := by
      unfold typeStep
      simp only [sendLoop_allRoutable]
      exact recvLoop_allRoutable ty _ _ _
    rcases hstep with h | ⟨h, h'⟩
    · rw [h]
      cases typeStep env.allRoutable conns done ty with
      | throw e => exact Or.inl rfl
      | ub => exact Or.inl rfl
      | ok st =>
        simp only
        rcases ih st.conns with h | ⟨h, ty', h1, h2⟩
        · rw [h]; exact Or.inl rfl
        · rw [h]; exact Or.inr ⟨rfl, ty', by simp [h1], h2⟩
    · rw [h]; exact Or.inr ⟨rfl, ty, by simp, h'⟩

theorem assign_allRoutable : ∀ (sts : List (Nat × St)) (off : Nat), assign env.allRoutable sts off = assign env sts off := by
  intro sts
  induction sts with
  | nil => intro off; rfl
  | cons x sts ih =>
    intro off
    obtain ⟨ty, st⟩ := x
    have h1 : sampleSize env.allRoutable ty = sampleSize env ty := by funext p; cases p <;> rfl
    have h2 : chanSize env.allRoutable ty = chanSize env ty := rfl
    have h3 : env.allRoutable.size = env.size := rfl
    rw [assign, assign]
    simp only [h1, h2, h3, sendWidth_allRoutable, ih]

/-- **C26.** Buffer assignment for a composite flow with well-formed connections either fails cleanly, with an exception
that says that signals of an unsupported (complex) sample type would have to be copied, or it succeeds. If it succeeds,
every written channel (of a send port or of an inserted copy component) has an aligned buffer of its own in the pool,
every receive channel reads the buffer of the channel connected to it, directly or through an inserted copy, and the final
connections contain exactly the dependencies this needs. -/
theorem buffers_assigned (henv : EnvOK env) (hwf : WellFormed env conns) :
    (∃ l, initialise env conns = .ok l ∧ Correct env conns l) ∨
    (initialise env conns = .throw .invalidArgument ∧ ∃ k ∈ conns, env.routable (env.stype k.1.1) = false) := by
  have henv' : EnvOK env.allRoutable := ⟨henv.order, henv.align, henv.size⟩
  have hwf' : WellFormed env.allRoutable conns := ⟨hwf.sendIdx, hwf.recvIdx, hwf.once, hwf.types, hwf.roles⟩
  obtain ⟨l, h1, h2⟩ := initialise_ok henv' hwf' (fun _ _ => rfl)
  have hty : ∀ p, typeOf env.allRoutable p = typeOf env p := by intro p; cases p <;> rfl
  have hc : Correct env conns l := by
    refine ⟨?_, ?_, h2.received, h2.copies, h2.conns⟩
    · intro c hc
      have := h2.inPool c hc
      unfold bytes at this ⊢
      rw [hty] at this
      exact this
    · intro c c' hc hc' hne a a' ha ha'
      have := h2.disjoint c c' hc hc' hne a a' ha ha'
      unfold bytes at this ⊢
      rw [hty, hty] at this
      exact this
  unfold initialise at h1 ⊢
  have hs : env.allRoutable.stype = env.stype := rfl
  have htot : totalSize env.allRoutable = totalSize env := rfl
  simp only [hs, assign_allRoutable, htot] at h1
  rcases typeLoop_allRoutable (env := env) (conns := conns) (Schedule.toSet (conns.map fun k => env.stype k.1.1)) [] with
    h | ⟨h, ty, h3, h4⟩
  · left
    refine ⟨l, ?_, hc⟩
    simp only []
    rw [h]
    exact h1
  · right
    simp only []
    rw [h]
    rw [Schedule.mem_toSet, List.mem_map] at h3
    obtain ⟨k, hk, rfl⟩ := h3
    exact ⟨rfl, k, hk, h4⟩

/-! ## Atomic top-level flows -/

/-- **C26 for atomic top-level flows.** If all ports have the same sample type, every channel of every port has an aligned
buffer of its own in the pool. -/
theorem atomic_buffers_partial (henv : EnvOK env) {ports : List Nat} (hnd : ports.Nodup) (ty : Nat)
    (hne : ports ≠ []) (hty : ∀ p ∈ ports, env.stype p = ty) :
    ∃ l, initialiseAtomic env ports = .ok l ∧
      (∀ p ∈ ports, ∀ i < env.width p, ∃ a, l.addr (.orig p, i) = some a ∧ a + env.period * env.size ty ≤ l.pool ∧
        env.align ∣ a) ∧
      (∀ p ∈ ports, ∀ i < env.width p, ∀ p' ∈ ports, ∀ i' < env.width p', (p, i) ≠ (p', i') → ∀ a a',
        l.addr (.orig p, i) = some a → l.addr (.orig p', i') = some a' →
        a + env.period * env.size ty ≤ a' ∨ a' + env.period * env.size ty ≤ a) := by
  have hset : Schedule.toSet (ports.map env.stype) = [ty] := by
    have h1 : ∀ y, y ∈ Schedule.toSet (ports.map env.stype) ↔ y = ty := by
      intro y
      rw [Schedule.mem_toSet, List.mem_map]
      constructor
      · rintro ⟨p, hp, rfl⟩; exact hty p hp
      · rintro rfl
        obtain ⟨p, hp⟩ := List.exists_mem_of_ne_nil _ hne
        exact ⟨p, hp, hty p hp⟩
    have h2 := Schedule.nodup_toSet (ports.map env.stype)
    generalize Schedule.toSet (ports.map env.stype) = s at h1 h2
    match s with
    | [] => exact absurd ((h1 ty).2 rfl) (by simp)
    | [x] => rw [(h1 x).1 (by simp)]
    | x :: y :: r =>
      have e1 := (h1 x).1 (by simp)
      have e2 := (h1 y).1 (by simp)
      rw [e1, e2] at h2
      simp at h2
  obtain ⟨s1, s2⟩ := sendLoop_spec ports [] 0 Tiled.nil hnd (by intro s _; rfl) (env := env)
  obtain ⟨cfgs, start, a1, a2, a3, _⟩ := assign_spec henv [(ty, atomicSt env ports)] 0 (by simp)
    (by intro e he; rw [List.mem_singleton] at he; subst he; exact s1)
    (Nat.dvd_zero _)
  simp only [Nat.zero_add] at a1 a3
  have hsts : (Schedule.toSet (ports.map env.stype)).map (fun t => (t, atomicSt env ports)) = [(ty, atomicSt env ports)] := by
    rw [hset]; rfl
  have hres : initialiseAtomic env ports = .ok ⟨cfgs, totalSize env [(ty, atomicSt env ports)], [], []⟩ := by
    unfold initialiseAtomic
    simp only [hsts, a1]
    rw [if_neg (by simp)]
  have hmem : ∀ p ∈ ports, ∃ o, (PortRef.orig p, o) ∈ (atomicSt env ports).send := by
    intro p hp
    obtain ⟨o, ho⟩ := (s2 (.orig p)).2 (Or.inr ⟨p, hp, rfl⟩)
    exact ⟨o, find_mem ho⟩
  have haddr : ∀ p ∈ ports, ∀ o, (PortRef.orig p, o) ∈ (atomicSt env ports).send → ∀ i,
      (⟨cfgs, totalSize env [(ty, atomicSt env ports)], [], []⟩ : Result).addr (.orig p, i) =
        some (start ty + chanSize env ty * (o + i)) := by
    intro p hp o ho i
    have hu : ∀ c ∈ cfgs, c.port = .orig p → c = cfgOf env ty (start ty) (.orig p, o) := by
      intro c hc hcp
      obtain ⟨e, he, x, hx, rfl⟩ := (a2 c).1 hc
      rw [List.mem_singleton] at he
      subst he
      rcases hx with hx | hx
      · have : x = (.orig p, o) := List.inj_on_of_nodup_map s1.keys hx ho hcp
        rw [this]
      · cases hx
    unfold Result.addr Result.cfg
    cases hf : cfgs.reverse.find? (fun c => decide (c.port = .orig p)) with
    | none =>
      rw [List.find?_eq_none] at hf
      have := hf _ (List.mem_reverse.2 ((a2 _).2 ⟨_, List.mem_singleton.2 rfl, _, Or.inl ho, rfl⟩))
      simp [cfgOf] at this
    | some c =>
      have h1 := List.mem_reverse.1 (List.mem_of_find?_eq_some hf)
      have h2 : c.port = .orig p := by simpa using List.find?_some hf
      rw [hu c h1 h2]
      simp only [Option.map_some, cfgOf, sampleSize, hty p hp]
      rw [Nat.div_mul_cancel (chanSize_spec henv ty).2.2]
      congr 1
      rw [Nat.mul_add, Nat.mul_comm i, Nat.add_assoc]
  refine ⟨_, hres, ?_, ?_⟩
  · intro p hp i hi
    obtain ⟨o, ho⟩ := hmem p hp
    refine ⟨_, haddr p hp o ho i, ?_, ?_⟩
    · have h1 := s1.le _ ho
      have h2 := (a3 _ (List.mem_singleton.2 rfl)).2.1
      have h3 := (chanSize_spec henv ty).1
      have h4 : chanSize env ty * (o + i) + chanSize env ty ≤ (atomicSt env ports).next * chanSize env ty := by
        rw [← Nat.mul_succ, Nat.mul_comm]
        refine Nat.mul_le_mul_right _ ?_
        simp only [sendWidth] at h1
        have : (atomicSt env ports).next = (sendLoop env ports ([], 0)).2 := rfl
        omega
      simp only at h2 ⊢
      omega
    · exact Nat.dvd_add (a3 _ (List.mem_singleton.2 rfl)).2.2 (Dvd.dvd.mul_right (chanSize_spec henv ty).2.1 _)
  · intro p hp i hi p' hp' i' hi' hne' a a' ha ha'
    obtain ⟨o, ho⟩ := hmem p hp
    obtain ⟨o', ho'⟩ := hmem p' hp'
    rw [haddr p hp o ho i] at ha
    rw [haddr p' hp' o' ho' i'] at ha'
    injection ha with ha
    injection ha' with ha'
    have h3 := (chanSize_spec henv ty).1
    have hq : o + i ≠ o' + i' := by
      intro heq
      have := s1.unique (c := o + i) _ ho _ ho' (by simp) (by simp only [sendWidth]; omega) (by simp only; omega)
        (by simp only [sendWidth]; omega)
      injection this with e1 e2
      injection e1 with e1
      exact hne' (Prod.ext e1 (by simp only; omega))
    rcases Nat.lt_or_gt_of_ne hq with hlt1 | hlt1
    · left
      have : chanSize env ty * (o + i + 1) ≤ chanSize env ty * (o' + i') := Nat.mul_le_mul_left _ hlt1
      rw [Nat.mul_succ] at this
      omega
    · right
      have : chanSize env ty * (o' + i' + 1) ≤ chanSize env ty * (o + i) := Nat.mul_le_mul_left _ hlt1
      rw [Nat.mul_succ] at this
      omega

/-! ## Copies -/

/-- **C26.** With a 64-byte aligned pool the copies between aligned buffers never fail for sample types of at most four
bytes. -/
theorem copies_succeed_partial (h64 : env.align = 64) {ty : Nat} (hsz : env.size ty = 1 ∨ env.size ty = 2 ∨ env.size ty = 4)
    {base src dst : Nat} (hb : 64 ∣ base) (hs : env.align ∣ src) (hd : env.align ∣ dst) :
    copyAligned env base ty src dst = true := by
  rw [h64] at hs hd
  have key : ∀ x, 64 ∣ x → Efl.checkAlignment (BitVec.ofNat 64 (env.size ty)) (BitVec.ofNat 64 (base + x)) 16#64 = true := by
    intro x hx
    obtain ⟨j, hj, hj2⟩ : ∃ j ≤ 2, env.size ty = 2 ^ j := by
      rcases hsz with h | h | h
      · exact ⟨0, by omega, h⟩
      · exact ⟨1, by omega, h⟩
      · exact ⟨2, by omega, h⟩
    have hle : env.size ty ≤ 4 := by rcases hsz with h | h | h <;> omega
    have hto : (BitVec.ofNat 64 (env.size ty)).toNat = env.size ty := by
      rw [BitVec.toNat_ofNat]; exact Nat.mod_eq_of_lt (by omega)
    have h16 : (16#64 : BitVec 64).toNat = 16 := rfl
    rw [Efl.checkAlignment_iff _ _ _ j (by rw [hto, hj2]) (by rw [hto, h16]; omega)]
    right
    refine ⟨⟨4, rfl⟩, ?_⟩
    rw [hto, h16, BitVec.toNat_ofNat]
    have h4 : 16 * env.size ty ∣ 64 := by rcases hsz with h | h | h <;> rw [h] <;> decide
    exact Dvd.dvd.trans h4 ((Nat.dvd_mod_iff (by decide : 64 ∣ 2 ^ 64)).2 (Nat.dvd_add hb hx))
  unfold copyAligned
  rw [key src hs, key dst hd]
  rfl

end

/-! ## Examples -/

/-- Sample types 0 (`float`, 4 bytes) and 1 (`double`, 8 bytes), period 16, alignment 64. Ports 1 (stereo) and 2 (mono)
send floats, 5 sends doubles. -/
def demoEnv : Env where
  width := fun p => if p = 1 ∨ p = 3 ∨ p = 4 ∨ p = 5 ∨ p = 6 then 2 else 1
  stype := fun p => if p = 5 ∨ p = 6 then 1 else 0
  size := fun t => if t = 1 then 8 else 4
  period := 16
  align := 64
  routable := fun _ => true
  order := fun l => l

/-- Port 3 receives the channels of port 1 in order, port 4 receives channel 1 of port 1 and port 2 swapped, port 6
receives from port 5. -/
def demoConns : List Conn :=
  [((1, 0), (3, 0)), ((1, 1), (3, 1)), ((2, 0), (4, 0)), ((1, 1), (4, 1)), ((5, 0), (6, 0)), ((5, 1), (6, 1))]

example : EnvOK demoEnv := by
  refine ⟨fun l => List.Perm.refl l, by decide, ?_⟩
  intro t
  simp only [demoEnv]
  by_cases h : t = 1
  · simp [h]
  · simp [h]

example : WellFormed demoEnv demoConns :=
  ⟨by decide, by decide, by decide, by decide, by decide⟩

example : (initialise demoEnv demoConns).isOk = true := by decide

/-- In the example port 3 is served directly and port 4 by a copy component. -/
example : ∃ l, initialise demoEnv demoConns = .ok l ∧ l.routings.map (fun ρ => (ρ.recv, ρ.indices)) = [(4, [0, 2])] ∧
    l.pool = 5 * 64 + 2 * 128 ∧ l.addr (.orig 1, 1) = some 128 ∧ l.addr (.orig 3, 1) = some 128 ∧
    l.addr (.orig 2, 0) = some 0 ∧ l.addr (.orig 4, 0) = some 192 ∧ l.addr (.routeOut 4, 0) = some 192 ∧
    l.addr (.routeIn 4, 1) = some 64 ∧ l.addr (.orig 5, 1) = some 448 := by
  refine ⟨_, rfl, ?_⟩
  decide

/-- **C26 (sample types are necessary).** If a port is connected to a port with a different sample type, which the
connection check accepts (`Visr.Flow.sampleType_mismatch_accepted`), buffer assignment succeeds as well, but the receiver
reads other memory than its sender writes. -/
theorem mistyped_receiver_reads_elsewhere :
    ∃ l, initialise demoEnv [((5, 0), (3, 0)), ((5, 1), (3, 1))] = .ok l ∧
      l.addr (.orig 5, 1) = some 128 ∧ l.addr (.orig 3, 1) = some 64 := by
  refine ⟨_, rfl, ?_⟩
  decide

/-- Mono ports 1 of type `double` (type 1, 8 bytes) and 2 of type `uint8_t` (type 3, 1 byte), period 16. -/
def mixedEnv : Env := ⟨fun _ => 1, fun p => if p = 1 then 1 else 3, fun t => if t = 1 then 8 else 1, 16, 64, fun _ => true, id⟩

/-- **C26 (atomic flows need a single sample type).** The ports of an atomic top-level component are placed with the
spacing of the last sample type used. If this is smaller than another one, the 128 bytes of the `double` port overlap those
of the other port, or, if the ports are registered in the other order, extend beyond the end of the pool. -/
theorem atomic_mixed_types_overlap :
    (∃ l, initialiseAtomic mixedEnv [1, 2] = .ok l ∧ l.addr (.orig 1, 0) = some 256 ∧ l.addr (.orig 2, 0) = some 320) ∧
    (∃ l, initialiseAtomic mixedEnv [2, 1] = .ok l ∧ l.addr (.orig 1, 0) = some 320 ∧ l.pool = 384) := by
  refine ⟨⟨_, rfl, by decide +kernel, by decide +kernel⟩, ⟨_, rfl, by decide +kernel, by decide +kernel⟩⟩

/-- **C26 (copies of `double` signals can fail).** For a period of 8 `double` samples (64 bytes) the buffers of adjacent
channels are 64 bytes apart, but the copy operation asks for 16 samples, that is 128 bytes, so wherever the pool starts one
of two adjacent channels is rejected and `process()` throws. -/
theorem double_copy_rejected (env : Env) (ty base src dst : Nat) (hsz : env.size ty = 8) (hb : base + src + 64 < 2 ^ 64)
    (h : copyAligned env base ty src dst = true) : copyAligned env base ty (src + 64) dst = false := by
  have key : ∀ x, base + x < 2 ^ 64 →
      (Efl.checkAlignment (BitVec.ofNat 64 (env.size ty)) (BitVec.ofNat 64 (base + x)) 16#64 = true ↔ 128 ∣ base + x) := by
    intro x hx
    have hto : (BitVec.ofNat 64 (env.size ty)).toNat = 8 := by rw [hsz]; rfl
    have h16 : (16#64 : BitVec 64).toNat = 16 := rfl
    rw [Efl.checkAlignment_iff _ _ _ 3 (by rw [hto]; rfl) (by rw [hto, h16]; omega), hto, h16, BitVec.toNat_ofNat,
      Nat.mod_eq_of_lt hx]
    constructor
    · rintro (h | ⟨_, h⟩)
      · omega
      · exact h
    · intro h
      exact Or.inr ⟨⟨4, rfl⟩, h⟩
  unfold copyAligned at h ⊢
  rw [Bool.and_eq_true] at h
  have h1 := (key src (by omega)).1 h.1
  rw [Bool.and_eq_false_iff]
  left
  rw [Bool.eq_false_iff]
  intro h2
  have := (key (src + 64) (by omega)).1 h2
  omega

/-- The situation occurs: a receiver of the two channels of a `double` port in swapped order with a period of 8 samples. -/
example : ∃ l, initialise { demoEnv with period := 8 } [((5, 0), (6, 1)), ((5, 1), (6, 0))] = .ok l ∧
    l.routings.map (fun ρ => ρ.indices) = [[1, 0]] ∧ l.addr (.routeIn 6, 0) = some 0 ∧
    l.addr (.routeIn 6, 1) = some 64 := by
  refine ⟨_, rfl, ?_⟩
  decide

end Visr.Layout
