import Verif.Tree.Spec
import Verif.Tree.Lemmas

/-! # Names of components and ports, and the connections of composites -/

namespace Visr.Tree
open Visr

/-- **C30.** At every point of every history, the names of the children of a component are different, and so are the names
of its audio ports and of its parameter ports. -/
theorem names_unique {s : State} (hs : Reachable s) :
    (∀ p nm c c', IsChild s p nm c → IsChild s p nm c' → c = c') ∧
    (∀ c k kind nm x x', s.comps c = some k → IsPort s c kind nm x → IsPort s c kind nm x' → x = x') := by
  have hi := reachable_inv hs
  constructor
  · intro p nm c c' h h'
    obtain ⟨k, hk, hp, hn⟩ := h
    obtain ⟨-, q, hq, -⟩ := hi.par c k p hk hp
    have h1 := (findComponentEntry_some hi hq).2 ⟨k, hk, hp, hn⟩
    have h2 := (findComponentEntry_some hi hq).2 h'
    rw [h1] at h2
    exact Option.some.inj h2
  · intro c k kind nm x x' hk h h'
    have h1 := (findPortEntry_some hi hk).2 h
    have h2 := (findPortEntry_some hi hk).2 h'
    rw [h1] at h2
    exact Option.some.inj h2

/-- **C30.** Creating a component in an existing composite: if the parent has a child of that name, the constructor throws
`invalid_argument` and nothing changes; otherwise there is one new component with this name and parent, and all other
components keep names and parents. -/
theorem create_child {s : State} (hs : Reachable s) {p : Nat} {q : Comp} (hq : s.comps p = some q)
    (hc : q.composite = true) (nm : Name) (b : Bool) :
    ((∃ c, IsChild s p nm c) → create s nm b (some p) = .ok (s, .threw .invalidArgument)) ∧
    ((¬ ∃ c, IsChild s p nm c) → ∃ s' c, create s nm b (some p) = .ok (s', .created c) ∧ s.comps c = none ∧
      IsChild s' p nm c ∧ (∀ p' nm' c', c' ≠ c → (IsChild s' p' nm' c' ↔ IsChild s p' nm' c')) ∧ s'.ports = s.ports) := by
  have hi := reachable_inv hs
  have hfind : (findComponentEntry s q nm).isSome ↔ ∃ c, IsChild s p nm c := by
    rw [Option.isSome_iff_exists]
    exact exists_congr fun c => findComponentEntry_some hi hq
  constructor
  · intro h
    simp [create, hq, hc, hfind.2 h]
  · intro h
    have hnf : ¬ (findComponentEntry s q nm).isSome := fun h' => h (hfind.1 h')
    have hne : p ≠ s.next := Nat.ne_of_lt (hi.bound p q hq)
    simp only [create, hq]
    rw [if_neg (by simp [hc]), if_neg hnf]
    refine ⟨_, s.next, rfl, hi.next_none, ?_, ?_, rfl⟩
    · exact ⟨.fresh nm b (some p), by simp [State.setComp], rfl, rfl⟩
    · intro p' nm' c' hc'
      unfold IsChild
      simp only [State.setComp, if_neg hc']
      by_cases hcp : c' = p
      · subst hcp
        simp [hq]
      · simp [hcp]

/-- **C30.** The same for the ports of an existing component; audio ports and parameter ports may share names. -/
theorem create_port {s : State} (hs : Reachable s) {c : Nat} {k : Comp} (hk : s.comps c = some k) (kind : Kind) (nm : Name)
    (w : Nat) :
    ((∃ x, IsPort s c kind nm x) → createPort s kind nm w (some c) = .ok (s, .threw .invalidArgument)) ∧
    ((¬ ∃ x, IsPort s c kind nm x) → ∃ s' x, createPort s kind nm w (some c) = .ok (s', .created x) ∧ s.ports x = none ∧
      IsPort s' c kind nm x ∧ s'.width x = w ∧
      (∀ c' kind' nm' x', x' ≠ x → (IsPort s' c' kind' nm' x' ↔ IsPort s c' kind' nm' x')) ∧
      ∀ p' nm' c', IsChild s' p' nm' c' ↔ IsChild s p' nm' c') := by
  have hi := reachable_inv hs
  have hfind : (findPortEntry s k kind nm).isSome ↔ ∃ x, IsPort s c kind nm x := by
    rw [Option.isSome_iff_exists]
    exact exists_congr fun x => findPortEntry_some hi hk
  constructor
  · intro h
    simp [createPort, hk, hfind.2 h]
  · intro h
    have hnf : ¬ (findPortEntry s k kind nm).isSome := fun h' => h (hfind.1 h')
    simp only [createPort, hk]
    rw [if_neg hnf]
    refine ⟨_, s.next, rfl, hi.nextPort_none, ?_, ?_, ?_, ?_⟩
    · exact ⟨⟨nm, some c, kind, w⟩, by simp [State.setPort], rfl, rfl, rfl⟩
    · simp [State.width, State.setPort]
    · intro c' kind' nm' x' hx'
      simp [IsPort, State.setPort, State.setComp, hx']
    · intro p' nm' c'
      unfold IsChild
      simp only [State.setPort, State.setComp]
      by_cases hcc : c' = c
      · subst hcc
        simp [hk, Comp.setPorts]
      · simp [hcc]

/-- **C30.** Destroying an existing component never fails: it disappears, its children become top-level components, and
every other component keeps its name and parent. -/
theorem destroy_component {s : State} (hs : Reachable s) {c : Nat} {k : Comp} (hk : s.comps c = some k) :
    ∃ s', destroy s c = .ok (s', .done) ∧ s'.comps c = none ∧
      (∀ p nm x, IsChild s' p nm x ↔ IsChild s p nm x ∧ x ≠ c ∧ p ≠ c) ∧
      (∀ x r, IsChild s c r x → x ≠ c → ∃ k', s'.comps x = some k' ∧ k'.parent = none ∧ k'.name = r) ∧
      s'.ports = s.ports := by
  obtain ⟨s', h, hports, -, hcomps⟩ := destroy_comps (reachable_inv hs) hk
  refine ⟨s', h, by rw [hcomps, if_pos rfl], ?_, ?_, hports⟩
  · intro p nm x
    unfold IsChild
    rw [hcomps]
    by_cases hx : x = c
    · simp [hx]
    · rw [if_neg hx]
      cases hr : s.comps x with
      | none => simp
      | some r =>
        simp only [Option.map_some, Option.some.injEq, exists_eq_left', hx, not_false_eq_true, true_and, ne_eq]
        by_cases hrc : r.parent = some c
        · rw [if_pos hrc, hrc]
          constructor
          · rintro ⟨h, -⟩; cases h
          · rintro ⟨⟨h, -⟩, hne⟩
            exact absurd (Option.some.inj h).symm hne
        · rw [if_neg hrc]
          constructor
          · rintro ⟨h1, h2⟩
            refine ⟨⟨h1, h2⟩, ?_⟩
            rintro rfl
            exact hrc h1
          · rintro ⟨h, -⟩; exact h
  · rintro x nm ⟨r, hr, hp, rfl⟩ hx
    refine ⟨{ r with parent := if r.parent = some c then none else r.parent, children := r.children.filter fun y => y ≠ c },
      by rw [hcomps, if_neg hx, hr]; rfl, by simp [hp], rfl⟩

/-- **C30.** Destroying a port of an existing component removes this port and nothing else. -/
theorem destroy_port {s : State} {x : Nat} (hx : Alive s x) :
    ∃ s', destroyPort s x = .ok (s', .done) ∧ s'.ports x = none ∧
      (∀ c kind nm y, IsPort s' c kind nm y ↔ IsPort s c kind nm y ∧ y ≠ x) ∧
      ∀ p nm c, IsChild s' p nm c ↔ IsChild s p nm c := by
  obtain ⟨q, c, k, hq, hc, hk⟩ := hx
  simp only [destroyPort, hq, hc, hk]
  refine ⟨_, rfl, by simp [State.setPort], ?_, ?_⟩
  · intro c' kind nm y
    by_cases hy : y = x
    · simp [IsPort, State.setPort, hy]
    · simp [IsPort, State.setPort, State.setComp, hy]
  · intro p nm c'
    unfold IsChild
    simp only [State.setPort, State.setComp]
    by_cases hcc : c' = c
    · subst hcc
      simp [hk, Comp.setPorts]
    · simp [hcc]

/-- **C30.** Lookup by name in an existing composite returns the child of this name, for every name other than the empty
one and "this", which denote the composite itself. -/
theorem find_component {s : State} (hs : Reachable s) {p : Nat} {q : Comp} (hq : s.comps p = some q) (nm : Name)
    (hnm : nm ≠ [] ∧ nm ≠ "this".toList) (c : Nat) : findComponent s p q (some nm) = some c ↔ IsChild s p nm c := by
  have : ¬ (nm = [] ∨ nm = ['t', 'h', 'i', 's']) := by
    rintro (h | h)
    · exact hnm.1 h
    · exact hnm.2 (by rw [h]; rfl)
  rw [findComponent, if_neg this]
  exact findComponentEntry_some (reachable_inv hs) hq

/-- **C30.** Lookup of ports by component and port name: with the composite itself (null pointer, empty name or "this") the
ports of the composite, otherwise the ports of the child of this name. -/
theorem find_port {s : State} (hs : Reachable s) {p : Nat} {q : Comp} (hq : s.comps p = some q) (kind : Kind) (nm : Name)
    (x : Nat) :
    (findPort s p q kind none nm = some x ↔ IsPort s p kind nm x) ∧
    (findPort s p q kind (some []) nm = some x ↔ IsPort s p kind nm x) ∧
    (findPort s p q kind (some "this".toList) nm = some x ↔ IsPort s p kind nm x) ∧
    (∀ cn, cn ≠ [] → cn ≠ "this".toList →
      (findPort s p q kind (some cn) nm = some x ↔ ∃ c, IsChild s p cn c ∧ IsPort s c kind nm x)) := by
  have hi := reachable_inv hs
  have hself : findPortEntry s q kind nm = some x ↔ IsPort s p kind nm x := findPortEntry_some hi hq
  refine ⟨by simpa [findPort, findComponent, hq] using hself, by simpa [findPort, findComponent, hq] using hself, ?_, ?_⟩
  · have : "this".toList = ['t', 'h', 'i', 's'] := rfl
    rw [this]
    simpa [findPort, findComponent, hq] using hself
  · intro cn h1 h2
    unfold findPort
    cases hf : findComponent s p q (some cn) with
    | none =>
      simp only [reduceCtorEq, false_iff]
      rintro ⟨c, hc, -⟩
      rw [(find_component hs hq cn ⟨h1, h2⟩ c).2 hc] at hf
      cases hf
    | some c =>
      have hc := (find_component hs hq cn ⟨h1, h2⟩ c).1 hf
      obtain ⟨k, hk, hkp, hkn⟩ := hc
      simp only [hk]
      rw [findPortEntry_some hi hk]
      constructor
      · intro h; exact ⟨c, ⟨k, hk, hkp, hkn⟩, h⟩
      · rintro ⟨c', hc', h⟩
        rw [(names_unique hs).1 p cn c c' ⟨k, hk, hkp, hkn⟩ hc']
        exact h

/-! ## Full names -/

theorem intercalate_snoc (l : List Name) (hl : l ≠ []) (nm : Name) :
    [':'].intercalate (l ++ [nm]) = [':'].intercalate l ++ ':' :: nm := by
  induction l with
  | nil => exact absurd rfl hl
  | cons a l ih =>
    cases l with
    | nil => simp
    | cons b l =>
      have := ih (by simp)
      simp only [List.cons_append, List.intercalate_cons_cons] at this ⊢
      rw [this]
      simp

theorem path_alive {s : State} {r c : Nat} {l : List Name} (h : Path s r c l) : ∃ k, s.comps c = some k := by
  cases h with
  | top h _ => exact ⟨_, h⟩
  | child _ hc => exact ⟨_, hc.choose_spec.1⟩

theorem path_top {s : State} {r c : Nat} {l : List Name} (h : Path s r c l) :
    (l = [] ↔ c = r) ∧ (∃ k, s.comps r = some k ∧ k.parent = none) ∧ (∀ k, s.comps c = some k → (k.parent = none ↔ l = [])) := by
  induction h with
  | top h hp =>
    refine ⟨by simp, ⟨_, h, hp⟩, ?_⟩
    intro k hk
    rw [h] at hk; cases hk
    simp [hp]
  | child h hc ih =>
    obtain ⟨k, hk, hp, rfl⟩ := hc
    refine ⟨?_, ih.2.1, ?_⟩
    · constructor
      · intro h; simp at h
      · rintro rfl
        obtain ⟨k', hk', hp'⟩ := ih.2.1
        rw [hk] at hk'; cases hk'
        rw [hp] at hp'; cases hp'
    · intro k' hk'
      rw [hk] at hk'; cases hk'
      simp [hp]

/-- **C30.** Every existing component has exactly one place in a tree. -/
theorem path_exists {s : State} (hs : Reachable s) {c : Nat} {k : Comp} (hk : s.comps c = some k) :
    ∃ r l, Path s r c l := by
  have hi := reachable_inv hs
  induction c using Nat.strongRecOn generalizing k with
  | ind c ih =>
    cases hp : k.parent with
    | none => exact ⟨c, [], .top hk hp⟩
    | some p =>
      obtain ⟨hlt, q, hq, -⟩ := hi.par c k p hk hp
      obtain ⟨r, l, h⟩ := ih p hlt hq
      exact ⟨r, l ++ [k.name], .child h ⟨k, hk, hp, rfl⟩⟩

/-- **C30.** The names on the way from the top-level component identify a component. -/
theorem path_unique {s : State} (hs : Reachable s) {r c c' : Nat} {l : List Name} (h : Path s r c l) (h' : Path s r c' l) :
    c = c' := by
  induction h generalizing c' with
  | top h hp => exact ((path_top h').1.1 rfl).symm
  | @child p c l nm h hc ih =>
    generalize hl : l ++ [nm] = l' at h'
    cases h' with
    | top h hp => simp at hl
    | child h' hc' =>
      obtain ⟨rfl, hnm⟩ := List.append_inj' hl rfl
      cases hnm
      have := ih h'
      subst this
      exact (names_unique hs).1 _ _ _ _ hc hc'

theorem fullNameRec_path {s : State} (hi : Inv s) {r c : Nat} {l : List Name} (h : Path s r c l) (hl : l ≠ []) (n : Nat)
    (hn : c < n) : fullNameRec s n c = some ([':'].intercalate l) := by
  induction h generalizing n with
  | top => exact absurd rfl hl
  | @child p c l nm h hc ih =>
    obtain ⟨k, hk, hp, rfl⟩ := hc
    obtain ⟨hlt, q, hq, -⟩ := hi.par c k p hk hp
    obtain ⟨n, rfl⟩ : ∃ m, n = m + 1 := ⟨n - 1, by omega⟩
    simp only [fullNameRec, hk, hp, hq]
    have htop := (path_top h).2.2 q hq
    cases hqp : q.parent with
    | none =>
      have : l = [] := htop.1 hqp
      subst this
      simp
    | some p' =>
      have hne : l ≠ [] := fun h => by rw [htop.2 h] at hqp; cases hqp
      simp only
      rw [ih hne n (by omega), intercalate_snoc l hne]
      rfl

/-- **C30.** The full name of a component below the top level consists of the names on the way from the top-level component,
without the latter's own name, separated by colons; the full name of a top-level component is its name. -/
theorem fullName_path {s : State} (hs : Reachable s) {r c : Nat} {l : List Name} (h : Path s r c l) :
    (l ≠ [] → s.fullName c = some ([':'].intercalate l)) ∧ (l = [] → s.fullName c = s.compName c) := by
  have hi := reachable_inv hs
  obtain ⟨k, hk⟩ := path_alive h
  have hlt := hi.bound c k hk
  constructor
  · intro hl
    exact fullNameRec_path hi h hl _ hlt
  · intro hl
    have hp := ((path_top h).2.2 k hk).2 hl
    unfold State.fullName State.compName
    obtain ⟨n, hn⟩ : ∃ m, s.next = m + 1 := ⟨s.next - 1, by omega⟩
    rw [hn]
    simp [fullNameRec, hk, hp]

/-- **C30.** Two components of the same tree, both below the top level and with names free of colons on the way to them,
have different full names. -/
theorem fullName_injective {s : State} (hs : Reachable s) {r c c' : Nat} {l l' : List Name} (h : Path s r c l)
    (h' : Path s r c' l') (hc : c ≠ r) (hc' : c' ≠ r) (hl : ∀ nm ∈ l, ':' ∉ nm) (hl' : ∀ nm ∈ l', ':' ∉ nm)
    (hne : c ≠ c') : s.fullName c ≠ s.fullName c' := by
  have h1 : l ≠ [] := fun h0 => hc ((path_top h).1.1 h0)
  have h2 : l' ≠ [] := fun h0 => hc' ((path_top h').1.1 h0)
  rw [(fullName_path hs h).1 h1, (fullName_path hs h').1 h2]
  intro heq
  have heq := Option.some.inj heq
  have := congrArg (List.splitOn ':') heq
  rw [List.splitOn_intercalate ':' hl h1, List.splitOn_intercalate ':' hl' h2] at this
  subst this
  exact hne (path_unique hs h h')

/-! ## Connections -/

theorem checkPortParent_iff {s : State} {p x : Nat} (hx : Alive s x) :
    (Local s p x → checkPortParent s p x = .ok ()) ∧ (¬ Local s p x → checkPortParent s p x = .throw .invalidArgument) := by
  obtain ⟨q, c, k, hq, hc, hk⟩ := hx
  constructor
  · rintro ⟨q', c', hq', hc', h⟩
    rw [hq] at hq'; cases hq'
    rw [hc] at hc'; cases hc'
    rw [checkPortParent, hq]
    simp only [hc]
    split_ifs with h1
    · rfl
    · rcases h with h | ⟨k', hk', hp⟩
      · exact absurd h h1
      · rw [hk'] 
        simp [hp]
  · intro h
    rw [checkPortParent, hq]
    simp only [hc]
    rw [if_neg (fun h1 => h ⟨q, c, hq, hc, Or.inl h1⟩), hk]
    simp only
    rw [if_neg (fun h1 => h ⟨q, c, hq, hc, Or.inr ⟨k, hk, h1⟩⟩)]

theorem foldl_max_lt (l : List Nat) (w : Nat) (a : Nat) : l.foldl max a < w ↔ a < w ∧ ∀ i ∈ l, i < w := by
  induction l generalizing a with
  | nil => simp
  | cons b l ih =>
    rw [List.foldl_cons, ih]
    simp only [List.mem_cons, forall_eq_or_imp, Nat.max_lt]
    tauto

/-- **C48.** A connection request with ports and index lists is accepted exactly if both ports belong to the composite or
its direct children, the lists have the same length and all indices are channels of the ports. An accepted request with
non-empty lists adds this connection to the composite; a rejected one throws `invalid_argument` and changes nothing. -/
theorem audio_connection {s : State} {p send recv : Nat} {q : Comp} (hq : s.comps p = some q) (h1 : Alive s send)
    (h2 : Alive s recv) (si ri : List Nat) :
    let valid := Local s p send ∧ Local s p recv ∧ si.length = ri.length ∧ (∀ i ∈ si, i < s.width send) ∧
      ∀ i ∈ ri, i < s.width recv
    (valid → ∃ s', audioConnection s p send si recv ri = .ok (s', .done) ∧
      s'.comps p = some { q with aconns := if si = [] then q.aconns else q.aconns ++ [⟨send, si, recv, ri⟩] } ∧
      (∀ x, x ≠ p → s'.comps x = s.comps x) ∧ s'.ports = s.ports) ∧
    (¬ valid → audioConnection s p send si recv ri = .ok (s, .threw .invalidArgument)) := by
  intro valid
  unfold audioConnection thrown
  rw [hq]
  simp only
  have hlen0 : ∀ l : List Nat, l ≠ [] → ∀ w, (l.foldl max 0 < w ↔ ∀ i ∈ l, i < w) := by
    intro l hl w
    rw [foldl_max_lt]
    constructor
    · exact fun h => h.2
    · intro h
      obtain ⟨a, ha⟩ := List.exists_mem_of_ne_nil l hl
      exact ⟨Nat.lt_of_le_of_lt (Nat.zero_le _) (h a ha), h⟩
  constructor
  · rintro ⟨hl1, hl2, hlen, hi1, hi2⟩
    rw [(checkPortParent_iff h1).1 hl1, (checkPortParent_iff h2).1 hl2]
    simp only [hlen, ne_eq, not_true_eq_false, if_false]
    by_cases hsi : si = []
    · subst hsi
      have hri : ri.length = 0 := by rw [← hlen]; rfl
      rw [if_pos hri]
      exact ⟨s, rfl, by simp [hq], fun _ _ => rfl, rfl⟩
    · have hri : ri ≠ [] := by
        rintro rfl
        exact hsi (List.length_eq_zero_iff.1 (by simpa using hlen))
      have hr0 : ¬ ri.length = 0 := fun h => hri (List.length_eq_zero_iff.1 h)
      rw [if_neg hr0, if_neg (by rw [Nat.not_le, hlen0 si hsi]; exact hi1),
        if_neg (by rw [Nat.not_le, hlen0 ri hri]; exact hi2)]
      exact ⟨_, rfl, by simp [State.setComp, hsi], fun x hx => by simp [State.setComp, hx], rfl⟩
  · intro hv
    by_cases hl1 : Local s p send
    · rw [(checkPortParent_iff h1).1 hl1]
      by_cases hl2 : Local s p recv
      · rw [(checkPortParent_iff h2).1 hl2]
        simp only
        split_ifs with ha hb hc hd
        · rfl
        · exfalso
          apply hv
          have hsi := List.length_eq_zero_iff.1 hb
          subst hsi
          have hri : ri = [] := List.length_eq_zero_iff.1 (by simpa using (not_not.1 ha).symm)
          subst hri
          exact ⟨hl1, hl2, rfl, by simp, by simp⟩
        · rfl
        · rfl
        · exfalso
          apply hv
          have hsi : si ≠ [] := fun h => hb (by rw [h]; rfl)
          have hri : ri ≠ [] := by
            rintro rfl
            exact hsi (List.length_eq_zero_iff.1 (by simpa using ha))
          exact ⟨hl1, hl2, not_not.1 ha, (hlen0 si hsi _).1 (Nat.lt_of_not_le hc), (hlen0 ri hri _).1 (Nat.lt_of_not_le hd)⟩
      · rw [(checkPortParent_iff h2).2 hl2]
    · rw [(checkPortParent_iff h1).2 hl1]

/-- **C48.** A connection request between whole ports is accepted exactly if the ports belong to the composite or its direct
children and have the same width; it then connects channel `i` to channel `i`. -/
theorem audio_connection_all {s : State} {p send recv : Nat} {q : Comp} (hq : s.comps p = some q) (h1 : Alive s send)
    (h2 : Alive s recv) :
    let valid := Local s p send ∧ Local s p recv ∧ s.width send = s.width recv
    let all := List.range (s.width send)
    (valid → ∃ s', audioConnectionAll s p send recv = .ok (s', .done) ∧
      s'.comps p = some { q with aconns := if all = [] then q.aconns else q.aconns ++ [⟨send, all, recv, all⟩] } ∧
      (∀ x, x ≠ p → s'.comps x = s.comps x) ∧ s'.ports = s.ports) ∧
    (¬ valid → audioConnectionAll s p send recv = .ok (s, .threw .invalidArgument)) := by
  intro valid all
  have hname : ∀ x, Alive s x → ∃ nm, parentName s x = .ok nm := by
    rintro x ⟨q, c, k, hq, hc, hk⟩
    exact ⟨k.name, by simp [parentName, hq, hc, hk]⟩
  unfold audioConnectionAll
  constructor
  · rintro ⟨hl1, hl2, hw⟩
    rw [if_neg (by simpa using hw)]
    exact (audio_connection hq h1 h2 all all).1 ⟨hl1, hl2, rfl, by simp [all], by simp [all, hw]⟩
  · intro hv
    by_cases hw : s.width send = s.width recv
    · rw [if_neg (by simpa using hw)]
      apply (audio_connection hq h1 h2 all all).2
      rintro ⟨hl1, hl2, -⟩
      exact hv ⟨hl1, hl2, hw⟩
    · rw [if_pos hw]
      obtain ⟨n1, hn1⟩ := hname send h1
      obtain ⟨n2, hn2⟩ := hname recv h2
      rw [hn1, hn2]
      rfl

/-- **C48.** A parameter connection request with ports is accepted exactly if both ports belong to the composite or its
direct children. -/
theorem param_connection {s : State} {p send recv : Nat} {q : Comp} (hq : s.comps p = some q) (h1 : Alive s send)
    (h2 : Alive s recv) :
    (Local s p send ∧ Local s p recv → ∃ s', paramConnection s p send recv = .ok (s', .done) ∧
      s'.comps p = some { q with pconns := q.pconns ++ [(send, recv)] } ∧
      (∀ x, x ≠ p → s'.comps x = s.comps x) ∧ s'.ports = s.ports) ∧
    (¬ (Local s p send ∧ Local s p recv) → paramConnection s p send recv = .ok (s, .threw .invalidArgument)) := by
  unfold paramConnection thrown
  rw [hq]
  simp only
  constructor
  · rintro ⟨hl1, hl2⟩
    rw [(checkPortParent_iff h1).1 hl1, (checkPortParent_iff h2).1 hl2]
    exact ⟨_, rfl, by simp [State.setComp], fun x hx => by simp [State.setComp, hx], rfl⟩
  · intro hv
    by_cases hl1 : Local s p send
    · rw [(checkPortParent_iff h1).1 hl1, (checkPortParent_iff h2).2 (fun hl2 => hv ⟨hl1, hl2⟩)]
    · rw [(checkPortParent_iff h1).2 hl1]

/-- **C48.** Connection requests with names connect exactly the ports that the names denote (see `find_port`) and throw
`invalid_argument` if a name of a child or port does not exist. Index lists are accepted without any test; they are
tested when the flow is initialised (C25). -/
theorem audio_connection_names {s : State} {p : Nat} {q : Comp} (hq : s.comps p = some q) (sc rc : Name) (sp rp : Name)
    (si ri : List Nat) :
    (∀ send recv, findPort s p q .audio (some sc) sp = some send → findPort s p q .audio (some rc) rp = some recv →
      ∃ s', audioConnectionNames s p (some sc) sp si (some rc) rp ri = .ok (s', .done) ∧
        s'.comps p = some { q with aconns := q.aconns ++ [⟨send, si, recv, ri⟩] } ∧
        (∀ x, x ≠ p → s'.comps x = s.comps x) ∧ s'.ports = s.ports) ∧
    (findPort s p q .audio (some sc) sp = none ∨ findPort s p q .audio (some rc) rp = none →
      audioConnectionNames s p (some sc) sp si (some rc) rp ri = .ok (s, .threw .invalidArgument)) := by
  unfold audioConnectionNames thrown
  rw [hq]
  simp only
  constructor
  · intro send recv h1 h2
    rw [h1, h2]
    exact ⟨_, rfl, by simp [State.setComp], fun x hx => by simp [State.setComp, hx], rfl⟩
  · rintro (h | h)
    · rw [h]; rfl
    · rw [h]
      cases findPort s p q .audio (some sc) sp <;> rfl

/-! ## Examples and limits -/

/-- A flow "f" (0) with a composite "a" (1) that contains an atomic component "b" (2); ports "in" of "a" (3) and of "b" (4);
the input of "a" is connected to the input of "b"; a second component called "a" is rejected. -/
def demo : List Op :=
  [.create ['f'] true none, .create ['a'] true (some 0), .create ['b'] false (some 1),
   .createPort .audio ['i', 'n'] 2 (some 1), .createPort .audio ['i', 'n'] 2 (some 2), .create ['a'] false (some 0),
   .audioAll 1 3 4, .audioNames 1 (some "this".toList) ['i', 'n'] [1] (some ['b']) ['i', 'n'] [0]]

/-- The state after `demo`. -/
def demoState : State :=
  match history .empty demo with
  | .ok s => s
  | _ => .empty

theorem demo_reachable : Reachable demoState := ⟨demo, rfl⟩

example : (demoState.comps 1).map (fun k => (k.name, k.parent, k.children, k.aconns)) =
    some (['a'], some 0, [2], [⟨3, [0, 1], 4, [0, 1]⟩, ⟨3, [1], 4, [0]⟩]) := rfl

example : demoState.fullName 2 = some "a:b".toList := rfl

example : Path demoState 0 2 [['a'], ['b']] :=
  .child (l := [['a']]) (.child (l := []) (.top rfl rfl) ⟨_, rfl, rfl, rfl⟩) ⟨_, rfl, rfl, rfl⟩

example : Alive demoState 3 ∧ Alive demoState 4 ∧ Local demoState 1 3 ∧ Local demoState 1 4 :=
  ⟨⟨_, _, _, rfl, rfl, rfl⟩, ⟨_, _, _, rfl, rfl, rfl⟩, ⟨_, _, rfl, rfl, Or.inl rfl⟩, ⟨_, _, rfl, rfl, Or.inr ⟨_, rfl, rfl⟩⟩⟩

/-- Limit: the name of the top-level component is not part of the full names, so a child of that name has the same full
name as the top-level component. -/
theorem top_level_name_ambiguous : ∃ s, Reachable s ∧ ∃ r c, Path s r c [['a']] ∧ s.fullName r = s.fullName c ∧ r ≠ c :=
  ⟨_, ⟨[.create ['a'] true none, .create ['a'] false (some 0)], rfl⟩, 0, 1,
    .child (l := []) (.top rfl rfl) ⟨_, rfl, rfl, rfl⟩, rfl, by decide⟩

/-- Limit: a child called "this" can be created but not be found; the name denotes the composite. -/
theorem child_this_not_found : ∃ s q, Reachable s ∧ s.comps 0 = some q ∧ IsChild s 0 "this".toList 1 ∧
    findComponent s 0 q (some "this".toList) = some 0 :=
  ⟨_, _, ⟨[.create ['f'] true none, .create "this".toList false (some 0)], rfl⟩, rfl, ⟨_, rfl, rfl, rfl⟩, rfl⟩

/-- Limit: with colons in names different components can have the same full name. -/
theorem colon_names_ambiguous : ∃ s, Reachable s ∧ ∃ c c', c ≠ c' ∧ s.fullName c = s.fullName c' ∧
    Path s 0 c [['a'], ['b']] ∧ Path s 0 c' [['a', ':', 'b']] :=
  ⟨_, ⟨[.create ['f'] true none, .create ['a'] true (some 0), .create ['b'] false (some 1),
      .create ['a', ':', 'b'] false (some 0)], rfl⟩, 2, 3, by decide, rfl,
    .child (l := [['a']]) (.child (l := []) (.top rfl rfl) ⟨_, rfl, rfl, rfl⟩) ⟨_, rfl, rfl, rfl⟩,
    .child (l := []) (.top rfl rfl) ⟨_, rfl, rfl, rfl⟩⟩

/-- Limit: a port that outlives its component cannot be destroyed without undefined behaviour. -/
theorem port_outlives_component_ub : ∃ s, Reachable s ∧ (∃ q, s.ports 1 = some q) ∧ destroyPort s 1 = .ub :=
  ⟨_, ⟨[.create ['f'] false none, .createPort .audio ['p'] 1 (some 0), .destroy 0], rfl⟩, ⟨_, rfl⟩, rfl⟩

/-- Limit: connections are kept when a connected child is destroyed; the table then refers to ports of a component that no
longer exists. -/
theorem connection_outlives_child : ∃ s q a, Reachable s ∧ s.comps 0 = some q ∧ a ∈ q.aconns ∧ s.ports a.receiver = none :=
  ⟨_, _, ⟨1, [0], 3, [0]⟩, ⟨[.create ['f'] true none, .createPort .audio ['i'] 1 (some 0), .create ['c'] false (some 0),
    .createPort .audio ['i'] 1 (some 2), .audioAll 0 1 3, .destroyPort 3, .destroy 2], rfl⟩, rfl, by decide, rfl⟩

end Visr.Tree
