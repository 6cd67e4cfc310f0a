import Verif.Flow.Spec
import Mathlib.Data.List.Nodup
import Mathlib.Data.List.Count
import Mathlib.Tactic.Common

/-!
# C25: the connection check
-/

namespace Visr.Flow
open Visr

/-! ## Ports of one level -/

theorem mem_sendPorts {P : Type} {input : P → Bool} {own : List P} {children : List (List P)} {p : P} :
    p ∈ sendPorts input own children ↔ CanSend input own children p := by
  simp only [sendPorts, CanSend, List.mem_append, List.mem_flatMap, List.mem_filter, Bool.not_eq_true']
  exact Or.comm

theorem mem_receivePorts {P : Type} {input : P → Bool} {own : List P} {children : List (List P)} {p : P} :
    p ∈ receivePorts input own children ↔ CanReceive input own children p := by
  simp only [receivePorts, CanReceive, List.mem_append, List.mem_flatMap, List.mem_filter, Bool.not_eq_true']
  exact Or.comm

/-- Ports of one level are determined by their address. -/
theorem DistinctPorts.inj {P : Type} {id : P → Nat} {own : List P} {children : List (List P)}
    (h : DistinctPorts id own children) {p q : P} (hp : p ∈ own ++ children.flatten) (hq : q ∈ own ++ children.flatten)
    (e : id p = id q) : p = q :=
  List.inj_on_of_nodup_map h hp hq e

theorem CanSend.mem {P : Type} {input : P → Bool} {own : List P} {children : List (List P)} {p : P}
    (h : CanSend input own children p) : p ∈ own ++ children.flatten := by
  rcases h with ⟨h, _⟩ | ⟨c, hc, h, _⟩
  · simp [h]
  · simp only [List.mem_append, List.mem_flatten]
    exact Or.inr ⟨c, hc, h⟩

theorem CanReceive.mem {P : Type} {input : P → Bool} {own : List P} {children : List (List P)} {p : P}
    (h : CanReceive input own children p) : p ∈ own ++ children.flatten := by
  rcases h with ⟨h, _⟩ | ⟨c, hc, h, _⟩
  · simp [h]
  · simp only [List.mem_append, List.mem_flatten]
    exact Or.inr ⟨c, hc, h⟩

/-- Lookup of a port by its address. -/
theorem find_port {P : Type} {id : P → Nat} {l : List P} (hinj : ∀ p ∈ l, ∀ q ∈ l, id p = id q → p = q) {a : Nat} {p : P} :
    (l.find? fun q => id q = a) = some p ↔ p ∈ l ∧ id p = a := by
  constructor
  · intro h
    exact ⟨List.mem_of_find?_eq_some h, by simpa using List.find?_some h⟩
  · rintro ⟨h1, h2⟩
    cases hf : l.find? fun q => id q = a with
    | none =>
      rw [List.find?_eq_none] at hf
      have := hf p h1
      simp [h2] at this
    | some q =>
      have hq := List.mem_of_find?_eq_some hf
      have hqa : id q = a := by simpa using List.find?_some hf
      rw [hinj p h1 q hq (h2.trans hqa.symm)]

/-! ## Audio connections of one level -/

theorem foldl_max_lt {l : List Nat} {w : Nat} (hw : 0 < w) : l.foldl max 0 < w ↔ ∀ i ∈ l, i < w := by
  suffices h : ∀ m, l.foldl max m < w ↔ m < w ∧ ∀ i ∈ l, i < w by
    rw [h]; simp [hw]
  induction l with
  | nil => simp
  | cons x xs ih =>
    intro m
    rw [List.foldl_cons, ih]
    simp only [List.mem_cons, forall_eq_or_imp, Nat.max_lt, and_assoc]

theorem foldl_max_le {l : List Nat} {w : Nat} (hl : l ≠ []) : w ≤ l.foldl max 0 ↔ ¬ ∀ i ∈ l, i < w := by
  cases w with
  | zero =>
    cases l with
    | nil => exact absurd rfl hl
    | cons x xs =>
      simp only [Nat.zero_le, true_iff]
      intro h
      exact absurd (h x (by simp)) (by omega)
  | succ w => rw [← foldl_max_lt (Nat.succ_pos w)]; omega

/-- A connection that is accepted by `fillLocal`. -/
def Fits (sends receives : List APort) (c : AConn) : Prop :=
  ∃ s ∈ sends, ∃ r ∈ receives, s.id = c.sender ∧ r.id = c.receiver ∧ c.sendIndices.length = c.receiveIndices.length ∧
    (∀ i ∈ c.sendIndices, i < s.width) ∧ (∀ i ∈ c.receiveIndices, i < r.width)

theorem fillLocal_spec {sends receives : List APort} (hs : ∀ p ∈ sends, ∀ q ∈ sends, p.id = q.id → p = q)
    (hr : ∀ p ∈ receives, ∀ q ∈ receives, p.id = q.id → p = q) (conns : List AConn) :
    ((fillLocal sends receives conns).2 = true ↔ ∀ c ∈ conns, Fits sends receives c) ∧
    ((fillLocal sends receives conns).2 = true → (fillLocal sends receives conns).1 = pairs conns) := by
  induction conns with
  | nil => simp [fillLocal, pairs]
  | cons c cs ih =>
    obtain ⟨ih1, ih2⟩ := ih
    have key : (fillLocal sends receives (c :: cs)).2 = true → Fits sends receives c ∧
        (fillLocal sends receives cs).2 = true ∧
        (fillLocal sends receives (c :: cs)).1 = c.pairs ++ (fillLocal sends receives cs).1 := by
      intro h
      rw [fillLocal] at h ⊢
      cases hfs : sends.find? (fun p => p.id = c.sender) with
      | none => simp [hfs] at h
      | some s =>
        obtain ⟨s1, s2⟩ := (find_port hs).1 hfs
        cases hfr : receives.find? (fun p => p.id = c.receiver) with
        | none => simp [hfs, hfr] at h
        | some r =>
          obtain ⟨r1, r2⟩ := (find_port hr).1 hfr
          simp only [hfs, hfr] at h ⊢
          by_cases hlen : c.receiveIndices.length ≠ c.sendIndices.length
          · rw [if_pos hlen] at h; cases h
          · rw [if_neg hlen] at h ⊢
            have hlen' : c.sendIndices.length = c.receiveIndices.length := by omega
            by_cases hz : 0 < c.receiveIndices.length
            · rw [if_pos hz] at h ⊢
              have hne1 : c.sendIndices ≠ [] := by
                intro e; rw [e] at hlen'; simp at hlen'; omega
              have hne2 : c.receiveIndices ≠ [] := by
                intro e; rw [e] at hz; simp at hz
              by_cases h1 : s.width ≤ c.sendIndices.foldl max 0
              · rw [if_pos h1] at h; cases h
              · rw [if_neg h1] at h ⊢
                by_cases h2 : r.width ≤ c.receiveIndices.foldl max 0
                · rw [if_pos h2] at h; cases h
                · rw [if_neg h2] at h ⊢
                  rw [foldl_max_le hne1, not_not] at h1
                  rw [foldl_max_le hne2, not_not] at h2
                  exact ⟨⟨s, s1, r, r1, s2, r2, hlen', h1, h2⟩, h, rfl⟩
            · rw [if_neg hz] at h ⊢
              have e2 : c.receiveIndices = [] := List.length_eq_zero_iff.1 (by omega)
              have e1 : c.sendIndices = [] := List.length_eq_zero_iff.1 (by omega)
              refine ⟨⟨s, s1, r, r1, s2, r2, hlen', by simp [e1], by simp [e2]⟩, h, ?_⟩
              simp [AConn.pairs, e1]
    constructor
    · constructor
      · intro h
        obtain ⟨k1, k2, _⟩ := key h
        intro x hx
        rcases List.mem_cons.1 hx with rfl | hx
        · exact k1
        · exact ih1.1 k2 x hx
      · intro h
        obtain ⟨s, s1, r, r1, s2, r2, hlen, h1, h2⟩ := h c (by simp)
        have hrest := ih1.2 (fun x hx => h x (by simp [hx]))
        rw [fillLocal]
        have hfs := (find_port hs).2 ⟨s1, s2⟩
        have hfr := (find_port hr).2 ⟨r1, r2⟩
        simp only [hfs, hfr]
        rw [if_neg (by omega)]
        by_cases hz : 0 < c.receiveIndices.length
        · rw [if_pos hz]
          have hne1 : c.sendIndices ≠ [] := by
            intro e; rw [e] at hlen; simp at hlen; omega
          have hne2 : c.receiveIndices ≠ [] := by
            intro e; rw [e] at hz; simp at hz
          rw [if_neg (by rw [foldl_max_le hne1, not_not]; exact h1),
            if_neg (by rw [foldl_max_le hne2, not_not]; exact h2)]
          exact hrest
        · rw [if_neg hz]; exact hrest
    · intro h
      obtain ⟨_, k2, k3⟩ := key h
      rw [k3, ih2 k2]
      simp [pairs]

theorem countLoop_counts {sends receives : List Chan} :
    ∀ (ks : List (Chan × Chan)) (c : Counts), (∀ k ∈ ks, k.1 ∈ sends ∧ k.2 ∈ receives) →
      (∀ x, (countLoop sends receives ks c).send x = c.send x + (ks.map Prod.fst).count x) ∧
      (∀ x, (countLoop sends receives ks c).recv x = c.recv x + (ks.map Prod.snd).count x) ∧
      (c.ok = true → (∀ x, c.recv x + (ks.map Prod.snd).count x ≤ 1) → (countLoop sends receives ks c).ok = true) := by
  intro ks
  induction ks with
  | nil => intro c _; exact ⟨fun x => by simp [countLoop], fun x => by simp [countLoop], fun h _ => h⟩
  | cons k ks ih =>
    intro c hk
    have hk0 := hk k (by simp)
    have hks : ∀ k ∈ ks, k.1 ∈ sends ∧ k.2 ∈ receives := fun x hx => hk x (by simp [hx])
    have hb : ∀ (f : Chan → Nat) (x y : Chan) (l : List Chan),
        bump f x y + l.count y = f y + (x :: l).count y := by
      intro f x y l
      unfold bump
      rw [List.count_cons]
      by_cases hxy : y = x
      · subst hxy; simp; omega
      · have : ¬ x = y := fun e => hxy e.symm
        simp [hxy, this]
    unfold countLoop
    rw [if_neg (not_not.2 hk0.1), if_neg (not_not.2 hk0.2)]
    by_cases h0 : 0 < c.recv k.2
    · rw [if_pos h0]
      obtain ⟨i1, i2, _⟩ := ih ⟨bump c.send k.1, bump c.recv k.2, false⟩ hks
      refine ⟨fun x => by rw [i1, List.map_cons]; exact hb _ _ _ _, fun x => by rw [i2, List.map_cons]; exact hb _ _ _ _, ?_⟩
      intro _ hle
      have := hle k.2
      rw [List.map_cons, List.count_cons_self] at this
      omega
    · rw [if_neg h0]
      obtain ⟨i1, i2, i3⟩ := ih ⟨bump c.send k.1, bump c.recv k.2, c.ok⟩ hks
      refine ⟨fun x => by rw [i1, List.map_cons]; exact hb _ _ _ _, fun x => by rw [i2, List.map_cons]; exact hb _ _ _ _, ?_⟩
      intro hok hle
      refine i3 hok (fun x => ?_)
      have := hle x
      rw [List.map_cons] at this
      have e := hb c.recv k.2 x (ks.map Prod.snd)
      show bump c.recv k.2 x + _ ≤ 1
      omega

theorem mem_channels {ports : List APort} {x : Chan} : x ∈ channels ports ↔ ∃ p ∈ ports, p.id = x.1 ∧ x.2 < p.width := by
  unfold channels
  simp only [List.mem_flatMap, List.mem_map, List.mem_range]
  constructor
  · rintro ⟨p, hp, i, hi, rfl⟩
    exact ⟨p, hp, rfl, hi⟩
  · rintro ⟨p, hp, h1, h2⟩
    exact ⟨p, hp, x.2, h2, by rw [h1]⟩

theorem pair_known {sends receives : List APort} {conns : List AConn} (h : ∀ c ∈ conns, Fits sends receives c) :
    ∀ k ∈ pairs conns, k.1 ∈ channels sends ∧ k.2 ∈ channels receives := by
  intro k hk
  unfold pairs at hk
  obtain ⟨c, hc, hk⟩ := List.mem_flatMap.1 hk
  obtain ⟨s, s1, r, r1, s2, r2, _, h1, h2⟩ := h c hc
  unfold AConn.pairs at hk
  obtain ⟨a, b⟩ := k
  have hab := List.of_mem_zip hk
  obtain ⟨i, hi, rfl⟩ := List.mem_map.1 hab.1
  obtain ⟨j, hj, rfl⟩ := List.mem_map.1 hab.2
  exact ⟨mem_channels.2 ⟨s, s1, s2, h1 i hi⟩, mem_channels.2 ⟨r, r1, r2, h2 j hj⟩⟩

theorem checkAudioLocal_iff {own : List APort} {children : List (List APort)}
    (hd : DistinctPorts APort.id own children) (conns : List AConn) :
    checkAudioLocal (sendPorts APort.input own children) (receivePorts APort.input own children) conns = true ↔
      AudioOK own children conns := by
  have hs : ∀ p ∈ sendPorts APort.input own children, ∀ q ∈ sendPorts APort.input own children, p.id = q.id → p = q :=
    fun p hp q hq => hd.inj (mem_sendPorts.1 hp).mem (mem_sendPorts.1 hq).mem
  have hr : ∀ p ∈ receivePorts APort.input own children, ∀ q ∈ receivePorts APort.input own children,
      p.id = q.id → p = q :=
    fun p hp q hq => hd.inj (mem_receivePorts.1 hp).mem (mem_receivePorts.1 hq).mem
  obtain ⟨hf1, hf2⟩ := fillLocal_spec hs hr conns
  have hfits : (∀ c ∈ conns, Fits (sendPorts APort.input own children) (receivePorts APort.input own children) c) ↔
      ∀ c ∈ conns, ∃ s r, CanSend APort.input own children s ∧ s.id = c.sender ∧
        CanReceive APort.input own children r ∧ r.id = c.receiver ∧ c.sendIndices.length = c.receiveIndices.length ∧
        (∀ i ∈ c.sendIndices, i < s.width) ∧ (∀ i ∈ c.receiveIndices, i < r.width) := by
    constructor
    · intro h c hc
      obtain ⟨s, s1, r, r1, s2, r2, rest⟩ := h c hc
      exact ⟨s, r, mem_sendPorts.1 s1, s2, mem_receivePorts.1 r1, r2, rest⟩
    · intro h c hc
      obtain ⟨s, r, s1, s2, r1, r2, rest⟩ := h c hc
      exact ⟨s, mem_sendPorts.2 s1, r, mem_receivePorts.2 r1, s2, r2, rest⟩
  unfold checkAudioLocal
  simp only
  cases hfill : (fillLocal (sendPorts APort.input own children) (receivePorts APort.input own children) conns).2 with
  | false =>
    simp only [Bool.false_eq_true, not_false_eq_true, if_true, false_iff]
    intro h
    rw [hf1.2 (hfits.2 h.known)] at hfill
    cases hfill
  | true =>
    have hfit := hf1.1 hfill
    have hknown := pair_known hfit
    rw [hf2 hfill]
    simp only [not_true_eq_false, if_false]
    obtain ⟨c1, c2, c3⟩ := countLoop_counts (pairs conns) ⟨fun _ => 0, fun _ => 0, true⟩ hknown
    simp only [Nat.zero_add] at c1 c2 c3
    simp only [Bool.and_eq_true, List.all_eq_true, decide_eq_true_eq, c1, c2]
    constructor
    · rintro ⟨⟨_, h2⟩, h3⟩
      refine ⟨hfits.1 hfit, ?_, ?_⟩
      · intro r hr i hi
        have := h2 (r.id, i) (mem_channels.2 ⟨r, mem_receivePorts.2 hr, rfl, hi⟩)
        omega
      · intro s hs i hi
        have := h3 (s.id, i) (mem_channels.2 ⟨s, mem_sendPorts.2 hs, rfl, hi⟩)
        exact List.count_pos_iff.1 (by omega)
    · intro h
      refine ⟨⟨c3 trivial ?_, ?_⟩, ?_⟩
      · intro x
        by_cases hx : x ∈ (pairs conns).map Prod.snd
        · obtain ⟨k, hk, rfl⟩ := List.mem_map.1 hx
          obtain ⟨p, hp, hp1, hp2⟩ := mem_channels.1 (hknown k hk).2
          have := h.receive p (mem_receivePorts.1 hp) _ hp2
          rw [hp1] at this
          exact Nat.le_of_eq this
        · rw [List.count_eq_zero_of_not_mem hx]; omega
      · intro x hx
        obtain ⟨p, hp, hp1, hp2⟩ := mem_channels.1 hx
        have := h.receive p (mem_receivePorts.1 hp) _ hp2
        rw [hp1] at this
        have e : ((pairs conns).map Prod.snd).count x = 1 := this
        omega
      · intro x hx
        obtain ⟨p, hp, hp1, hp2⟩ := mem_channels.1 hx
        have := h.send p (mem_sendPorts.1 hp) _ hp2
        rw [hp1] at this
        have e := List.count_pos_iff.2 (show x ∈ (pairs conns).map Prod.fst from this)
        omega

/-! ## Parameter connections of one level -/

theorem compatible_iff {cmp : Nat → Nat → Option Bool} {s r : PPort} : compatible cmp s r = true ↔ Matches cmp s r := by
  unfold compatible Matches
  by_cases ht : s.type = r.type
  · simp only [ht, ne_eq, not_true_eq_false, if_false, true_and]
    cases hc : cmp s.config r.config with
    | none => simp
    | some b => cases b <;> simp
  · simp [ht]

theorem usedLoop_spec {cmp : Nat → Nat → Option Bool} {sends receives : List PPort}
    (hs : ∀ p ∈ sends, ∀ q ∈ sends, p.id = q.id → p = q) (hr : ∀ p ∈ receives, ∀ q ∈ receives, p.id = q.id → p = q) :
    ∀ (ks : List PConn) (u : Used),
      ((usedLoop cmp sends receives ks u).ok = true ↔ u.ok = true ∧ ∀ k ∈ ks, ∃ s ∈ sends, ∃ r ∈ receives,
        s.id = k.sender ∧ r.id = k.receiver ∧ Matches cmp s r) ∧
      ((usedLoop cmp sends receives ks u).ok = true →
        (∀ x, x ∈ (usedLoop cmp sends receives ks u).send ↔ x ∈ u.send ∨ ∃ k ∈ ks, k.sender = x) ∧
        (∀ x, x ∈ (usedLoop cmp sends receives ks u).recv ↔ x ∈ u.recv ∨ ∃ k ∈ ks, k.receiver = x)) := by
  intro ks
  induction ks with
  | nil => intro u; simp [usedLoop]
  | cons k ks ih =>
    intro u
    unfold usedLoop
    cases hfs : sends.find? (fun p => p.id = k.sender) with
    | none =>
      simp only
      have hno := (ih { u with ok := false }).1
      have hfalse : ¬ (usedLoop cmp sends receives ks { u with ok := false }).ok = true := by
        rw [hno]; simp
      refine ⟨⟨fun h => absurd h hfalse, ?_⟩, fun h => absurd h hfalse⟩
      rintro ⟨_, h⟩
      obtain ⟨s, s1, _, _, s2, _⟩ := h k (by simp)
      rw [(find_port hs).2 ⟨s1, s2⟩] at hfs
      cases hfs
    | some s =>
      obtain ⟨s1, s2⟩ := (find_port hs).1 hfs
      cases hfr : receives.find? (fun p => p.id = k.receiver) with
      | none =>
        simp only
        have hno := (ih { u with send := k.sender :: u.send, ok := false }).1
        have hfalse : ¬ (usedLoop cmp sends receives ks { u with send := k.sender :: u.send, ok := false }).ok = true := by
          rw [hno]; simp
        refine ⟨⟨fun h => absurd h hfalse, ?_⟩, fun h => absurd h hfalse⟩
        rintro ⟨_, h⟩
        obtain ⟨_, _, r, r1, _, r2, _⟩ := h k (by simp)
        rw [(find_port hr).2 ⟨r1, r2⟩] at hfr
        cases hfr
      | some r =>
        obtain ⟨r1, r2⟩ := (find_port hr).1 hfr
        simp only
        obtain ⟨i1, i2⟩ := ih ⟨k.sender :: u.send, k.receiver :: u.recv, u.ok && compatible cmp s r⟩
        refine ⟨?_, ?_⟩
        · rw [i1]
          simp only [Bool.and_eq_true, compatible_iff]
          constructor
          · rintro ⟨⟨h1, h2⟩, h3⟩
            refine ⟨h1, ?_⟩
            intro x hx
            rcases List.mem_cons.1 hx with rfl | hx
            · exact ⟨s, s1, r, r1, s2, r2, h2⟩
            · exact h3 x hx
          · rintro ⟨h1, h2⟩
            obtain ⟨s', s1', r', r1', s2', r2', hm⟩ := h2 k (by simp)
            have e1 := hs s s1 s' s1' (s2.trans s2'.symm)
            have e2 := hr r r1 r' r1' (r2.trans r2'.symm)
            subst e1; subst e2
            exact ⟨⟨h1, hm⟩, fun x hx => h2 x (by simp [hx])⟩
        · intro h
          obtain ⟨j1, j2⟩ := i2 h
          constructor
          · intro x
            rw [j1]
            simp only [List.mem_cons, exists_eq_or_imp]
            constructor
            · rintro ((rfl | h) | h)
              · exact Or.inr (Or.inl rfl)
              · exact Or.inl h
              · exact Or.inr (Or.inr h)
            · rintro (h | rfl | h)
              · exact Or.inl (Or.inr h)
              · exact Or.inl (Or.inl rfl)
              · exact Or.inr h
          · intro x
            rw [j2]
            simp only [List.mem_cons, exists_eq_or_imp]
            constructor
            · rintro ((rfl | h) | h)
              · exact Or.inr (Or.inl rfl)
              · exact Or.inl h
              · exact Or.inr (Or.inr h)
            · rintro (h | rfl | h)
              · exact Or.inl (Or.inr h)
              · exact Or.inl (Or.inl rfl)
              · exact Or.inr h

theorem checkParamLocal_iff {cmp : Nat → Nat → Option Bool} {own : List PPort} {children : List (List PPort)}
    (hd : DistinctPorts PPort.id own children) (conns : List PConn) :
    checkParamLocal cmp (sendPorts PPort.input own children) (receivePorts PPort.input own children) conns = true ↔
      ParamOK cmp own children conns := by
  have hs : ∀ p ∈ sendPorts PPort.input own children, ∀ q ∈ sendPorts PPort.input own children, p.id = q.id → p = q :=
    fun p hp q hq => hd.inj (mem_sendPorts.1 hp).mem (mem_sendPorts.1 hq).mem
  have hr : ∀ p ∈ receivePorts PPort.input own children, ∀ q ∈ receivePorts PPort.input own children,
      p.id = q.id → p = q :=
    fun p hp q hq => hd.inj (mem_receivePorts.1 hp).mem (mem_receivePorts.1 hq).mem
  obtain ⟨u1, u2⟩ := usedLoop_spec (cmp := cmp) hs hr conns ⟨[], [], true⟩
  unfold checkParamLocal
  simp only [Bool.and_eq_true, List.all_eq_true, decide_eq_true_eq]
  constructor
  · rintro ⟨⟨h1, h2⟩, h3⟩
    obtain ⟨v1, v2⟩ := u2 h1
    refine ⟨?_, ?_, ?_⟩
    · intro k hk
      obtain ⟨s, s1, r, r1, s2, r2, hm⟩ := (u1.1 h1).2 k hk
      exact ⟨s, r, mem_sendPorts.1 s1, s2, mem_receivePorts.1 r1, r2, hm⟩
    · intro r hr
      simpa using (v2 _).1 (h3 r (mem_receivePorts.2 hr))
    · intro s hs
      simpa using (v1 _).1 (h2 s (mem_sendPorts.2 hs))
  · intro h
    have hok : (usedLoop cmp (sendPorts PPort.input own children) (receivePorts PPort.input own children) conns
        ⟨[], [], true⟩).ok = true := by
      refine u1.2 ⟨rfl, ?_⟩
      intro k hk
      obtain ⟨s, r, s1, s2, r1, r2, hm⟩ := h.known k hk
      exact ⟨s, mem_sendPorts.2 s1, r, mem_receivePorts.2 r1, s2, r2, hm⟩
    obtain ⟨v1, v2⟩ := u2 hok
    refine ⟨⟨hok, ?_⟩, ?_⟩
    · intro s hs
      exact (v1 _).2 (Or.inr (h.send s (mem_sendPorts.1 hs)))
    · intro r hr
      exact (v2 _).2 (Or.inr (h.receive r (mem_receivePorts.1 hr)))

/-! ## The whole tree -/

mutual
theorem checkAudio_iff : ∀ (c : Comp), DistinctAddresses c →
    (checkAudio c true = true ↔ ∀ audio param children aconns pconns,
      Within (.composite audio param children aconns pconns) c → AudioOK audio (children.map Comp.audio) aconns)
  | .atom a p, _ => by
    simp only [checkAudio, true_iff]
    intro _ _ _ _ _ h
    cases h
  | .composite own pown children aconns pconns, hd => by
    have hlocal := checkAudioLocal_iff (hd _ _ _ _ _ (.self _)).1 aconns
    have hch := checkAudioChildren_iff children (checkAudioLocal (aSends own children) (aReceives own children) aconns)
      (fun c hc _ _ _ _ _ hw => hd _ _ _ _ _ (.child hc hw))
    simp only [checkAudio, if_true]
    rw [hch]
    unfold aSends aReceives
    rw [hlocal]
    constructor
    · rintro ⟨h1, h2⟩ a p ch ac pc hw
      cases hw with
      | self => exact h1
      | child hc hw => exact h2 _ hc _ _ _ _ _ hw
    · intro h
      exact ⟨h _ _ _ _ _ (.self _), fun c hc _ _ _ _ _ hw => h _ _ _ _ _ (.child hc hw)⟩
theorem checkAudioChildren_iff : ∀ (cs : List Comp) (res : Bool), (∀ c ∈ cs, DistinctAddresses c) →
    (checkAudioChildren cs res = true ↔ res = true ∧ ∀ c ∈ cs, ∀ audio param children aconns pconns,
      Within (.composite audio param children aconns pconns) c → AudioOK audio (children.map Comp.audio) aconns)
  | [], res, _ => by simp [checkAudioChildren]
  | c :: cs, res, hd => by
    have h1 := checkAudio_iff c (hd c (by simp))
    have h2 := checkAudioChildren_iff cs (res && checkAudio c true) (fun x hx => hd x (by simp [hx]))
    simp only [checkAudioChildren]
    rw [h2, Bool.and_eq_true, h1]
    simp only [List.mem_cons, forall_eq_or_imp, and_assoc]
end

mutual
theorem checkParam_iff (cmp : Nat → Nat → Option Bool) : ∀ (c : Comp), DistinctAddresses c →
    (checkParam cmp c true = true ↔ ∀ audio param children aconns pconns,
      Within (.composite audio param children aconns pconns) c → ParamOK cmp param (children.map Comp.param) pconns)
  | .atom a p, _ => by
    simp only [checkParam, true_iff]
    intro _ _ _ _ _ h
    cases h
  | .composite own pown children aconns pconns, hd => by
    have hlocal := checkParamLocal_iff (cmp := cmp) (hd _ _ _ _ _ (.self _)).2 pconns
    have hch := checkParamChildren_iff cmp children (checkParamLocal cmp
      (sendPorts PPort.input pown (children.map Comp.param)) (receivePorts PPort.input pown (children.map Comp.param)) pconns)
      (fun c hc _ _ _ _ _ hw => hd _ _ _ _ _ (.child hc hw))
    simp only [checkParam, if_true]
    rw [hch, hlocal]
    constructor
    · rintro ⟨h1, h2⟩ a p ch ac pc hw
      cases hw with
      | self => exact h1
      | child hc hw => exact h2 _ hc _ _ _ _ _ hw
    · intro h
      exact ⟨h _ _ _ _ _ (.self _), fun c hc _ _ _ _ _ hw => h _ _ _ _ _ (.child hc hw)⟩
theorem checkParamChildren_iff (cmp : Nat → Nat → Option Bool) : ∀ (cs : List Comp) (res : Bool),
    (∀ c ∈ cs, DistinctAddresses c) →
    (checkParamChildren cmp cs res = true ↔ res = true ∧ ∀ c ∈ cs, ∀ audio param children aconns pconns,
      Within (.composite audio param children aconns pconns) c → ParamOK cmp param (children.map Comp.param) pconns)
  | [], res, _ => by simp [checkParamChildren]
  | c :: cs, res, hd => by
    have h1 := checkParam_iff cmp c (hd c (by simp))
    have h2 := checkParamChildren_iff cmp cs (res && checkParam cmp c true) (fun x hx => hd x (by simp [hx]))
    simp only [checkParamChildren]
    rw [h2, Bool.and_eq_true, h1]
    simp only [List.mem_cons, forall_eq_or_imp, and_assoc]
end

/-- **C25 (partial).** The hierarchical connection check accepts a flow iff at every level of the hierarchy every receive
channel has exactly one connection, every send channel at least one, all connections lead from existing send ports to
existing receive ports within the port widths, and the parameter ports are all connected, to matching ports. Missing:
agreement of the sample types, which the check does not ensure (`sampleType_mismatch_accepted`). -/
theorem connectionCheck_iff_partial (cmp : Nat → Nat → Option Bool) (flow : Comp) (hd : DistinctAddresses flow) :
    checkConnectionIntegrity cmp flow true = true ↔ WellConnected cmp flow := by
  unfold checkConnectionIntegrity WellConnected
  rw [Bool.and_eq_true, checkAudio_iff flow hd, checkParam_iff cmp flow hd]
  constructor
  · rintro ⟨h1, h2⟩ a p c ac pc hw
    exact ⟨h1 _ _ _ _ _ hw, h2 _ _ _ _ _ hw⟩
  · intro h
    exact ⟨fun _ _ _ _ _ hw => (h _ _ _ _ _ hw).1, fun _ _ _ _ _ hw => (h _ _ _ _ _ hw).2⟩

/-- Configurations match if they are equal. -/
def demoCmp (a b : Nat) : Option Bool := some (a == b)

/-- A flow with a stereo input 1 and output 2, a composite with ports 3 and 4 containing an atom with ports 5 and 6, and
a parameter connection from an atom (port 7) to the composite (port 8) and on to the inner atom (port 9). The channels
are swapped on the way. `st` is the sample type of the inner output. -/
def demoFlow (st : Nat) : Comp :=
  .composite [⟨1, true, 2, 0⟩, ⟨2, false, 2, 0⟩] []
    [.atom [] [⟨7, false, 0, 1, 4⟩],
     .composite [⟨3, true, 2, 0⟩, ⟨4, false, 2, 0⟩] [⟨8, true, 0, 1, 4⟩]
       [.atom [⟨5, true, 2, 0⟩, ⟨6, false, 2, st⟩] [⟨9, true, 0, 1, 4⟩]]
       [⟨3, [0, 1], 5, [0, 1]⟩, ⟨6, [0, 1], 4, [1, 0]⟩] [⟨8, 9⟩]]
    [⟨1, [0, 1], 3, [0, 1]⟩, ⟨4, [0], 2, [0]⟩, ⟨4, [1], 2, [1]⟩] [⟨7, 8⟩]

example : checkConnectionIntegrity demoCmp (demoFlow 0) true = true := by decide +kernel

theorem demo_distinct (st : Nat) : DistinctAddresses (demoFlow st) := by
  intro a p ch ac pc hw
  unfold demoFlow at hw
  cases hw with
  | self =>
    constructor <;> simp [DistinctPorts, Comp.audio, Comp.param]
  | child hc hw =>
    simp only [List.mem_cons, List.not_mem_nil, or_false] at hc
    rcases hc with rfl | rfl
    · cases hw
    · cases hw with
      | self => constructor <;> simp [DistinctPorts, Comp.audio, Comp.param]
      | child hc hw =>
        simp only [List.mem_cons, List.not_mem_nil, or_false] at hc
        subst hc
        cases hw

/-- A receive channel with two senders is rejected. -/
example : checkConnectionIntegrity demoCmp (.composite [⟨1, true, 2, 0⟩, ⟨2, false, 1, 0⟩] [] []
    [⟨1, [0, 1], 2, [0, 0]⟩] []) true = false := by decide +kernel

/-- **C25 (negation, sample types).** The check compares the sample type of each receiving port with itself
(`integrity_checking.cpp:174`), so a flow that connects ports of different sample types is accepted. -/
theorem sampleType_mismatch_accepted :
    checkConnectionIntegrity demoCmp (demoFlow 1) true = true ∧
    ∃ own param children aconns pconns s r, ∃ c ∈ aconns, Within (.composite own param children aconns pconns) (demoFlow 1) ∧
      CanSend APort.input own (children.map Comp.audio) s ∧ s.id = c.sender ∧
      CanReceive APort.input own (children.map Comp.audio) r ∧ r.id = c.receiver ∧ s.sampleType ≠ r.sampleType := by
  refine ⟨by decide +kernel, [⟨3, true, 2, 0⟩, ⟨4, false, 2, 0⟩], [⟨8, true, 0, 1, 4⟩],
    [.atom [⟨5, true, 2, 0⟩, ⟨6, false, 2, 1⟩] [⟨9, true, 0, 1, 4⟩]],
    [⟨3, [0, 1], 5, [0, 1]⟩, ⟨6, [0, 1], 4, [1, 0]⟩], [⟨8, 9⟩], ⟨6, false, 2, 1⟩, ⟨4, false, 2, 0⟩,
    ⟨6, [0, 1], 4, [1, 0]⟩, by simp, ?_, ?_, rfl, ?_, rfl, by decide⟩
  · refine .child (d := .composite [⟨3, true, 2, 0⟩, ⟨4, false, 2, 0⟩] [⟨8, true, 0, 1, 4⟩]
       [.atom [⟨5, true, 2, 0⟩, ⟨6, false, 2, 1⟩] [⟨9, true, 0, 1, 4⟩]]
       [⟨3, [0, 1], 5, [0, 1]⟩, ⟨6, [0, 1], 4, [1, 0]⟩] [⟨8, 9⟩]) (by simp) (.self _)
  · exact Or.inr ⟨[⟨5, true, 2, 0⟩, ⟨6, false, 2, 1⟩], by simp [Comp.audio], by simp, rfl⟩
  · exact Or.inl ⟨by simp, rfl⟩

end Visr.Flow
