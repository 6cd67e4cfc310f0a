import Verif.Placeholder.Model
import Verif.Placeholder.Spec
import Mathlib.Data.List.Perm.Subperm
import Mathlib.Data.List.Nodup
import Mathlib.Tactic.Common

/-!
# C23, C24: connections through composite ports
-/

namespace Visr.Placeholder
open Visr

variable {X : Type*} [DecidableEq X] {ph : X → Bool} {sends : X → X → Prop}

/-! ## Chains -/

omit [DecidableEq X] in
theorem ChainN.real {n : Nat} {x s : X} (h : ChainN ph sends n x s) : ph s = false := by
  induction h with
  | direct _ h => exact h
  | through _ _ _ ih => exact ih

omit [DecidableEq X] in
theorem ChainN.unique (hu : UniqueSenders sends) {n m : Nat} {x s s' : X} (h : ChainN ph sends n x s)
    (h' : ChainN ph sends m x s') : n = m ∧ s = s' := by
  induction h generalizing m with
  | direct h1 h2 =>
    cases h' with
    | direct k1 k2 => exact ⟨rfl, hu _ _ _ h1 k1⟩
    | through k1 k2 k3 =>
      have := hu _ _ _ h1 k1
      subst this
      rw [h2] at k2
      cases k2
  | through h1 h2 h3 ih =>
    cases h' with
    | direct k1 k2 =>
      have := hu _ _ _ h1 k1
      subst this
      rw [h2] at k2
      cases k2
    | through k1 k2 k3 =>
      have := hu _ _ _ h1 k1
      subst this
      obtain ⟨rfl, rfl⟩ := ih k3
      exact ⟨rfl, rfl⟩

/-! ## Following the first connection -/

/-- `s` is the sender found for `x`. -/
def Follow (find : X → Option X) (s x : X) : Prop := find x = some s

omit [DecidableEq X] in
theorem follow_unique (find : X → Option X) : UniqueSenders (Follow find) := by
  intro s s' x h h'
  unfold Follow at h h'
  rw [h] at h'
  exact Option.some.inj h'

omit [DecidableEq X] in
theorem ChainN.congr {sends' : X → X → Prop} (h : ∀ s x, sends s x ↔ sends' s x) {n : Nat} {x s : X} :
    ChainN ph sends n x s ↔ ChainN ph sends' n x s := by
  have : sends = sends' := by
    funext a b
    exact propext (h a b)
  rw [this]

omit [DecidableEq X] in
/-- The receivers on a chain are different. -/
theorem ChainN.receivers (hu : UniqueSenders sends) {n : Nat} {x s : X} (h : ChainN ph sends n x s) :
    ∃ l : List X, l.Nodup ∧ l.length = n + 1 ∧ (∀ t ∈ l, ∃ u, sends u t) ∧ (∀ t ∈ l, t = x ∨ ph t = true) ∧
      ∀ t ∈ l, ∃ L ≤ n, ChainN ph sends L t s := by
  induction h with
  | @direct s x h1 h2 =>
    exact ⟨[x], by simp, rfl, by simpa using ⟨s, h1⟩, by simp, by simpa using ChainN.direct h1 h2⟩
  | @through n p x s h1 h2 h3 ih =>
    obtain ⟨l, i1, i2, i3, i4, i5⟩ := ih
    refine ⟨x :: l, List.nodup_cons.2 ⟨?_, i1⟩, by simp [i2], ?_, ?_, ?_⟩
    · intro hm
      obtain ⟨L, hL, hc⟩ := i5 x hm
      have := (hc.unique hu (.through h1 h2 h3)).1
      omega
    · intro t ht
      rcases List.mem_cons.1 ht with rfl | ht
      · exact ⟨p, h1⟩
      · exact i3 t ht
    · intro t ht
      rcases List.mem_cons.1 ht with rfl | ht
      · exact Or.inl rfl
      · rcases i4 t ht with rfl | h
        · exact Or.inr h2
        · exact Or.inr h
    · intro t ht
      rcases List.mem_cons.1 ht with rfl | ht
      · exact ⟨n + 1, Nat.le_refl _, .through h1 h2 h3⟩
      · obtain ⟨L, hL, hc⟩ := i5 t ht
        exact ⟨L, by omega, hc⟩

/-! ## Audio connections -/

/-- The connections of an audio connection map as a relation. -/
def Sends (conns : List (X × X)) (s x : X) : Prop := (s, x) ∈ conns

theorem find_mem {conns : List (X × X)} {x s : X} (h : findReceiveChannel conns x = some s) : (s, x) ∈ conns := by
  unfold findReceiveChannel at h
  cases hf : conns.find? (fun k => k.2 = x) with
  | none => simp [hf] at h
  | some k =>
    simp [hf] at h
    have h1 := List.find?_some hf
    have h2 := List.mem_of_find?_eq_some hf
    simp at h1
    obtain ⟨a, b⟩ := k
    simp at h1 h
    subst h1; subst h
    exact h2

theorem find_none {conns : List (X × X)} {x s : X} (h : findReceiveChannel conns x = none) : (s, x) ∉ conns := by
  unfold findReceiveChannel at h
  simp only [Option.map_eq_none_iff, List.find?_eq_none] at h
  intro hm
  simpa using h _ hm

theorem find_iff {conns : List (X × X)} (hu : UniqueSenders (Sends conns)) (s x : X) :
    Follow (findReceiveChannel conns) s x ↔ Sends conns s x := by
  constructor
  · exact find_mem
  · intro h
    cases hf : findReceiveChannel conns x with
    | none => exact absurd h (find_none hf)
    | some s' => rw [hu s s' x h (find_mem hf)]; exact hf

theorem chase_sound {conns : List (X × X)} {n : Nat} {trace : List X} {cur x s : X}
    (hx : Follow (findReceiveChannel conns) cur x) (h : chase ph conns n trace cur = .ok s) :
    Chain ph (Follow (findReceiveChannel conns)) x s := by
  induction n generalizing trace cur x with
  | zero => simp [chase] at h
  | succ n ih =>
    unfold chase at h
    by_cases hp : ph cur = true
    · simp only [hp, not_true_eq_false, if_false] at h
      cases hf : findReceiveChannel conns cur with
      | none => simp [hf] at h
      | some nxt =>
        simp only [hf] at h
        by_cases hm : nxt ∈ cur :: trace
        · rw [if_pos hm] at h; cases h
        · rw [if_neg hm] at h
          obtain ⟨k, hk⟩ := ih hf h
          exact ⟨k + 1, .through hx hp hk⟩
    · simp only [hp, Bool.false_eq_true, not_false_eq_true, if_true, Outcome.ok.injEq] at h
      subst h
      exact ⟨0, .direct hx (by simpa using hp)⟩

theorem chase_complete {conns : List (X × X)} {n ℓ : Nat} {trace : List X}
    {cur x s : X} (hx : Follow (findReceiveChannel conns) cur x)
    (h : ChainN ph (Follow (findReceiveChannel conns)) ℓ x s)
    (ht : ∀ t ∈ trace, ph t = true ∧ ∃ L, ℓ ≤ L ∧ ChainN ph (Follow (findReceiveChannel conns)) L t s) :
    chase ph conns n trace cur = .ok s ∨ chase ph conns n trace cur = .ub := by
  have hu := follow_unique (findReceiveChannel conns)
  induction n generalizing trace cur x ℓ with
  | zero => right; rfl
  | succ n ih =>
    unfold chase
    cases h with
    | direct h1 h2 =>
      rw [hu _ _ _ hx h1]
      left
      simp [h2]
    | @through m p _ _ h1 h2 h3 =>
      have hc : cur = p := hu _ _ _ hx h1
      subst hc
      simp only [h2, not_true_eq_false, if_false]
      have hstep : ∃ nxt, Follow (findReceiveChannel conns) nxt cur := by
        cases h3 with
        | direct k _ => exact ⟨_, k⟩
        | through k _ _ => exact ⟨_, k⟩
      obtain ⟨nxt, hn⟩ := hstep
      have hn' : findReceiveChannel conns cur = some nxt := hn
      rw [hn']
      simp only
      have hm : nxt ∉ cur :: trace := by
        intro hm
        cases h3 with
        | direct k1 k2 =>
          have := hu _ _ _ hn k1
          subst this
          rcases List.mem_cons.1 hm with rfl | hm
          · rw [k2] at h2; cases h2
          · rw [(ht _ hm).1] at k2; cases k2
        | through k1 k2 k3 =>
          have := hu _ _ _ hn k1
          subst this
          rcases List.mem_cons.1 hm with rfl | hm
          · have := (k3.unique hu (.through k1 k2 k3)).1
            omega
          · obtain ⟨_, L, hL, hL2⟩ := ht _ hm
            have := (k3.unique hu hL2).1
            omega
      rw [if_neg hm]
      refine ih hn h3 ?_
      intro t ht'
      rcases List.mem_cons.1 ht' with rfl | ht'
      · exact ⟨h2, m, Nat.le_refl _, h3⟩
      · obtain ⟨hp, L, hL, hL2⟩ := ht t ht'
        exact ⟨hp, L, by omega, hL2⟩

theorem chase_not_ub {conns : List (X × X)} {n : Nat} {trace : List X} {cur : X} (hn : trace.Nodup)
    (hr : ∀ t ∈ trace, t ∈ conns.map Prod.snd) (hc : cur ∉ trace) (hf : conns.length + 1 ≤ n + trace.length) :
    chase ph conns n trace cur ≠ .ub := by
  induction n generalizing trace cur with
  | zero =>
    have := (hn.subperm hr).length_le
    simp at this
    omega
  | succ n ih =>
    unfold chase
    by_cases hp : ph cur = true
    · simp only [hp, not_true_eq_false, if_false]
      cases hfd : findReceiveChannel conns cur with
      | none => simp
      | some nxt =>
        simp only
        by_cases hm : nxt ∈ cur :: trace
        · rw [if_pos hm]; simp
        · rw [if_neg hm]
          refine ih (List.nodup_cons.2 ⟨hc, hn⟩) ?_ hm (by simp; omega)
          intro t ht
          rcases List.mem_cons.1 ht with rfl | ht
          · exact List.mem_map.2 ⟨_, find_mem hfd, rfl⟩
          · exact hr t ht
    · simp [hp]

/-- `s` is the real sender behind the port `p`: `p` itself unless it is a placeholder, otherwise the end of the chain
that starts there. -/
def RealSender (ph : X → Bool) (find : X → Option X) (p s : X) : Prop :=
  (ph p = false ∧ s = p) ∨ (ph p = true ∧ Chain ph (Follow find) p s)

theorem resolveOne_spec (conns : List (X × X)) (k : X × X) :
    (ph k.2 = true → resolveOne ph conns k = .ok none) ∧
    (ph k.2 = false →
      (∀ s, RealSender ph (findReceiveChannel conns) k.1 s → resolveOne ph conns k = .ok (some (s, k.2))) ∧
      ((¬ ∃ s, RealSender ph (findReceiveChannel conns) k.1 s) → ∃ e, resolveOne ph conns k = .throw e)) := by
  have hu := follow_unique (findReceiveChannel conns)
  refine ⟨fun h => by simp [resolveOne, h], fun h => ?_⟩
  by_cases hp : ph k.1 = true
  · have hres : resolveOne ph conns k = match findReceiveChannel conns k.1 with
        | none => .throw .invalidArgument
        | some cur =>
          match chase ph conns (conns.length + 1) [k.1] cur with
          | .ok s => .ok (some (s, k.2))
          | .throw e => .throw e
          | .ub => .ub := by
      simp [resolveOne, h, hp]
      rfl
    rw [hres]
    have hnub : ∀ cur, findReceiveChannel conns k.1 = some cur →
        chase ph conns (conns.length + 1) [k.1] cur ≠ .ub := by
      intro cur hf
      by_cases hck : cur = k.1
      · subst hck
        unfold chase
        simp [hp, hf]
      · exact chase_not_ub (by simp) (by simpa using ⟨_, find_mem hf⟩) (by simpa using hck) (by simp)
    refine ⟨?_, ?_⟩
    · rintro s (⟨h1, _⟩ | ⟨_, ℓ, hℓ⟩)
      · rw [hp] at h1; cases h1
      · have hstep : ∃ cur, findReceiveChannel conns k.1 = some cur := by
          cases hℓ with
          | direct k _ => exact ⟨_, k⟩
          | through k _ _ => exact ⟨_, k⟩
        obtain ⟨cur, hc⟩ := hstep
        rw [hc]
        simp only
        have := chase_complete (n := conns.length + 1) (trace := [k.1]) hc hℓ
          (by intro t ht; rw [List.mem_singleton.1 ht]; exact ⟨hp, ℓ, Nat.le_refl _, hℓ⟩)
        rcases this with h | h
        · rw [h]
        · exact absurd h (hnub cur hc)
    · intro hno
      cases hc : findReceiveChannel conns k.1 with
      | none => exact ⟨_, rfl⟩
      | some cur =>
        simp only
        cases hch : chase ph conns (conns.length + 1) [k.1] cur with
        | ok s => exact absurd ⟨s, Or.inr ⟨hp, chase_sound hc hch⟩⟩ hno
        | throw e => exact ⟨e, rfl⟩
        | ub => exact absurd hch (hnub cur hc)
  · have hp' : ph k.1 = false := by simpa using hp
    refine ⟨?_, ?_⟩
    · rintro s (⟨_, rfl⟩ | ⟨h1, _⟩)
      · simp [resolveOne, h, hp']
      · exact absurd h1 hp
    · intro hno
      exact absurd ⟨k.1, Or.inl ⟨hp', rfl⟩⟩ hno

theorem forall₂_right {A B : Type*} {R : A → B → Prop} {l : List A} {l' : List B} (h : List.Forall₂ R l l') {b : B}
    (hb : b ∈ l') : ∃ a ∈ l, R a b := by
  induction h with
  | nil => cases hb
  | @cons a b' l l' hr _ ih =>
    rcases List.mem_cons.1 hb with rfl | hb
    · exact ⟨a, by simp, hr⟩
    · obtain ⟨a', ha', h⟩ := ih hb
      exact ⟨a', by simp [ha'], h⟩

theorem forall₂_left {A B : Type*} {R : A → B → Prop} {l : List A} {l' : List B} (h : List.Forall₂ R l l') {a : A}
    (ha : a ∈ l) : ∃ b ∈ l', R a b := by
  induction h with
  | nil => cases ha
  | @cons a' b l l' hr _ ih =>
    rcases List.mem_cons.1 ha with rfl | ha
    · exact ⟨b, by simp, hr⟩
    · obtain ⟨b', hb', h⟩ := ih ha
      exact ⟨b', by simp [hb'], h⟩

omit [DecidableEq X] in
/-- The loop collects the results of the single steps or stops at the first exception. -/
theorem resolveLoop_spec {one : X × X → Outcome (Option (X × X))} (ks : List (X × X)) (hub : ∀ k ∈ ks, one k ≠ .ub) :
    (∃ f : X × X → Option (X × X), (∀ k ∈ ks, one k = .ok (f k)) ∧
      resolveLoop one ks = .ok (ks.filterMap f)) ∨
    (∃ k ∈ ks, ∃ e, one k = .throw e ∧ resolveLoop one ks = .throw e) := by
  induction ks with
  | nil => exact Or.inl ⟨fun _ => none, by simp, rfl⟩
  | cons k ks ih =>
    have ih := ih (fun x hx => hub x (by simp [hx]))
    unfold resolveLoop
    cases h : one k with
    | ub => exact absurd h (hub k (by simp))
    | throw e => exact Or.inr ⟨k, by simp, e, h, rfl⟩
    | ok r =>
      rcases ih with ⟨f, hf, hl⟩ | ⟨k', hk', e, he, hl⟩
      · left
        let g : X × X → Option (X × X) := fun x => match one x with
          | .ok r => r
          | _ => none
        have hg : ∀ x ∈ ks, g x = f x := fun x hx => by simp only [g, hf x hx]
        refine ⟨g, ?_, ?_⟩
        · intro x hx
          rcases List.mem_cons.1 hx with rfl | hx
          · rw [h]; simp only [g, h]
          · rw [hg x hx]; exact hf x hx
        · simp only [hl]
          have hgk : g k = r := by simp only [g, h]
          rw [List.filterMap_cons, hgk, List.filterMap_congr hg]
          cases r <;> rfl
      · exact Or.inr ⟨k', by simp [hk'], e, he, by simp only [hl]⟩

/-- What a resolution must do: every connection to a real receiver is replaced by one from the real sender, connections
to placeholders disappear, the order is kept, and an exception is thrown iff some real receiver has no real sender. `rcv`
and `snd` select receiver and sender of a connection. -/
structure Resolved (ph : X → Bool) (find : X → Option X) (rcv snd : X × X → X) (conns : List (X × X))
    (R : Outcome (List (X × X))) : Prop where
  ok : (∀ k ∈ conns, ph (rcv k) = false → ∃ s, RealSender ph find (snd k) s) →
    ∃ out, R = .ok out ∧ List.Forall₂ (fun k o => RealSender ph find (snd k) (snd o) ∧ rcv o = rcv k)
      (conns.filter fun k => !ph (rcv k)) out
  throws : (¬ ∀ k ∈ conns, ph (rcv k) = false → ∃ s, RealSender ph find (snd k) s) → ∃ e, R = .throw e

omit [DecidableEq X] in
theorem resolved_of {find : X → Option X} {rcv snd : X × X → X} {conns : List (X × X)}
    {one : X × X → Outcome (Option (X × X))} {build : X → X → X × X}
    (hb : ∀ s r, snd (build s r) = s ∧ rcv (build s r) = r)
    (hone : ∀ k ∈ conns, (ph (rcv k) = true → one k = .ok none) ∧ (ph (rcv k) = false →
      (∀ s, RealSender ph find (snd k) s → one k = .ok (some (build s (rcv k)))) ∧
      ((¬ ∃ s, RealSender ph find (snd k) s) → ∃ e, one k = .throw e))) :
    Resolved ph find rcv snd conns (resolveLoop one conns) := by
  have hub : ∀ k ∈ conns, one k ≠ .ub := by
    intro k hk h
    by_cases hp : ph (rcv k) = true
    · rw [(hone k hk).1 hp] at h; cases h
    · have hp' : ph (rcv k) = false := by simpa using hp
      by_cases hs : ∃ s, RealSender ph find (snd k) s
      · obtain ⟨s, hs⟩ := hs
        rw [((hone k hk).2 hp').1 s hs] at h; cases h
      · obtain ⟨e, he⟩ := ((hone k hk).2 hp').2 hs
        rw [he] at h; cases h
  have hloop := resolveLoop_spec conns hub
  constructor
  · intro hall
    rcases hloop with ⟨f, hf, hl⟩ | ⟨k, hk, e, he, _⟩
    · refine ⟨_, hl, ?_⟩
      clear hl
      have : ∀ ks : List (X × X), (∀ k ∈ ks, k ∈ conns) →
          List.Forall₂ (fun k o => RealSender ph find (snd k) (snd o) ∧ rcv o = rcv k)
            (ks.filter fun k => !ph (rcv k)) (ks.filterMap f) := by
        intro ks
        induction ks with
        | nil => intro _; simp
        | cons k ks ih =>
          intro hks
          have ih := ih (fun x hx => hks x (by simp [hx]))
          have hk := hks k (by simp)
          by_cases hp : ph (rcv k) = true
          · have : f k = none := by
              have := hf k hk
              rw [(hone k hk).1 hp] at this
              simpa using this.symm
            simpa [hp, this] using ih
          · have hp' : ph (rcv k) = false := by simpa using hp
            obtain ⟨s, hs⟩ := hall k hk hp'
            have : f k = some (build s (rcv k)) := by
              have := hf k hk
              rw [((hone k hk).2 hp').1 s hs] at this
              simpa using this.symm
            rw [List.filter_cons_of_pos (by simp [hp']), List.filterMap_cons, this]
            exact List.Forall₂.cons ⟨by rw [(hb _ _).1]; exact hs, (hb _ _).2⟩ ih
      exact this conns (fun k hk => hk)
    · exfalso
      by_cases hp : ph (rcv k) = true
      · rw [(hone k hk).1 hp] at he; cases he
      · have hp' : ph (rcv k) = false := by simpa using hp
        obtain ⟨s, hs⟩ := hall k hk hp'
        rw [((hone k hk).2 hp').1 s hs] at he; cases he
  · intro hno
    rcases hloop with ⟨f, hf, hl⟩ | ⟨k, hk, e, he, hl⟩
    · exfalso
      apply hno
      intro k hk hp
      by_contra hs
      obtain ⟨e, he⟩ := ((hone k hk).2 hp).2 hs
      rw [hf k hk] at he; cases he
    · exact ⟨e, hl⟩

theorem resolveAudio_resolved (ph : X → Bool) (conns : List (X × X)) :
    Resolved ph (findReceiveChannel conns) Prod.snd Prod.fst conns (resolveAudio ph conns) :=
  resolved_of (build := fun s r => (s, r)) (fun _ _ => ⟨rfl, rfl⟩) (fun k _ => resolveOne_spec conns k)

omit [DecidableEq X] in
theorem realSender_iff {find : X → Option X} (hu : UniqueSenders sends)
    (hf : ∀ s x, Follow find s x ↔ sends s x) {p r : X} (hk : sends p r) {s : X} :
    RealSender ph find p s ↔ Chain ph sends r s := by
  have e : Follow find = sends := by
    funext a b
    exact propext (hf a b)
  unfold RealSender
  rw [e]
  constructor
  · rintro (⟨h1, rfl⟩ | ⟨h1, n, hn⟩)
    · exact ⟨0, .direct hk h1⟩
    · exact ⟨n + 1, .through hk h1 hn⟩
  · rintro ⟨n, hn⟩
    cases hn with
    | direct h1 h2 =>
      have := hu _ _ _ h1 hk
      subst this
      exact Or.inl ⟨h2, rfl⟩
    | through h1 h2 h3 =>
      have := hu _ _ _ h1 hk
      subst this
      exact Or.inr ⟨h2, _, h3⟩

/-- **C23.** If every channel is connected to at most one sender (which the connection check enforces), the resolution
of the audio connections replaces the connections to real receivers, one by one and in their order, by connections from
the real sender at the end of the chain of composite ports, and drops the connections to composite ports. It throws iff
for some real receiver there is no real sender, because the chain ends at an unconnected composite port or runs in a
circle. -/
theorem audio_placeholders_resolved (ph : X → Bool) (conns : List (X × X)) (hu : UniqueSenders (Sends conns)) :
    ((∀ s r, Sends conns s r → ph r = false → ∃ s', Chain ph (Sends conns) r s') →
      ∃ out, resolveAudio ph conns = .ok out ∧
        out.map Prod.snd = (conns.map Prod.snd).filter (fun r => !ph r) ∧
        ∀ s r, (s, r) ∈ out ↔ ph r = false ∧ Chain ph (Sends conns) r s) ∧
    ((∃ s r, Sends conns s r ∧ ph r = false ∧ ¬ ∃ s', Chain ph (Sends conns) r s') →
      ∃ e, resolveAudio ph conns = .throw e) := by
  have hr := resolveAudio_resolved ph conns
  have hiff : ∀ k ∈ conns, ∀ s, RealSender ph (findReceiveChannel conns) k.1 s ↔ Chain ph (Sends conns) k.2 s :=
    fun k hk s => realSender_iff hu (find_iff hu) hk
  constructor
  · intro hall
    obtain ⟨out, h1, h2⟩ := hr.ok (fun k hk hp => by
      obtain ⟨s, hs⟩ := hall k.1 k.2 hk hp
      exact ⟨s, (hiff k hk s).2 hs⟩)
    refine ⟨out, h1, ?_, ?_⟩
    · have : ∀ (l l' : List (X × X)), List.Forall₂ (fun k o =>
          RealSender ph (findReceiveChannel conns) k.1 o.1 ∧ o.2 = k.2) l l' → l'.map Prod.snd = l.map Prod.snd := by
        intro l l' h
        induction h with
        | nil => rfl
        | cons h _ ih => simp [h.2, ih]
      rw [this _ _ h2, List.filter_map]
      rfl
    · intro s r
      constructor
      · intro hm
        obtain ⟨k, hk, hks, hkr⟩ := forall₂_right h2 hm
        have hk' := List.mem_filter.1 hk
        simp only at hkr
        subst hkr
        exact ⟨by simpa using hk'.2, (hiff k hk'.1 s).1 hks⟩
      · rintro ⟨hp, n, hn⟩
        have hsend : ∃ p, Sends conns p r := by
          cases hn with
          | direct k _ => exact ⟨_, k⟩
          | through k _ _ => exact ⟨_, k⟩
        obtain ⟨p, hpr⟩ := hsend
        obtain ⟨o, ho, hos, hor⟩ := forall₂_left h2 (List.mem_filter.2 ⟨hpr, by simp [hp]⟩)
        obtain ⟨m, hm⟩ := (hiff _ hpr _).1 hos
        have := (hn.unique hu hm).2
        obtain ⟨o1, o2⟩ := o
        simp only at hor this
        subst hor; subst this
        exact ho
  · rintro ⟨s, r, hs, hp, hno⟩
    apply hr.throws
    intro hall
    obtain ⟨s', hs'⟩ := hall (s, r) hs hp
    exact hno ⟨s', (hiff _ hs s').1 hs'⟩

/-! A flow with inputs and outputs 0 to 1 (top level), atoms 10 to 13, composite ports 20 to 22: the chain
10 → 20 → 21 → 11 crosses two composite boundaries. -/

/-- Ports 20 and above are placeholders. -/
def demoPh (x : Nat) : Bool := 20 ≤ x

example : resolveAudio demoPh [(0, 13), (10, 20), (20, 21), (21, 11), (21, 12)] = .ok [(0, 13), (10, 11), (10, 12)] := by
  decide

/-- The hypotheses of `audio_placeholders_resolved` hold for this flow. -/
example : UniqueSenders (Sends [(0, 13), (10, 20), (20, 21), (21, 11), (21, 12)]) := by
  intro s s' x h h'
  simp [Sends] at h h'
  omega

/-- A loop of composite ports and an unconnected composite port. -/
example : resolveAudio demoPh [(20, 21), (21, 20), (21, 11)] = .throw .invalidArgument := by decide
example : resolveAudio demoPh [(20, 21), (21, 11)] = .throw .logicError := by decide
example : resolveAudio demoPh [(21, 11)] = .throw .invalidArgument := by decide

/-- A loop of composite ports that no real receiver depends on is not reported (and has no effect). -/
theorem audio_isolated_loop_ignored : resolveAudio demoPh [(20, 21), (21, 20), (10, 11)] = .ok [(10, 11)] := by decide

/-! ## Parameter connections -/

/-- The connections of a parameter connection map as a relation; entries are pairs (receiver, sender). -/
def SendsParam (conns : List (X × X)) (s x : X) : Prop := (x, s) ∈ conns

theorem findParam_mem {conns : List (X × X)} {x s : X} (h : findParam conns x = some s) : (x, s) ∈ conns := by
  unfold findParam at h
  cases hf : conns.find? (fun k => k.1 = x) with
  | none => simp [hf] at h
  | some k =>
    simp [hf] at h
    have h1 := List.find?_some hf
    have h2 := List.mem_of_find?_eq_some hf
    simp at h1
    obtain ⟨a, b⟩ := k
    simp at h1 h
    subst h1; subst h
    exact h2

theorem findParam_iff {conns : List (X × X)} (hu : UniqueSenders (SendsParam conns)) (s x : X) :
    Follow (findParam conns) s x ↔ SendsParam conns s x := by
  constructor
  · exact findParam_mem
  · intro h
    unfold Follow
    cases hf : findParam conns x with
    | none =>
      unfold findParam at hf
      simp only [Option.map_eq_none_iff, List.find?_eq_none] at hf
      have := hf _ h
      simp at this
    | some s' => rw [hu s s' x h (findParam_mem hf)]

theorem chaseParam_sound {conns : List (X × X)} {n count : Nat} {x s : X}
    (h : chaseParam ph conns n count (findParam conns x) = .ok s) : Chain ph (Follow (findParam conns)) x s := by
  induction n generalizing count x with
  | zero => simp [chaseParam] at h
  | succ n ih =>
    unfold chaseParam at h
    cases hf : findParam conns x with
    | none => simp [hf] at h
    | some cur =>
      simp only [hf] at h
      by_cases hp : ph cur = true
      · simp only [hp, not_true_eq_false, if_false] at h
        split_ifs at h
        obtain ⟨k, hk⟩ := ih h
        exact ⟨k + 1, .through hf hp hk⟩
      · simp only [hp, Bool.false_eq_true, not_false_eq_true, if_true, Outcome.ok.injEq] at h
        subst h
        exact ⟨0, .direct hf (by simpa using hp)⟩

theorem chaseParam_complete {conns : List (X × X)} {n count ℓ : Nat} {x s : X}
    (h : ChainN ph (Follow (findParam conns)) ℓ x s) (hn : ℓ < n) (hc : count + ℓ < conns.length) :
    chaseParam ph conns n count (findParam conns x) = .ok s := by
  induction h generalizing n count with
  | direct h1 h2 =>
    obtain ⟨n, rfl⟩ : ∃ m, n = m + 1 := ⟨n - 1, by omega⟩
    have h1' : findParam conns _ = _ := h1
    rw [h1']
    simp [chaseParam, h2]
  | through h1 h2 h3 ih =>
    obtain ⟨n, rfl⟩ : ∃ m, n = m + 1 := ⟨n - 1, by omega⟩
    have h1' : findParam conns _ = _ := h1
    rw [h1']
    unfold chaseParam
    simp only [h2, not_true_eq_false, if_false]
    rw [if_neg (by omega)]
    exact ih (by omega) (by omega)

theorem chaseParam_not_ub {conns : List (X × X)} {n count : Nat} {found : Option X}
    (hf : conns.length < n + count) (hn : 0 < n) : chaseParam ph conns n count found ≠ .ub := by
  induction n generalizing count found with
  | zero => omega
  | succ n ih =>
    unfold chaseParam
    cases found with
    | none => simp
    | some cur =>
      by_cases hp : ph cur = true
      · simp only [hp, not_true_eq_false, if_false]
        split_ifs with h
        · simp
        · exact ih (by omega) (by omega)
      · simp [hp]

theorem resolveOneParam_spec (conns : List (X × X)) (k : X × X) (hk : k ∈ conns) :
    (ph k.1 = true → resolveOneParam ph conns k = .ok none) ∧
    (ph k.1 = false →
      (∀ s, RealSender ph (findParam conns) k.2 s → resolveOneParam ph conns k = .ok (some (k.1, s))) ∧
      ((¬ ∃ s, RealSender ph (findParam conns) k.2 s) → ∃ e, resolveOneParam ph conns k = .throw e)) := by
  have hu := follow_unique (findParam conns)
  refine ⟨fun h => by simp [resolveOneParam, h], fun h => ?_⟩
  by_cases hp : ph k.2 = true
  · have hres : resolveOneParam ph conns k =
        match chaseParam ph conns (conns.length + 1) 1 (findParam conns k.2) with
          | .ok s => .ok (some (k.1, s))
          | .throw e => .throw e
          | .ub => .ub := by
      simp [resolveOneParam, h, hp]
      rfl
    rw [hres]
    refine ⟨?_, ?_⟩
    · rintro s (⟨h1, _⟩ | ⟨_, ℓ, hℓ⟩)
      · rw [hp] at h1; cases h1
      · -- the receivers on the chain and the receiver of `k` are different
        obtain ⟨l, i1, i2, i3, i4, _⟩ := hℓ.receivers hu
        have hnd : (k.1 :: l).Nodup := by
          refine List.nodup_cons.2 ⟨?_, i1⟩
          intro hm
          rcases i4 _ hm with he | he
          · rw [he, hp] at h; cases h
          · rw [he] at h; cases h
        have hsub : ∀ t ∈ k.1 :: l, t ∈ conns.map Prod.fst := by
          intro t ht
          rcases List.mem_cons.1 ht with rfl | ht
          · exact List.mem_map.2 ⟨k, hk, rfl⟩
          · obtain ⟨u, hu'⟩ := i3 t ht
            exact List.mem_map.2 ⟨_, findParam_mem hu', rfl⟩
        have := (hnd.subperm hsub).length_le
        simp [i2] at this
        rw [chaseParam_complete hℓ (by omega) (by omega)]
    · intro hno
      cases hc : chaseParam ph conns (conns.length + 1) 1 (findParam conns k.2) with
      | ok s => exact absurd ⟨s, Or.inr ⟨hp, chaseParam_sound hc⟩⟩ hno
      | throw e => exact ⟨e, rfl⟩
      | ub => exact absurd hc (chaseParam_not_ub (by omega) (by omega))
  · have hp' : ph k.2 = false := by simpa using hp
    refine ⟨?_, ?_⟩
    · rintro s (⟨_, rfl⟩ | ⟨h1, _⟩)
      · simp [resolveOneParam, h, hp']
      · exact absurd h1 hp
    · intro hno
      exact absurd ⟨k.2, Or.inl ⟨hp', rfl⟩⟩ hno

/-- **C24, general form.** For all parameter connections: each connection to a real receiver is replaced, in order, by a
connection from the real sender reached by following always the first connection of a composite port; chains that end at
a real sender are never mistaken for loops, whatever their length, and an exception is thrown iff some chain ends unconnected or runs in a circle. -/
theorem param_first_sender_resolved (ph : X → Bool) (conns : List (X × X)) :
    Resolved ph (findParam conns) Prod.fst Prod.snd conns (resolveParam ph conns) :=
  resolved_of (build := fun s r => (r, s)) (fun _ _ => ⟨rfl, rfl⟩) (resolveOneParam_spec conns)

/-- **C24 (partial: every composite port has at most one sender).** The resolved connections are exactly the pairs of a
real receiver and the real sender at the end of its chain, and an exception is thrown iff some real receiver has no real
sender. Missing: composite ports with several senders (see `param_senders_lost`). -/
theorem param_placeholders_resolved_partial (ph : X → Bool) (conns : List (X × X))
    (hu : UniqueSenders (SendsParam conns)) :
    ((∀ s r, SendsParam conns s r → ph r = false → ∃ s', Chain ph (SendsParam conns) r s') →
      ∃ out, resolveParam ph conns = .ok out ∧
        out.map Prod.fst = (conns.map Prod.fst).filter (fun r => !ph r) ∧
        ∀ s r, (r, s) ∈ out ↔ ph r = false ∧ Chain ph (SendsParam conns) r s) ∧
    ((∃ s r, SendsParam conns s r ∧ ph r = false ∧ ¬ ∃ s', Chain ph (SendsParam conns) r s') →
      ∃ e, resolveParam ph conns = .throw e) := by
  have hr := param_first_sender_resolved ph conns
  have hiff : ∀ k ∈ conns, ∀ s, RealSender ph (findParam conns) k.2 s ↔ Chain ph (SendsParam conns) k.1 s :=
    fun k hk s => realSender_iff hu (findParam_iff hu) hk
  constructor
  · intro hall
    obtain ⟨out, h1, h2⟩ := hr.ok (fun k hk hp => by
      obtain ⟨s, hs⟩ := hall k.2 k.1 hk hp
      exact ⟨s, (hiff k hk s).2 hs⟩)
    refine ⟨out, h1, ?_, ?_⟩
    · have : ∀ (l l' : List (X × X)), List.Forall₂ (fun k o =>
          RealSender ph (findParam conns) k.2 o.2 ∧ o.1 = k.1) l l' → l'.map Prod.fst = l.map Prod.fst := by
        intro l l' h
        induction h with
        | nil => rfl
        | cons h _ ih => simp [h.2, ih]
      rw [this _ _ h2, List.filter_map]
      rfl
    · intro s r
      constructor
      · intro hm
        obtain ⟨k, hk, hks, hkr⟩ := forall₂_right h2 hm
        have hk' := List.mem_filter.1 hk
        simp only at hkr
        subst hkr
        exact ⟨by simpa using hk'.2, (hiff k hk'.1 s).1 hks⟩
      · rintro ⟨hp, n, hn⟩
        have hsend : ∃ p, SendsParam conns p r := by
          cases hn with
          | direct k _ => exact ⟨_, k⟩
          | through k _ _ => exact ⟨_, k⟩
        obtain ⟨p, hpr⟩ := hsend
        obtain ⟨o, ho, hos, hor⟩ := forall₂_left h2 (List.mem_filter.2 ⟨hpr, by simp [hp]⟩)
        obtain ⟨m, hm⟩ := (hiff _ hpr _).1 hos
        have := (hn.unique hu hm).2
        obtain ⟨o1, o2⟩ := o
        simp only at hor this
        subst hor; subst this
        exact ho
  · rintro ⟨s, r, hs, hp, hno⟩
    apply hr.throws
    intro hall
    obtain ⟨s', hs'⟩ := hall (r, s) hs hp
    exact hno ⟨s', (hiff _ hs s').1 hs'⟩

/-- A chain through two composite ports, using all connections. -/
example : resolveParam demoPh [(11, 20), (20, 21), (21, 10)] = .ok [(11, 10)] := by decide
example : resolveParam demoPh [(11, 20), (20, 21), (21, 20)] = .throw .runtimeError := by decide

/-- An acyclic chain that ends at an unconnected composite port is rejected, but with the exception for closed loops if
the chain uses all connections. -/
theorem param_dead_end_called_loop : resolveParam demoPh [(11, 20), (20, 21)] = .throw .runtimeError ∧
    resolveParam demoPh [(11, 20), (20, 21), (12, 10)] = .throw .invalidArgument := by decide

/-- **C24 (negation).** If two parameter outputs are connected to the same composite port (allowed by the connection
check, meaningful for protocols with several senders), only the first one is connected to the receiver behind it; the
other connection is lost without any message. -/
theorem param_senders_lost :
    let conns := [(11, 20), (20, 10), (20, 12)]
    resolveParam demoPh conns = .ok [(11, 10)] ∧ Chain demoPh (SendsParam conns) 11 12 := by
  refine ⟨by decide, 1, .through (p := 20) ?_ rfl (.direct ?_ rfl)⟩ <;> simp [SendsParam]

end Visr.Placeholder
