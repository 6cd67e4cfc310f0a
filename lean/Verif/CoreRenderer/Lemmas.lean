import Verif.CoreRenderer.Spec
import Verif.Flow.Props
import Mathlib.Data.List.Nodup
import Mathlib.Data.List.Sort
import Mathlib.Data.List.Count

/-!
# Lemmas for the renderer wiring
-/

namespace Visr.CoreRenderer
open Visr Visr.Flow

theorem Port.id_inj {p q : Port} : p.id = q.id ↔ p = q := by
  constructor
  · intro h
    cases p <;> cases q <;> first | rfl | (simp [Port.id] at h)
  · rintro rfl; rfl

theorem PName.id_inj {p q : PName} : p.id = q.id ↔ p = q := by
  constructor
  · intro h
    cases p <;> cases q <;> first | rfl | (simp [PName.id] at h)
  · rintro rfl; rfl

/-! ## Connection calls -/

def Call.send : Call → Port
  | .whole s _ => s
  | .part s _ _ _ => s

def Call.recv : Call → Port
  | .whole _ r => r
  | .part _ _ r _ => r

def Call.si (w : Port → Nat) : Call → List Nat
  | .whole s _ => List.range (w s)
  | .part _ si _ _ => si

def Call.ri (w : Port → Nat) : Call → List Nat
  | .whole s _ => List.range (w s)
  | .part _ _ _ ri => ri

def Call.fits (w : Port → Nat) (k : Call) : Prop :=
  (k.si w).length = (k.ri w).length ∧ (∀ i ∈ k.si w, i < w k.send) ∧ (∀ i ∈ k.ri w, i < w k.recv) ∧
    (∀ s r, k = .whole s r → w s = w r)

def Call.conns (w : Port → Nat) (k : Call) : List AConn :=
  if (k.si w).length = 0 then [] else [⟨k.send.id, k.si w, k.recv.id, k.ri w⟩]

def Call.pairs (w : Port → Nat) (k : Call) : List (Chan × Chan) :=
  List.zip ((k.si w).map fun i => (k.send.id, i)) ((k.ri w).map fun i => (k.recv.id, i))

theorem connectPart_fits {w : Port → Nat} {s r : Port} {si ri : List Nat} (h1 : si.length = ri.length)
    (h2 : ∀ i ∈ si, i < w s) (h3 : ∀ i ∈ ri, i < w r) (conns : List AConn) :
    connectPart w s si r ri conns = .ok (conns ++ (Call.part s si r ri).conns w) := by
  unfold connectPart Call.conns Call.si Call.send Call.recv Call.ri
  rw [if_neg (by simpa using h1)]
  by_cases h0 : si.length = 0
  · rw [if_pos h0]; simp [h0]
  · have hs : si ≠ [] := by rintro rfl; simp at h0
    have hr : ri ≠ [] := by rintro rfl; simp at h1; exact hs h1
    rw [if_neg h0, if_neg, if_neg]
    · simp [h0]
    · intro hc; exact ((foldl_max_le hr).1 hc) h3
    · intro hc; exact ((foldl_max_le hs).1 hc) h2

theorem connect_fits {w : Port → Nat} {k : Call} (h : k.fits w) (conns : List AConn) :
    connect w k conns = .ok (conns ++ k.conns w) := by
  cases k with
  | part s si r ri => exact connectPart_fits h.1 h.2.1 h.2.2.1 conns
  | whole s r =>
    have hw := h.2.2.2 s r rfl
    show (if w s ≠ w r then _ else _) = _
    rw [if_neg (not_not_intro hw)]
    exact connectPart_fits (s := s) (r := r) rfl h.2.1 h.2.2.1 conns

theorem connectAll_fits {w : Port → Nat} : ∀ {ks : List Call}, (∀ k ∈ ks, k.fits w) → ∀ (conns : List AConn),
    connectAll w ks conns = .ok (conns ++ ks.flatMap (Call.conns w)) := by
  intro ks
  induction ks with
  | nil => intro _ conns; simp [connectAll]
  | cons k ks ih =>
    intro h conns
    unfold connectAll
    rw [connect_fits (h k (by simp)), Outcome.ok_bind, ih (fun k' hk' => h k' (by simp [hk']))]
    simp

theorem pairs_conns (w : Port → Nat) (k : Call) : Flow.pairs (k.conns w) = k.pairs w := by
  unfold Call.conns Call.pairs
  by_cases h : (k.si w).length = 0
  · rw [if_pos h]
    have : k.si w = [] := List.length_eq_zero_iff.1 h
    simp [this, Flow.pairs]
  · rw [if_neg h]; simp [Flow.pairs, AConn.pairs]

theorem pairs_append (a b : List AConn) : Flow.pairs (a ++ b) = Flow.pairs a ++ Flow.pairs b := by
  simp [Flow.pairs]

theorem pairs_flatMap (w : Port → Nat) (ks : List Call) :
    Flow.pairs (ks.flatMap (Call.conns w)) = ks.flatMap (Call.pairs w) := by
  induction ks with
  | nil => rfl
  | cons k ks ih => rw [List.flatMap_cons, List.flatMap_cons, pairs_append, ih, pairs_conns]

theorem count_tag (r q : Port) (l : List Nat) (i : Nat) :
    (l.map fun j => (r.id, j)).count (q.id, i) = if r = q then l.count i else 0 := by
  induction l with
  | nil => simp
  | cons a l ih =>
    rw [List.map_cons, List.count_cons, ih, List.count_cons]
    by_cases h : r = q
    · subst h; simp
    · have : r.id ≠ q.id := fun hc => h (Port.id_inj.1 hc)
      simp [h, this]

theorem pairs_recv {w : Port → Nat} {k : Call} (h : k.fits w) (q : Port) (i : Nat) :
    ((k.pairs w).map Prod.snd).count (q.id, i) = if k.recv = q then (k.ri w).count i else 0 := by
  unfold Call.pairs
  rw [List.map_snd_zip (by simp [h.1]), count_tag]

theorem pairs_send {w : Port → Nat} {k : Call} (h : k.fits w) :
    (k.pairs w).map Prod.fst = (k.si w).map fun i => (k.send.id, i) := by
  unfold Call.pairs
  rw [List.map_fst_zip (by simp [h.1])]

theorem count_calls {w : Port → Nat} : ∀ {ks : List Call}, (∀ k ∈ ks, k.fits w) → ∀ (q : Port) (i : Nat),
    ((ks.flatMap (Call.pairs w)).map Prod.snd).count (q.id, i) =
      (ks.map fun k => if k.recv = q then (k.ri w).count i else 0).sum := by
  intro ks
  induction ks with
  | nil => intros; simp
  | cons k ks ih =>
    intro h q i
    rw [List.flatMap_cons, List.map_append, List.count_append, ih (fun k' hk' => h k' (by simp [hk'])),
      pairs_recv (h k (by simp))]
    simp

theorem mem_sends {w : Port → Nat} {ks : List Call} (h : ∀ k ∈ ks, k.fits w) (q : Port) (i : Nat) :
    (q.id, i) ∈ (ks.flatMap (Call.pairs w)).map Prod.fst ↔ ∃ k ∈ ks, k.send = q ∧ i ∈ k.si w := by
  rw [List.map_flatMap, List.mem_flatMap]
  constructor
  · rintro ⟨k, hk, hm⟩
    rw [pairs_send (h k hk), List.mem_map] at hm
    obtain ⟨j, hj, e⟩ := hm
    obtain ⟨e1, rfl⟩ := Prod.mk.inj e
    exact ⟨k, hk, Port.id_inj.1 e1, hj⟩
  · rintro ⟨k, hk, rfl, hi⟩
    refine ⟨k, hk, ?_⟩
    rw [pairs_send (h k hk)]
    exact List.mem_map.2 ⟨i, hi, rfl⟩

/-! ## Channels -/

theorem mem_channelRange {a b i : Nat} : i ∈ channelRange a b ↔ a ≤ i ∧ i < b := by
  unfold channelRange
  rw [List.mem_range'_1]
  omega

theorem length_channelRange (a b : Nat) : (channelRange a b).length = b - a := by
  simp [channelRange]

theorem count_channelRange (a b i : Nat) : (channelRange a b).count i = if a ≤ i ∧ i < b then 1 else 0 := by
  by_cases h : i ∈ channelRange a b
  · rw [if_pos (mem_channelRange.1 h)]
    exact List.count_eq_one_of_mem (List.nodup_range' ..) h
  · rw [if_neg (fun hc => h (mem_channelRange.2 hc))]
    exact List.count_eq_zero_of_not_mem h

theorem count_range (n i : Nat) : (List.range n).count i = if i < n then 1 else 0 := by
  by_cases h : i < n
  · rw [if_pos h]; exact List.count_eq_one_of_mem List.nodup_range (List.mem_range.2 h)
  · rw [if_neg h]; exact List.count_eq_zero_of_not_mem (by simpa using h)

/-- The zero-based number of an output channel. -/
def chan (ch : UInt64) : Nat := ch.toNat - 1

theorem sub_one_toNat (ch : UInt64) : (ch - 1).toNat = if ch.toNat = 0 then 2 ^ 64 - 1 else ch.toNat - 1 := by
  have h1 : (1 : UInt64).toNat = 1 := rfl
  have h2 := ch.toNat_lt
  rw [UInt64.toNat_sub, h1]
  split
  · next h => rw [h]; rfl
  · next h => omega

theorem activeChannels_ok {nOut : Nat} : ∀ (l : List UInt64),
    (∀ ch ∈ l, 1 ≤ ch.toNat ∧ ch.toNat ≤ nOut) → activeChannels nOut l = .ok (l.map chan) := by
  intro l
  induction l with
  | nil => intro _; rfl
  | cons ch l ih =>
    intro h
    have h1 := h ch (by simp)
    have h2 : (ch - 1).toNat = chan ch := by rw [sub_one_toNat, if_neg (by omega)]; rfl
    have h3 : ¬ chan ch ≥ nOut := by unfold chan; omega
    simp only [activeChannels]
    rw [h2, if_neg h3, ih (fun c hc => h c (by simp [hc]))]
    rfl

theorem activeChannels_throw {nOut : Nat} (hn : nOut < 2 ^ 64) : ∀ (l : List UInt64),
    ¬ (∀ ch ∈ l, 1 ≤ ch.toNat ∧ ch.toNat ≤ nOut) → activeChannels nOut l = .throw .invalidArgument := by
  intro l
  induction l with
  | nil => intro h; exact absurd (by simp) h
  | cons ch l ih =>
    intro h
    simp only [activeChannels]
    by_cases hc : (ch - 1).toNat ≥ nOut
    · rw [if_pos hc]
    · rw [if_neg hc, ih]
      · rfl
      · intro hl
        apply h
        intro c hmem
        rcases List.mem_cons.1 hmem with rfl | hmem
        · rw [sub_one_toNat] at hc
          by_cases h0 : c.toNat = 0
          · rw [if_pos h0] at hc; omega
          · rw [if_neg h0] at hc; omega
        · exact hl c hmem

theorem chan_nodup {nOut : Nat} {l : List UInt64} (h : ∀ ch ∈ l, 1 ≤ ch.toNat ∧ ch.toNat ≤ nOut) :
    (l.map chan).Nodup ↔ l.Nodup := by
  constructor
  · exact List.Nodup.of_map _
  · intro hn
    refine hn.map_on fun x hx y hy e => ?_
    have h1 := h x hx
    have h2 := h y hy
    unfold chan at e
    exact UInt64.toNat_inj.1 (by omega)

theorem adjacentEqual_iff : ∀ {l : List Nat}, l.Pairwise (· ≤ ·) → (adjacentEqual l = true ↔ ¬ l.Nodup)
  | [], _ => by simp [adjacentEqual]
  | [a], _ => by simp [adjacentEqual]
  | a :: b :: l, h => by
    have hb := (List.pairwise_cons.1 h).2
    have ih := adjacentEqual_iff hb
    unfold adjacentEqual
    rw [Bool.or_eq_true, ih, beq_iff_eq]
    constructor
    · rintro (rfl | hn)
      · simp
      · exact fun hc => hn (List.nodup_cons.1 hc).2
    · intro hn
      by_contra hc
      push Not at hc
      obtain ⟨h1, h2⟩ := hc
      apply hn
      refine List.nodup_cons.2 ⟨?_, h2⟩
      intro hm
      rcases List.mem_cons.1 hm with e | hm
      · exact h1 e
      · have l1 := (List.pairwise_cons.1 h).1 b (by simp)
        have l2 := (List.pairwise_cons.1 hb).1 a hm
        omega

theorem silentLoop_eq : ∀ (fuel idx : Nat) (l : List Nat), l.Pairwise (· < ·) → (∀ x ∈ l, idx ≤ x) →
    silentLoop fuel idx l = (List.range' idx fuel).filter (· ∉ l) := by
  intro fuel
  induction fuel with
  | zero => intros; rfl
  | succ fuel ih =>
    intro idx l hs hl
    cases l with
    | nil =>
      unfold silentLoop
      rw [ih _ _ hs (by simp), List.range'_succ]
      simp
    | cons r rs =>
      unfold silentLoop
      have hr := hl r (by simp)
      rw [List.range'_succ]
      split
      · next hlt =>
        rw [ih _ _ hs]
        · rw [List.filter_cons_of_pos]
          have hn : idx ∉ r :: rs := by
            intro hm
            rcases List.mem_cons.1 hm with e | hm
            · omega
            · have := (List.pairwise_cons.1 hs).1 _ hm; omega
          simpa using hn
        · intro x hx
          rcases List.mem_cons.1 hx with rfl | hx
          · omega
          · have := (List.pairwise_cons.1 hs).1 _ hx; omega
      · next hlt =>
        have he : idx = r := by omega
        subst he
        rw [ih _ _ (List.pairwise_cons.1 hs).2 (fun x hx => (List.pairwise_cons.1 hs).1 x hx)]
        rw [List.filter_cons_of_neg (by simp)]
        apply List.filter_congr
        intro x hx
        have := List.mem_range'_1.1 hx
        have hne : x ≠ idx := by omega
        simp [hne]

/-- The silent output channels. -/
def silent (c : Config) : List Nat := (List.range c.nOut).filter (· ∉ (c.lsp ++ c.subs).map chan)

theorem length_silent {c : Config} (hd : ((c.lsp ++ c.subs).map chan).Nodup)
    (hr : ∀ x ∈ (c.lsp ++ c.subs).map chan, x < c.nOut) :
    (silent c).length + (c.nL + c.nS) = c.nOut := by
  have h1 : ((List.range c.nOut).filter (· ∈ (c.lsp ++ c.subs).map chan)).length = c.nL + c.nS := by
    have hp : ((List.range c.nOut).filter (· ∈ (c.lsp ++ c.subs).map chan)).Perm ((c.lsp ++ c.subs).map chan) := by
      rw [List.perm_ext_iff_of_nodup (List.nodup_range.filter _) hd]
      intro a
      rw [List.mem_filter, List.mem_range, decide_eq_true_iff]
      exact ⟨fun h => h.2, fun h => ⟨hr a h, h⟩⟩
    rw [hp.length_eq, List.length_map, List.length_append]
    rfl
  have h2 := List.length_eq_length_filter_add (l := List.range c.nOut) (fun x => decide (x ∈ (c.lsp ++ c.subs).map chan))
  rw [List.length_range, h1] at h2
  have h3 : (silent c).length = ((List.range c.nOut).filter fun x => !decide (x ∈ (c.lsp ++ c.subs).map chan)).length := by
    unfold silent
    congr 1
    apply List.filter_congr
    intro x _
    rw [decide_not]
  omega

theorem Valid.lt {c : Config} (h : Valid c) : ∀ x ∈ (c.lsp ++ c.subs).map chan, x < c.nOut := by
  intro x hx
  obtain ⟨ch, hc, rfl⟩ := List.mem_map.1 hx
  have := h.range ch hc
  unfold chan
  omega

theorem Valid.nodup {c : Config} (h : Valid c) : ((c.lsp ++ c.subs).map chan).Nodup := (chan_nodup h.range).2 h.distinct

/-- All connection calls of a valid configuration. -/
def Config.calls (c : Config) : List Call :=
  c.calls1 ++ c.calls2 ++
    [.part .adjustOut (channelRange 0 (c.nL + c.nS)) .audioOut ((c.lsp ++ c.subs).map chan),
     .part .nullOut (List.replicate (c.nOut - (c.nL + c.nS)) 0) .audioOut (silent c)]

theorem whole_fits {w : Port → Nat} {s r : Port} (h : w s = w r) : (Call.whole s r).fits w := by
  refine ⟨rfl, fun i hi => List.mem_range.1 hi, fun i hi => ?_, ?_⟩
  · have := List.mem_range.1 hi; show i < w r; omega
  · rintro s' r' e; cases e; exact h

theorem part_fits {w : Port → Nat} {s r : Port} {a b a' b' : Nat} (h1 : b - a = b' - a') (h2 : b ≤ w s) (h3 : b' ≤ w r) :
    (Call.part s (channelRange a b) r (channelRange a' b')).fits w := by
  refine ⟨?_, fun i hi => ?_, fun i hi => ?_, by simp⟩
  · simp [Call.si, Call.ri, length_channelRange, h1]
  · have := (mem_channelRange.1 hi).2; show i < w s; omega
  · have := (mem_channelRange.1 hi).2; show i < w r; omega

theorem calls1_fits (c : Config) : ∀ k ∈ c.calls1, k.fits c.width := by
  intro k hk
  cases hf : c.freqDep <;>
  · simp only [Config.calls1, hf, if_true, Bool.false_eq_true, if_false, List.mem_append, List.mem_cons, List.not_mem_nil,
      or_false, or_assoc] at hk
    rcases hk with rfl | rfl | rfl | rfl | rfl | rfl | rfl | rfl | rfl <;>
      first
      | (apply whole_fits; rfl)
      | (apply part_fits <;> (try simp only [Config.width]) <;> omega)

theorem calls2_fits (c : Config) (ht : c.tracking = false) : ∀ k ∈ c.calls2, k.fits c.width := by
  intro k hk
  cases hf : c.freqDep <;> cases hr : c.reverb <;> cases he : c.eq <;>
  · simp only [Config.calls2, hf, hr, he, ht, if_true, Bool.false_eq_true, if_false, List.mem_append, List.mem_cons,
      List.not_mem_nil, or_false, or_assoc, false_or] at hk
    rcases hk with rfl | rfl | rfl | rfl | rfl | rfl | rfl | rfl | rfl <;>
      first
      | (apply whole_fits; rfl)
      | (apply part_fits <;> (try simp only [Config.width]) <;> omega)

theorem Valid.total {c : Config} (h : Valid c) : (silent c).length + (c.nL + c.nS) = c.nOut := length_silent h.nodup h.lt

theorem output_fits {c : Config} (h : Valid c) :
    (Call.part .adjustOut (channelRange 0 (c.nL + c.nS)) .audioOut ((c.lsp ++ c.subs).map chan)).fits c.width := by
  refine ⟨?_, fun i hi => ?_, fun i hi => ?_, by simp⟩
  · simp [Call.si, Call.ri, length_channelRange, Config.nL, Config.nS]
  · have := (mem_channelRange.1 hi).2; simpa [Call.send, Config.width] using this
  · exact h.lt i hi

theorem silent_fits {c : Config} (h : Valid c) :
    (Call.part .nullOut (List.replicate (c.nOut - (c.nL + c.nS)) 0) .audioOut (silent c)).fits c.width := by
  have ht := h.total
  refine ⟨?_, fun i hi => ?_, fun i hi => ?_, by simp⟩
  · simp only [Call.si, Call.ri, List.length_replicate]; omega
  · obtain ⟨h1, rfl⟩ := List.mem_replicate.1 hi
    simp only [Call.send, Config.width]
    rw [if_neg (by omega)]; omega
  · exact List.mem_range.1 (List.mem_filter.1 hi).1

theorem calls_fits {c : Config} (h : Valid c) (ht : c.tracking = false) : ∀ k ∈ c.calls, k.fits c.width := by
  intro k hk
  simp only [Config.calls, List.mem_append, List.mem_cons, List.not_mem_nil, or_false] at hk
  rcases hk with (hk | hk) | rfl | rfl
  · exact calls1_fits c k hk
  · exact calls2_fits c ht k hk
  · exact output_fits h
  · exact silent_fits h

theorem sorted_lt {l : List Nat} (h : l.Nodup) : (l.mergeSort (· ≤ ·)).Pairwise (· < ·) := by
  have h1 : (l.mergeSort (· ≤ ·)).Pairwise (· ≤ ·) := by
    have := List.pairwise_mergeSort (le := fun a b : Nat => decide (a ≤ b)) (by simp; omega) (by simp; omega) l
    simpa using this
  have h2 : (l.mergeSort (· ≤ ·)).Nodup := (List.mergeSort_perm l _).nodup_iff.2 h
  exact (h1.and h2).imp fun h => by omega

theorem sorted_adjacent (l : List Nat) : adjacentEqual (l.mergeSort (· ≤ ·)) = true ↔ ¬ l.Nodup := by
  have h1 : (l.mergeSort (· ≤ ·)).Pairwise (· ≤ ·) := by
    have := List.pairwise_mergeSort (le := fun a b : Nat => decide (a ≤ b)) (by simp; omega) (by simp; omega) l
    simpa using this
  rw [adjacentEqual_iff h1, (List.mergeSort_perm l _).nodup_iff]

theorem connectOutputs_ok {c : Config} (h : Valid c) (conns : List AConn) :
    connectOutputs c conns = .ok (conns ++ List.flatMap (Call.conns c.width)
      [.part .adjustOut (channelRange 0 (c.nL + c.nS)) .audioOut ((c.lsp ++ c.subs).map chan),
       .part .nullOut (List.replicate (c.nOut - (c.nL + c.nS)) 0) .audioOut (silent c)]) := by
  have ht := h.total
  unfold connectOutputs
  rw [if_neg (by omega), activeChannels_ok _ h.range, Outcome.ok_bind]
  simp only
  have hn : ¬ adjacentEqual (((c.lsp ++ c.subs).map chan).mergeSort (· ≤ ·)) = true := by
    rw [sorted_adjacent]; simpa using h.nodup
  rw [if_neg hn]
  have ho := output_fits h
  rw [connectPart_fits (s := .adjustOut) (r := .audioOut) (si := channelRange 0 (c.nL + c.nS))
    (ri := (c.lsp ++ c.subs).map chan) ho.1 ho.2.1 ho.2.2.1, Outcome.ok_bind]
  have hs : silentLoop c.nOut 0 (((c.lsp ++ c.subs).map chan).mergeSort (· ≤ ·)) = silent c := by
    rw [silentLoop_eq _ _ _ (sorted_lt h.nodup) (by simp), ← List.range_eq_range']
    unfold silent
    apply List.filter_congr
    intro x _
    simp only [List.mem_mergeSort]
  unfold connectSilent
  simp only
  rw [hs]
  have hi := silent_fits h
  by_cases hz : c.nOut - (c.nL + c.nS) > 0
  · rw [if_pos hz, if_neg (by omega), if_neg (by omega), connectPart_fits (s := .nullOut) (r := .audioOut)
      (si := List.replicate (c.nOut - (c.nL + c.nS)) 0) (ri := silent c) hi.1 hi.2.1 hi.2.2.1]
    simp
  · rw [if_neg hz]
    have h0 : c.nOut - (c.nL + c.nS) = 0 := by omega
    simp [h0, Call.conns, Call.si]

theorem audioConnections_ok' {c : Config} (h : Valid c) (hf : ∀ k ∈ c.calls2, k.fits c.width) (hd : 0 < c.delays) :
    audioConnections c = .ok (c.calls.flatMap (Call.conns c.width)) := by
  unfold audioConnections
  have h1 : ¬ c.nL > c.filters := by have := h.filters; unfold Config.nL; omega
  have h2 : ¬ (c.eqFilters.any (fun n => c.nL + c.nS ≠ n)) = true := by
    cases he : c.eqFilters with
    | none => simp
    | some n => have := h.eq n he; simp [this, Config.nL, Config.nS]
  rw [if_neg h1, if_neg h2, connectAll_fits (calls1_fits c), Outcome.ok_bind, if_neg (by omega),
    connectAll_fits hf, Outcome.ok_bind, connectOutputs_ok h]
  unfold Config.calls
  simp only [List.flatMap_append, List.nil_append, List.append_assoc]

theorem audioConnections_ok {c : Config} (h : Valid c) (ht : c.tracking = false) (hd : 0 < c.delays) :
    audioConnections c = .ok (c.calls.flatMap (Call.conns c.width)) := audioConnections_ok' h (calls2_fits c ht) hd

theorem audioConnections_invalid' {c : Config} (h : ¬ Valid c) (hn : c.nOut < 2 ^ 64)
    (hf : ∀ k ∈ c.calls2, k.fits c.width) (hd : 0 < c.delays) : audioConnections c = .throw .invalidArgument := by
  unfold audioConnections
  by_cases h1 : c.nL > c.filters
  · rw [if_pos h1]
  rw [if_neg h1]
  by_cases h2 : (c.eqFilters.any (fun n => c.nL + c.nS ≠ n)) = true
  · rw [if_pos h2]
  rw [if_neg h2, connectAll_fits (calls1_fits c), Outcome.ok_bind, if_neg (by omega),
    connectAll_fits hf, Outcome.ok_bind]
  unfold connectOutputs
  by_cases h3 : c.nL + c.nS > c.nOut
  · rw [if_pos h3]
  rw [if_neg h3]
  by_cases h4 : ∀ ch ∈ c.lsp ++ c.subs, 1 ≤ ch.toNat ∧ ch.toNat ≤ c.nOut
  · rw [activeChannels_ok _ h4, Outcome.ok_bind]
    simp only
    rw [if_pos]
    rw [sorted_adjacent, chan_nodup h4]
    intro h5
    refine h ⟨by unfold Config.nL at h1; omega, fun n e => ?_, h5, h4⟩
    simp only [e, Option.any_some, ne_eq, decide_not, Bool.not_eq_true', decide_eq_false_iff_not, not_not] at h2
    exact h2.symm
  · rw [activeChannels_throw hn _ h4]; rfl

theorem audioConnections_invalid {c : Config} (h : ¬ Valid c) (hn : c.nOut < 2 ^ 64) (ht : c.tracking = false)
    (hd : 0 < c.delays) : audioConnections c = .throw .invalidArgument :=
  audioConnections_invalid' h hn (calls2_fits c ht) hd

/-- With tracking and without output equalisation the connections can be made. -/
theorem calls2_fits_tracking (c : Config) (he : c.eq = false) : ∀ k ∈ c.calls2, k.fits c.width := by
  intro k hk
  cases hf : c.freqDep <;> cases hr : c.reverb <;> cases ht : c.tracking <;>
  · simp only [Config.calls2, hf, hr, he, ht, if_true, Bool.false_eq_true, if_false, List.mem_append, List.mem_cons,
      List.not_mem_nil, or_false, or_assoc, false_or] at hk
    rcases hk with rfl | rfl | rfl | rfl | rfl | rfl | rfl | rfl | rfl <;>
      first
      | (apply whole_fits; rfl)
      | (apply part_fits <;> (try simp only [Config.width]) <;> omega)

theorem connectAll_append (w : Port → Nat) : ∀ (a b : List Call) (conns : List AConn),
    connectAll w (a ++ b) conns = (connectAll w a conns >>= connectAll w b) := by
  intro a
  induction a with
  | nil => intro b conns; rfl
  | cons k a ih =>
    intro b conns
    simp only [List.cons_append, connectAll]
    cases connect w k conns with
    | ok x => rw [Outcome.ok_bind, Outcome.ok_bind, ih]
    | throw e => rfl
    | ub => rfl

/-- With tracking, output equalisation and subwoofers the connection to the equaliser fails. -/
theorem calls2_throw (c : Config) (ht : c.tracking = true) (he : c.eq = true) (hs : 0 < c.nS) (conns : List AConn) :
    connectAll c.width c.calls2 conns = .throw .invalidArgument := by
  have : c.calls2 = ((if c.reverb then [Call.whole .objectEqOut .reverbIn,
      .whole .reverbOut (if c.freqDep then .mixIn3 else .mixIn2)] else [])
      ++ [.whole .diffuseOut .decorrelatorIn, .whole .decorrelatorOut (if c.freqDep then .mixIn2 else .mixIn1)]
      ++ [.whole .mixOut .listenerIn, .whole .listenerOut .subwooferIn]) ++ [.whole .listenerOut .outputEqIn] := by
    simp [Config.calls2, ht, he]
  rw [this, connectAll_append, connectAll_fits, Outcome.ok_bind]
  · simp only [connectAll, connect]
    rw [if_pos]
    · rfl
    · simp only [Config.width]; omega
  · intro k hk
    cases hf : c.freqDep <;> cases hr : c.reverb <;>
    · simp only [hf, hr, if_true, Bool.false_eq_true, if_false, List.mem_append, List.mem_cons,
        List.not_mem_nil, or_false, or_assoc, false_or] at hk
      rcases hk with rfl | rfl | rfl | rfl | rfl | rfl <;> (apply whole_fits; rfl)

end Visr.CoreRenderer
