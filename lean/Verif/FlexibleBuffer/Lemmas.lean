import Verif.FlexibleBuffer.Spec
import Verif.CircularBuffer.Lemmas
import Mathlib.Tactic.Ring

namespace Visr.FlexibleBuffer
open Visr Visr.CircularBuffer

variable {σ : Type u} {α : Type v}

theorem readAll_ok (b : CB α) (d n : Nat) (f : Nat → List α) (chs : List Nat)
    (h : ∀ ch ∈ chs, b.read ch d n = .ok (f ch)) : readAll b d n chs = .ok (chs.map f) := by
  induction chs with
  | nil => rfl
  | cons c cs ih =>
    simp only [readAll, h c (by simp), ih (fun ch hch => h ch (by simp [hch])), List.map_cons]

theorem range_map_add (f : Nat → α) (a b : Nat) :
    (List.range (a + b)).map f = (List.range a).map f ++ (List.range b).map (fun i => f (a + i)) := by
  rw [List.range_add, List.map_append, List.map_map]; rfl

theorem drop_range_map (f : Nat → α) (a n m : Nat) (h : a + m ≤ n) :
    (((List.range n).map f).drop a).take m = (List.range m).map (fun i => f (a + i)) := by
  apply List.ext_getElem
  · simp; omega
  · intro i h1 h2
    simp

section
variable [Zero α] (C P p : Nat) (g : σ → List (List α) → σ × (Nat → Nat → α)) (s0 : σ) (X : Nat → Nat → α)

/-- The wrapper after `T` samples have been consumed and produced. -/
structure Inv (w : Wrapper σ α) (T : Nat) : Prop where
  inRep : Rep w.inBuf (fun ch => (List.range T).map (X ch))
  inCh : w.inBuf.channels = C
  inLen : w.inBuf.length = 2 * p
  outRep : Rep w.outBuf (fun ch => (List.range (p + T / p * p)).map (expected C p g s0 X ch))
  outCh : w.outBuf.channels = P
  outLen : w.outBuf.length = 2 * p
  inLevel : w.inLevel = T % p
  outLevel : w.outLevel = p - T % p
  st : w.st = stateAfter C p g s0 X (T / p)

theorem init_inv (hp : 0 < p) :
    ∃ w, Wrapper.init (totalFlow C P p g) s0 = .ok w ∧ Inv C P p g s0 X w 0 := by
  have h0 : Rep (CB.init P (2 * p) 0 : CB α) (fun _ => []) := rep_init _ _ _ (by omega)
  obtain ⟨ob, hob, hrep, hch, hlen⟩ := rep_write h0 (fun _ _ => 0) (n := p) (by simp only [CB.init]; omega)
  have hc : (CB.init P (2 * p) 0 : CB α).channels = P := rfl
  rw [hc] at hob hch
  refine ⟨_, by simp only [Wrapper.init, totalFlow, hob]; rfl, ?_⟩
  refine ⟨by simpa using rep_init C (2 * p) 0 (by omega), rfl, rfl, ?_, hch, hlen, by simp, by simp,
    by simp [stateAfter]⟩
  simp only [Nat.zero_div, Nat.zero_mul, Nat.add_zero]
  have : (fun ch => (List.range p).map (expected C p g s0 X ch)) = (fun (_ : Nat) => [] ++ (List.range p).map (fun _ => (0 : α))) := by
    funext ch
    rw [List.nil_append]
    apply List.map_congr_left
    intro i hi
    rw [List.mem_range] at hi
    simp only [expected, if_pos hi]
  rw [this]; exact hrep

theorem chunk_ok (hp : 0 < p) {w : Wrapper σ α} {T : Nat} (h : Inv C P p g s0 X w T) (cap : Nat → Nat → α)
    (remaining : Nat) (hr : 0 < remaining) (hcap : ∀ ch i, i < remaining → cap ch i = X ch (T + i)) :
    ∃ w' n, chunkStep (totalFlow C P p g) w cap remaining =
        (w', .ok (n, (List.range P).map fun ch => (List.range n).map fun i => expected C p g s0 X ch (T + i))) ∧
      0 < n ∧ n ≤ remaining ∧ Inv C P p g s0 X w' (T + n) := by
  have hmod : T % p < p := Nat.mod_lt _ hp
  have hdm : T / p * p + T % p = T := by rw [Nat.mul_comm]; exact Nat.div_add_mod T p
  obtain ⟨n, hn⟩ : ∃ n, n = min remaining (p - T % p) := ⟨_, rfl⟩
  have hn0 : 0 < n := by omega
  have hnr : n ≤ remaining := by omega
  have hnp : n ≤ p - T % p := by omega
  obtain ⟨ib, hib, hirep, hich, hilen⟩ := rep_directWrite h.inRep cap (n := n) (by rw [h.inLen]; omega)
  have hirep' : Rep ib (fun ch => (List.range (T + n)).map (X ch)) := by
    have : (fun ch => (List.range (T + n)).map (X ch)) =
        (fun ch => (List.range T).map (X ch) ++ (List.range n).map (cap ch)) := by
      funext ch
      rw [range_map_add]
      congr 1
      apply List.map_congr_left
      intro i hi
      rw [List.mem_range] at hi
      rw [hcap ch i (by omega)]
    rw [this]; exact hirep
  have hoRead : ∀ (ob : CB α) (K : Nat),
      Rep ob (fun ch => (List.range (p + K * p)).map (expected C p g s0 X ch)) → ob.channels = P →
      ob.length = 2 * p → T + n ≤ p + K * p → p + K * p - T ≤ 2 * p → ∀ lvl, lvl = p + K * p - T →
      readAll ob lvl n (List.range P) =
        .ok ((List.range P).map fun ch => (List.range n).map fun i => expected C p g s0 X ch (T + i)) := by
    intro ob K hrep hc hl h1 h2 lvl hlvl
    apply readAll_ok
    intro ch hch
    rw [List.mem_range] at hch
    rw [rep_read_written hrep (by omega) (by omega) (by omega) (by simp; omega)]
    congr 1
    simp only [List.length_map, List.length_range]
    rw [drop_range_map _ _ _ _ (by omega)]
    apply List.map_congr_left
    intro i _
    congr 1; omega
  have hlevel : ¬ (totalFlow C P p g).period ≤ w.inLevel := by
    show ¬ p ≤ w.inLevel
    rw [h.inLevel]; omega
  have hper : (totalFlow C P p g).period = p := rfl
  have hpc : (totalFlow C P p g).playbackCh = P := rfl
  have hcc : (totalFlow C P p g).captureCh = C := rfl
  by_cases hfull : T % p + n = p
  · -- the period is completed in this chunk
    have hdiv : (T + n) / p = T / p + 1 := by
      rw [show T + n = (T / p + 1) * p by rw [Nat.add_mul]; omega, Nat.mul_div_cancel _ hp]
    have hmod' : (T + n) % p = 0 := by
      rw [show T + n = (T / p + 1) * p by rw [Nat.add_mul]; omega, Nat.mul_mod_left]
    have hblock : readAll ib p p (List.range C) = .ok (block C p X (T / p)) := by
      rw [readAll_ok ib p p (fun ch => (List.range p).map fun i => X ch (T / p * p + i))]
      · rfl
      · intro ch hch
        rw [List.mem_range] at hch
        rw [rep_read_written hirep' (by rw [hich, h.inCh]; exact hch) (Nat.le_refl p) (by rw [hilen, h.inLen]; omega)
          (by simp; omega)]
        congr 1
        simp only [List.length_map, List.length_range]
        rw [drop_range_map _ _ _ _ (by omega)]
        apply List.map_congr_left
        intro i _
        congr 1; omega
    obtain ⟨ob, hob, horep, hoch, holen⟩ := rep_directWrite h.outRep (blockOut C p g s0 X (T / p)) (n := p)
      (by rw [h.outLen]; omega)
    have horep' : Rep ob (fun ch => (List.range (p + (T / p + 1) * p)).map (expected C p g s0 X ch)) := by
      have : (fun ch => (List.range (p + (T / p + 1) * p)).map (expected C p g s0 X ch)) =
          (fun ch => (List.range (p + T / p * p)).map (expected C p g s0 X ch) ++
            (List.range p).map (blockOut C p g s0 X (T / p) ch)) := by
        funext ch
        rw [show p + (T / p + 1) * p = (p + T / p * p) + p by rw [Nat.add_mul]; omega, range_map_add]
        congr 1
        apply List.map_congr_left
        intro i hi
        rw [List.mem_range] at hi
        simp only [expected]
        rw [if_neg (by omega)]
        have h1 : (p + T / p * p + i) / p = T / p + 1 := by
          rw [show p + T / p * p + i = i + p * (T / p + 1) by ring, Nat.add_mul_div_left _ _ hp,
            Nat.div_eq_of_lt hi, Nat.zero_add]
        have h2 : (p + T / p * p + i) % p = i := by
          rw [show p + T / p * p + i = i + p * (T / p + 1) by ring, Nat.add_mul_mod_self_left, Nat.mod_eq_of_lt hi]
        rw [h1, h2, Nat.add_sub_cancel]
      rw [this]; exact horep
    have hgproc : ((totalFlow C P p g).proc w.st (block C p X (T / p))) =
        (stateAfter C p g s0 X (T / p + 1), .ok (blockOut C p g s0 X (T / p))) := by
      rw [h.st]; rfl
    have hrun : runFlow (totalFlow C P p g) { w with inBuf := ib, inLevel := w.inLevel + n } =
        ({ w with inBuf := ib, outBuf := ob, inLevel := 0, outLevel := w.outLevel + p,
                  st := stateAfter C p g s0 X (T / p + 1) }, .ok ()) := by
      simp only [runFlow, hper, hcc, hblock, hgproc, hob]
      rw [h.inLevel, show T % p + n - p = 0 by omega]
    have hkk : (T / p + 1) * p = T / p * p + p := by ring
    refine ⟨{ w with inBuf := ib, outBuf := ob, inLevel := 0, outLevel := w.outLevel + p - n,
                     st := stateAfter C p g s0 X (T / p + 1) }, n, ?_, hn0, hnr, ?_⟩
    · unfold chunkStep
      rw [if_neg hlevel]
      simp only [hper, h.inLevel, ← hn, hib]
      rw [if_pos hfull]
      have hrun' := hrun
      rw [h.inLevel] at hrun'
      simp only [hrun', hpc]
      rw [hoRead ob (T / p + 1) horep' (by rw [hoch, h.outCh]) (by rw [holen, h.outLen]) (by omega) (by omega) _
        (by rw [h.outLevel]; omega)]
      simp only
      rw [if_neg (by rw [h.outLevel]; omega)]
    · refine ⟨hirep', by rw [← h.inCh]; exact hich, by rw [← h.inLen]; exact hilen, by rw [hdiv]; exact horep',
        by rw [← h.outCh]; exact hoch, by rw [← h.outLen]; exact holen, by simp [hmod'], ?_, by rw [hdiv]⟩
      simp only [h.outLevel, hmod']; omega
  · have hlt : T % p + n < p := by omega
    have hn' : n = remaining := by omega
    have hdiv : (T + n) / p = T / p := by
      rw [show T + n = (T % p + n) + p * (T / p) by rw [Nat.mul_comm p]; omega, Nat.add_mul_div_left _ _ hp,
        Nat.div_eq_of_lt hlt, Nat.zero_add]
    have hmod' : (T + n) % p = T % p + n := by
      conv_lhs => rw [show T + n = (T % p + n) + p * (T / p) by rw [Nat.mul_comm p]; omega]
      rw [Nat.add_mul_mod_self_left, Nat.mod_eq_of_lt hlt]
    refine ⟨{ w with inBuf := ib, inLevel := w.inLevel + n, outLevel := w.outLevel - n }, n, ?_, hn0, hnr, ?_⟩
    · unfold chunkStep
      rw [if_neg hlevel]
      simp only [hper, h.inLevel, ← hn, hib]
      rw [if_neg hfull]
      simp only [hpc]
      rw [hoRead w.outBuf (T / p) h.outRep h.outCh h.outLen (by omega) (by omega) _
        (by rw [h.outLevel]; omega)]
      simp only
      rw [if_neg (by rw [h.outLevel]; omega)]
    · refine ⟨hirep', by rw [← h.inCh]; exact hich, by rw [← h.inLen]; exact hilen, by rw [hdiv]; exact h.outRep,
        h.outCh, h.outLen, by simp only [h.inLevel, hmod'], ?_, by rw [hdiv]; exact h.st⟩
      simp only [h.outLevel, hmod']; omega

/-- The chunks of a call are consecutive sections of the expected output. -/
inductive Chunks (T : Nat) : Nat → Nat → List (Nat × List (List α)) → Prop
  | nil (pos : Nat) : Chunks T pos 0 []
  | cons (pos n rest : Nat) (cs : List (Nat × List (List α))) (hn : 0 < n) : Chunks T (pos + n) rest cs →
    Chunks T pos (n + rest)
      ((pos, (List.range P).map fun ch => (List.range n).map fun i => expected C p g s0 X ch (T + pos + i)) :: cs)

theorem loop_ok (hp : 0 < p) (cap : Nat → Nat → α) (T fuel : Nat) (w : Wrapper σ α) (pos remaining : Nat)
    (hf : remaining ≤ fuel) (h : Inv C P p g s0 X w (T + pos))
    (hcap : ∀ ch i, i < pos + remaining → cap ch i = X ch (T + i)) :
    ∃ w' cs, loop (totalFlow C P p g) cap fuel w pos remaining = (w', .ok cs) ∧
      Inv C P p g s0 X w' (T + pos + remaining) ∧ Chunks C P p g s0 X T pos remaining cs := by
  induction fuel generalizing w pos remaining with
  | zero =>
    have : remaining = 0 := by omega
    subst this
    exact ⟨w, [], by simp [loop], h, .nil pos⟩
  | succ fuel ih =>
    by_cases hr : remaining = 0
    · subst hr
      exact ⟨w, [], by simp [loop], h, .nil pos⟩
    · obtain ⟨w1, n, hstep, hn0, hnr, hinv⟩ := chunk_ok C P p g s0 X hp h (fun ch i => cap ch (pos + i)) remaining
        (by omega) (fun ch i hi => by rw [hcap ch (pos + i) (by omega)]; congr 1; omega)
      obtain ⟨w2, cs, hloop, hinv2, hch⟩ := ih w1 (pos + n) (remaining - n) (by omega)
        (by rw [← Nat.add_assoc]; exact hinv) (fun ch i hi => hcap ch i (by omega))
      refine ⟨w2, (pos, (List.range P).map fun ch => (List.range n).map fun i => expected C p g s0 X ch (T + pos + i))
        :: cs, ?_, ?_, ?_⟩
      · rw [loop, if_neg hr]
        simp only [hstep, hloop]
      · rw [show T + pos + remaining = T + (pos + n) + (remaining - n) by omega]; exact hinv2
      · have := Chunks.cons (C := C) (P := P) (p := p) (g := g) (s0 := s0) (X := X) pos n (remaining - n) cs hn0 hch
        rwa [show n + (remaining - n) = remaining by omega] at this

theorem chunks_mem {T pos remaining : Nat} {cs : List (Nat × List (List α))}
    (h : Chunks C P p g s0 X T pos remaining cs) (mem : Nat → Nat → α) (ch i : Nat) :
    cs.foldl storePtr mem ch i =
      if ch < P ∧ pos ≤ i ∧ i < pos + remaining then expected C p g s0 X ch (T + i) else mem ch i := by
  induction h generalizing mem with
  | nil pos => simp only [List.foldl_nil]; rw [if_neg (by omega)]
  | cons pos n rest cs hn _ ih =>
    rw [List.foldl_cons, ih]
    by_cases h1 : ch < P ∧ pos + n ≤ i ∧ i < pos + n + rest
    · rw [if_pos h1, if_pos (by omega)]
    · rw [if_neg h1]
      simp only [storePtr]
      by_cases h2 : i < pos
      · rw [if_pos h2, if_neg (by omega)]
      · rw [if_neg h2]
        by_cases h3 : ch < P
        · rw [List.getElem?_map, List.getElem?_range h3]
          simp only [Option.map_some]
          by_cases h4 : i < pos + n
          · rw [List.getElem?_map, List.getElem?_range (by omega), if_pos (by omega)]
            simp only [Option.map_some]
            congr 1; omega
          · rw [List.getElem?_eq_none (by simp; omega), if_neg (by omega)]
        · rw [List.getElem?_eq_none (by simp; omega), if_neg (by omega)]

theorem process_ok (hp : 0 < p) {w : Wrapper σ α} {T : Nat} (h : Inv C P p g s0 X w T)
    (play : Nat → Nat → α) (n : Nat) :
    ∃ w' m, process (totalFlow C P p g) w (fun ch i => X ch (T + i)) play n = (w', .ok m) ∧
      Inv C P p g s0 X w' (T + n) ∧
      ∀ ch i, m ch i = if ch < P ∧ i < n then expected C p g s0 X ch (T + i) else play ch i := by
  obtain ⟨w', cs, h1, h2, h3⟩ := loop_ok C P p g s0 X hp (fun ch i => X ch (T + i)) T n w 0 n (Nat.le_refl n)
    (by simpa using h) (fun _ _ _ => rfl)
  refine ⟨w', cs.foldl storePtr play, by simp only [process, h1], by simpa using h2, ?_⟩
  intro ch i
  rw [chunks_mem C P p g s0 X h3]
  simp
end

end Visr.FlexibleBuffer
