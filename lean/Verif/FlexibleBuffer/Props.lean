import Verif.FlexibleBuffer.Lemmas

/-!
# The flexible buffer wrapper delays the wrapped flow by exactly one period (C07)
-/

namespace Visr.FlexibleBuffer
open Visr Visr.CircularBuffer

variable {σ : Type u} {α : Type v}

theorem runCalls_ok [Zero α] (C P p : Nat) (g : σ → List (List α) → σ × (Nat → Nat → α)) (s0 : σ) (X : Nat → Nat → α)
    (hp : 0 < p) (calls : List (Nat × (Nat → Nat → α))) (w : Wrapper σ α) (T : Nat) (h : Inv C P p g s0 X w T) :
    ∃ w' ms, runCalls (totalFlow C P p g) X w T calls = (w', .ok ms) ∧
      w'.st = stateAfter C p g s0 X ((T + offset calls calls.length) / p) ∧ ms.length = calls.length ∧
      ∀ (j : Nat) n play m, calls[j]? = some (n, play) → ms[j]? = some m → ∀ ch i,
        m ch i = if ch < P ∧ i < n then expected C p g s0 X ch (T + offset calls j + i) else play ch i := by
  induction calls generalizing w T with
  | nil => exact ⟨w, [], rfl, by simpa [offset] using h.st, rfl, by simp⟩
  | cons c cs ih =>
    obtain ⟨n, play⟩ := c
    obtain ⟨w1, m, h1, h2, h3⟩ := process_ok C P p g s0 X hp h play n
    obtain ⟨w2, ms, h4, h5, h6, h7⟩ := ih w1 (T + n) h2
    refine ⟨w2, m :: ms, by simp only [runCalls, h1, h4], ?_, by simp [h6], ?_⟩
    · rw [h5]; simp only [offset, List.length_cons, List.take_succ_cons, List.map_cons, List.sum_cons, Nat.add_assoc]
    · intro j n' play' m' hc hm
      cases j with
      | zero =>
        simp only [List.getElem?_cons_zero, Option.some.injEq, Prod.mk.injEq] at hc hm
        obtain ⟨rfl, rfl⟩ := hc
        subst hm
        simpa [offset] using h3
      | succ j =>
        simp only [List.getElem?_cons_succ] at hc hm
        intro ch i
        rw [h7 j n' play' m' hc hm ch i]
        simp only [offset, List.take_succ_cons, List.map_cons, List.sum_cons, Nat.add_assoc]

/-- C07: wrap any flow with a positive period `p` that does not throw, and call `process` with any sequence of buffer
sizes on consecutive sections of any input signals `X`. All calls succeed; call `j` fills, on every playback channel,
exactly its `n` samples, with the samples `offset j, offset j + 1, ...` of the expected signal (one period of zeros, then
the outputs of the flow run on consecutive complete blocks of the input), touching nothing else; and in the end the
flow has been run on exactly the complete blocks. -/
theorem flexibleBuffer_delays_by_one_period [Zero α] (C P p : Nat) (g : σ → List (List α) → σ × (Nat → Nat → α)) (s0 : σ)
    (hp : 0 < p) (X : Nat → Nat → α) (calls : List (Nat × (Nat → Nat → α))) :
    ∃ w w' ms, Wrapper.init (totalFlow C P p g) s0 = .ok w ∧
      runCalls (totalFlow C P p g) X w 0 calls = (w', .ok ms) ∧
      w'.st = stateAfter C p g s0 X (offset calls calls.length / p) ∧ ms.length = calls.length ∧
      ∀ (j : Nat) n play m, calls[j]? = some (n, play) → ms[j]? = some m → ∀ ch i,
        m ch i = if ch < P ∧ i < n then expected C p g s0 X ch (offset calls j + i) else play ch i := by
  obtain ⟨w, hw, hinv⟩ := init_inv C P p g s0 X hp
  obtain ⟨w', ms, h1, h2, h3, h4⟩ := runCalls_ok C P p g s0 X hp calls w 0 hinv
  refine ⟨w, w', ms, hw, h1, by simpa using h2, h3, ?_⟩
  intro j n play m hc hm ch i
  rw [h4 j n play m hc hm ch i, Nat.zero_add]

/-- Non-vacuity: a running-sum flow with period 2, one channel, input 1, 2, 3, 4, ...: after the two zeros the
block-wise sums appear. -/
example : let g : Int → List (List Int) → Int × (Nat → Nat → Int) :=
      fun s b => (s + (b.map List.sum).sum, fun _ _ => s + (b.map List.sum).sum)
    (List.range 7).map (expected 1 2 g 0 (fun _ t => (t : Int) + 1) 0) = [0, 0, 3, 3, 10, 10, 21] := by decide

/-! ## The overload with strides -/

theorem pokeStrided_one (mem : Nat → α) (a : Nat) (vs : List α) (x : Nat) :
    pokeStrided 1 mem a vs x = if a ≤ x then (vs[x - a]?).getD (mem x) else mem x := by
  induction vs generalizing mem a with
  | nil => simp [pokeStrided]
  | cons v vs ih =>
    rw [pokeStrided, ih]
    by_cases h1 : a + 1 ≤ x
    · rw [if_pos h1, if_pos (by omega), show x - a = (x - (a + 1)) + 1 by omega, List.getElem?_cons_succ]
      simp only [poke]
      rw [if_neg (by omega)]
    · rw [if_neg h1]
      simp only [poke]
      by_cases h2 : x = a
      · subst h2; simp
      · rw [if_neg h2, if_neg (by omega)]

/-- Value of the memory after the copies of one chunk at offset `pos`, provided the channels do not overlap. -/
theorem storeChannels_val (S n pos : Nat) (hS : pos + n ≤ S) (f : Nat → Nat → α) (k : Nat) (mem : Nat → α) (b : Nat)
    (ch x : Nat) (hx : x < S) :
    storeChannels S 1 mem (b * S + pos) ((List.range k).map fun c => (List.range n).map (f (b + c))) (ch * S + x) =
      if b ≤ ch ∧ ch < b + k ∧ pos ≤ x ∧ x < pos + n then f ch (x - pos) else mem (ch * S + x) := by
  induction k generalizing mem b with
  | zero => simp only [List.range_zero, List.map_nil, storeChannels]; rw [if_neg (by omega)]
  | succ k ih =>
    rw [List.range_succ_eq_map, List.map_cons, List.map_map, storeChannels]
    have h1 := ih (pokeStrided 1 mem (b * S + pos) ((List.range n).map (f (b + 0)))) (b + 1)
    have h2 : ((fun c => (List.range n).map (f (b + c))) ∘ Nat.succ) =
        (fun c => (List.range n).map (f (b + 1 + c))) := by
      funext c; simp only [Function.comp, Nat.succ_eq_add_one]; congr 2; omega
    rw [h2, show b * S + pos + S = (b + 1) * S + pos by ring, h1]
    by_cases hc : b + 1 ≤ ch ∧ ch < b + 1 + k ∧ pos ≤ x ∧ x < pos + n
    · rw [if_pos hc, if_pos (by omega)]
    · rw [if_neg hc, pokeStrided_one]
      by_cases hb : ch = b
      · subst hb
        by_cases h3 : pos ≤ x ∧ x < pos + n
        · rw [if_pos (by omega), if_pos (by omega), show ch * S + x - (ch * S + pos) = x - pos by omega,
            List.getElem?_map, List.getElem?_range (by omega)]
          simp
        · rw [if_neg (by omega : ¬ (ch ≤ ch ∧ ch < ch + (k + 1) ∧ pos ≤ x ∧ x < pos + n))]
          by_cases h4 : ch * S + pos ≤ ch * S + x
          · rw [if_pos h4, List.getElem?_eq_none (by simp; omega)]; rfl
          · rw [if_neg h4]
      · rw [if_neg (by omega : ¬ (b ≤ ch ∧ ch < b + (k + 1) ∧ pos ≤ x ∧ x < pos + n))]
        by_cases hlt : ch < b
        · have : (ch + 1) * S ≤ b * S := Nat.mul_le_mul_right _ hlt
          have : (ch + 1) * S = ch * S + S := by ring
          rw [if_neg (by omega)]
        · have : (b + 1) * S ≤ ch * S := Nat.mul_le_mul_right _ (by omega)
          have : (b + 1) * S = b * S + S := by ring
          rw [if_pos (by omega), List.getElem?_eq_none (by simp; omega)]; rfl

theorem chunks_mem_strided [Zero α] (C P p : Nat) (g : σ → List (List α) → σ × (Nat → Nat → α)) (s0 : σ)
    (X : Nat → Nat → α) {T pos remaining : Nat} {cs : List (Nat × List (List α))}
    (h : Chunks C P p g s0 X T pos remaining cs) (S : Nat) (hS : pos + remaining ≤ S) (mem : Nat → α) (ch x : Nat)
    (hx : x < S) :
    cs.foldl (fun m c => storeChannels S 1 m c.1 c.2) mem (ch * S + x) =
      if ch < P ∧ pos ≤ x ∧ x < pos + remaining then expected C p g s0 X ch (T + x) else mem (ch * S + x) := by
  induction h generalizing mem with
  | nil pos => simp only [List.foldl_nil]; rw [if_neg (by omega)]
  | cons pos n rest cs hn _ ih =>
    rw [List.foldl_cons, ih (by omega)]
    by_cases h1 : ch < P ∧ pos + n ≤ x ∧ x < pos + n + rest
    · rw [if_pos h1, if_pos (by omega)]
    · rw [if_neg h1]
      have h2 := storeChannels_val S n pos (by omega) (fun c i => expected C p g s0 X c (T + pos + i)) P mem 0 ch x hx
      simp only [Nat.zero_mul, Nat.zero_add] at h2
      rw [h2]
      by_cases h3 : ch < P ∧ pos ≤ x ∧ x < pos + n
      · rw [if_pos (by omega), if_pos (by omega)]; congr 1; omega
      · rw [if_neg (by omega), if_neg (by omega)]

/-- C07 for the overload with strides, **partial**: for interleaved or non-interleaved capture data, but only for playback
data with sample stride 1 (and channels that do not overlap), a call on a fresh wrapper produces the expected samples at
`ch * playbackChannelStride + i`. Missing: playback sample strides other than 1, for which the claim is false
(`flexibleBuffer_strided_output_misplaced`). -/
theorem flexibleBuffer_strided_partial [Zero α] (C P p : Nat) (g : σ → List (List α) → σ × (Nat → Nat → α)) (s0 : σ)
    (hp : 0 < p) (cap play : Nat → α) (capCh capSmp playCh n : Nat) (hplay : n ≤ playCh) :
    ∃ w w' m, Wrapper.init (totalFlow C P p g) s0 = .ok w ∧
      processStrided (totalFlow C P p g) w cap capCh capSmp play playCh 1 n = (w', .ok m) ∧
      ∀ ch x, x < playCh → m (ch * playCh + x) =
        if ch < P ∧ x < n then expected C p g s0 (fun c i => cap (i * capSmp + c * capCh)) ch x
        else play (ch * playCh + x) := by
  obtain ⟨w, hw, hinv⟩ := init_inv C P p g s0 (fun c i => cap (i * capSmp + c * capCh)) hp
  obtain ⟨w', cs, h1, _, h3⟩ := loop_ok C P p g s0 _ hp (fun c i => cap (i * capSmp + c * capCh)) 0 n w 0 n
    (Nat.le_refl n) hinv (fun _ _ _ => by simp)
  refine ⟨w, w', cs.foldl (fun m c => storeChannels playCh 1 m c.1 c.2) play, hw, by simp only [processStrided, h1], ?_⟩
  intro ch x hx
  rw [chunks_mem_strided C P p g s0 _ h3 playCh (by omega) play ch x hx]
  simp

/-- The code violates C07 for interleaved playback data: with one playback channel, sample stride 2, period 1 and the
identity as the flow, two samples 7, 8 are consumed; the output samples 0, 7 belong to addresses 0 and 2, but the second
one is stored at address 1 (`flexible_buffer_wrapper.cpp:161` lacks the stride). -/
theorem flexibleBuffer_strided_output_misplaced :
    let F : Flow Unit Int := totalFlow 1 1 1 (fun _ b => ((), fun ch i => (b[ch]?.bind (·[i]?)).getD 0))
    ∃ w w' m, Wrapper.init F () = .ok w ∧
      processStrided F w (fun a => if a = 0 then 7 else 8) 2 1 (fun _ => -1) 4 2 2 = (w', .ok m) ∧
      m 0 = 0 ∧ m 2 = -1 ∧ m 1 = 7 := by
  intro F
  have hd : (match Wrapper.init F () with
      | .ok w => (match (processStrided F w (fun a => if a = 0 then 7 else 8) 2 1 (fun _ => -1) 4 2 2).2 with
        | .ok m => some (m 0, m 2, m 1)
        | _ => none)
      | _ => none) = some (0, -1, 7) := by decide +kernel
  split at hd
  · rename_i w hw
    split at hd
    · rename_i m hm
      simp only [Option.some.injEq, Prod.mk.injEq] at hd
      exact ⟨w, _, m, hw, Prod.ext rfl hm, hd.1, hd.2.1, hd.2.2⟩
    · simp at hd
  · simp at hd

/-! ## A flow that throws -/

/-- If the flow throws, the wrapper is left with a full input buffer: the exception reaches the caller, and every later
non-empty call violates the loop's assertion (without assertions, it never returns). -/
theorem flexibleBuffer_unusable_after_exception [Zero α] (F : Flow σ α) (s0 s1 : σ) (e : Exn) (hp : 0 < F.period)
    (X play : Nat → Nat → α) (n : Nat) (hn : F.period ≤ n)
    (hthrow : F.proc s0 (block F.captureCh F.period X 0) = (s1, .throw e)) :
    ∃ w w', Wrapper.init F s0 = .ok w ∧ process F w X play n = (w', .throw e) ∧
      ∀ cap play' m, 0 < m → (process F w' cap play' m).2 = .ub := by
  have h0 : Rep (CB.init F.playbackCh (2 * F.period) 0 : CB α) (fun _ => []) := rep_init _ _ _ (by omega)
  obtain ⟨ob, hob, -, -, -⟩ := rep_write h0 (fun _ _ => 0) (n := F.period) (by simp only [CB.init]; omega)
  have hc : (CB.init F.playbackCh (2 * F.period) 0 : CB α).channels = F.playbackCh := rfl
  rw [hc] at hob
  have hi0 : Rep (CB.init F.captureCh (2 * F.period) 0 : CB α) (fun _ => []) := rep_init _ _ _ (by omega)
  obtain ⟨ib, hib, hirep, hich, hilen⟩ := rep_directWrite hi0 X (n := F.period) (by simp only [CB.init]; omega)
  have hic : ib.channels = F.captureCh := hich
  have hil : ib.length = 2 * F.period := hilen
  have hblock : readAll ib F.period F.period (List.range F.captureCh) = .ok (block F.captureCh F.period X 0) := by
    rw [readAll_ok ib F.period F.period (fun ch => (List.range F.period).map fun i => X ch i)]
    · simp [block]
    · intro ch hch
      rw [List.mem_range] at hch
      rw [rep_read_written hirep (by omega) (Nat.le_refl _) (by omega) (by simp)]
      simp [List.take_of_length_le]
  refine ⟨⟨CB.init F.captureCh (2 * F.period) 0, ob, 0, F.period, s0⟩, ⟨ib, ob, F.period, F.period, s1⟩,
    by simp only [Wrapper.init, hob], ?_, ?_⟩
  · have hmin : min n (F.period - 0) = F.period := by omega
    have hstep : chunkStep F ⟨CB.init F.captureCh (2 * F.period) 0, ob, 0, F.period, s0⟩ X n =
        (⟨ib, ob, F.period, F.period, s1⟩, .throw e) := by
      unfold chunkStep
      rw [if_neg (by simp; omega)]
      simp only [hmin, hib, Nat.zero_add, if_true]
      simp only [runFlow, hblock, hthrow]
    obtain ⟨k, rfl⟩ : ∃ k, n = k + 1 := ⟨n - 1, by omega⟩
    simp only [process]
    rw [loop, if_neg (by omega)]
    simp only [Nat.zero_add, hstep]
  · intro cap play' m hm
    obtain ⟨k, rfl⟩ : ∃ k, m = k + 1 := ⟨m - 1, by omega⟩
    simp only [process]
    rw [loop, if_neg (by omega)]
    simp only [chunkStep, Nat.le_refl, if_true]

/-- Non-vacuity: a flow that rejects every block. -/
example : let F : Flow Unit Int := ⟨1, 1, 4, fun s _ => (s, .throw .runtimeError)⟩
    0 < F.period ∧ F.proc () (block F.captureCh F.period (fun _ _ => 0) 0) = ((), .throw .runtimeError) := by
  refine ⟨by decide, rfl⟩

end Visr.FlexibleBuffer
