import Verif.CircularBuffer.Lemmas

/-!
# The circular buffer returns the past exactly (C06)
-/

namespace Visr.CircularBuffer
open Visr

/-! ## C06 -/

/-- C06: take a buffer of any positive length and any alignment, and feed it any sequence of blocks, each not longer than
the buffer. No write fails or leaves the allocated memory. Afterwards, on every channel, reading `n` samples with delay `d`
(`n ≤ d ≤ length`) stays inside the row and returns exactly the samples handed over `d, d-1, ..., d-n+1` sample periods
ago (zeros before the first write). -/
theorem circularBuffer_returns_past [Zero α] (channels length align : Nat) (hlen : 0 < length)
    (ks : List (Block α)) (hks : ∀ k ∈ ks, k.n ≤ length) :
    ∃ b, feed (CB.init channels length align) ks = .ok b ∧
      ∀ ch < channels, ∀ d n, n ≤ d → d ≤ length →
        b.read ch d n = .ok ((List.range n).map fun i => past (signal ch ks) (d - i)) := by
  have hrel : Rel (CB.init channels length align : CB α) (fun _ d => past [] d) := by
    have := le_nextAlignedSize length align
    refine ⟨by simp only [CB.init]; omega, this, by simp only [CB.init]; omega, fun _ _ _ _ => rfl, ?_⟩
    intro ch _ d h1 _
    simp only [CB.init, past, List.length_nil]
    rw [if_neg (by omega)]
  obtain ⟨b, hb, hr, hc, hl⟩ := rel_feed hrel ks hks
  refine ⟨b, hb, ?_⟩
  intro ch hch d n hnd hd
  have hL := hr.len
  have hw := hr.w
  have hchannels : b.channels = channels := hc
  have hlength : b.length = length := hl
  simp only [CB.read]
  rw [if_neg (by omega)]
  congr 1
  apply List.map_congr_left
  intro i hi
  rw [List.mem_range] at hi
  have := hr.past ch (by omega) (d - i) (by omega) (by omega)
  rw [show b.alloc + b.w - d + i = b.alloc + b.w - (d - i) by omega, this]
  have := foldl_pushPast_eq ks (fun _ => []) ch (d - i) (by omega)
  simpa using this

/-- The range-checked accessor accepts exactly the delays below the length, for which it reads the same samples. -/
theorem circularBuffer_checked_read [Zero α] (b : CB α) (ch d n : Nat) :
    (d < b.length → b.readChecked ch d n = b.read ch d n) ∧
    (b.length ≤ d → b.readChecked ch d n = .throw .invalidArgument) := by
  unfold CB.readChecked
  constructor
  · intro h; rw [if_neg (by omega)]
  · intro h; rw [if_pos h]

/-- Non-vacuity: two blocks (one through `write`, one through the write pointers) that wrap around in a buffer of
length 3. -/
example : let ks : List (Block Int) := [⟨2, fun _ i => i + 1, false⟩, ⟨3, fun _ i => 10 * (i + 1), true⟩]
    (∀ k ∈ ks, k.n ≤ 3) ∧ signal 0 ks = [1, 2, 10, 20, 30] ∧ past (signal 0 ks) 3 = 10 := by
  refine ⟨by simp, by decide, by decide⟩

/-- Too large blocks are refused; a buffer of length zero cannot even take an empty block (division by zero). -/
theorem circularBuffer_write_too_long (b : CB α) (data : Nat → Nat → α) (n : Nat) (h : b.length < n) :
    b.write data b.channels n = .throw .invalidArgument := by
  simp only [CB.write]; rw [if_neg (by simp), if_pos h]

/-- A write with a wrong number of channels or too many samples throws; all other writes to a buffer that is in use succeed
(`circularBuffer_returns_past`). -/
theorem circularBuffer_write_rejects (b : CB α) (data : Nat → Nat → α) (numChannels n : Nat)
    (h : numChannels ≠ b.channels ∨ b.length < n) : b.write data numChannels n = .throw .invalidArgument := by
  unfold CB.write
  by_cases hc : numChannels ≠ b.channels
  · rw [if_pos hc]
  · rw [if_neg hc, if_pos (by rcases h with h | h; exact absurd h hc; exact h)]

theorem circularBuffer_empty_ub [Zero α] (channels align : Nat) (data : Nat → Nat → α) :
    (CB.init channels 0 align : CB α).write data channels 0 = .ub := by
  have h0 : nextAlignedSize 0 align = 0 := by simp [nextAlignedSize]
  simp [CB.write, CB.init, h0, CB.advance]

end Visr.CircularBuffer
