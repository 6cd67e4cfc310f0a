import Verif.CircularBuffer.Spec
import Mathlib.Tactic.Common
import Mathlib.Tactic.SplitIfs

/-! # Helper facts about the circular buffer -/

namespace Visr.CircularBuffer
open Visr

theorem le_nextAlignedSize (n a : Nat) : n ≤ nextAlignedSize n a := by
  unfold nextAlignedSize
  split
  · exact Nat.le_refl _
  · rename_i ha
    split
    · exact Nat.le_refl _
    · have h1 := Nat.div_add_mod n a
      have h2 := Nat.mod_lt n (Nat.pos_of_ne_zero ha)
      rw [Nat.add_mul, Nat.mul_comm (n / a) a]; omega

/-- Relation between a buffer and the past: `H ch d` is the sample written `d` periods ago. -/
structure Rel (b : CB α) (H : Nat → Nat → α) : Prop where
  apos : 0 < b.alloc
  len : b.length ≤ b.alloc
  w : b.w < b.alloc
  mirror : ∀ ch < b.channels, ∀ i < b.alloc, b.row ch (i + b.alloc) = b.row ch i
  past : ∀ ch < b.channels, ∀ d, 1 ≤ d → d ≤ b.alloc → b.row ch (b.alloc + b.w - d) = H ch d

/-- The past after writing a block. -/
def pushPast (H : Nat → Nat → α) (data : Nat → Nat → α) (n : Nat) : Nat → Nat → α :=
  fun ch d => if d ≤ n then data ch (n - d) else H ch (d - n)

/-- Closed form of one write of at most `A` samples at `w`, without wrap-around. -/
theorem writeRow_nowrap (r src : Nat → α) (A w n j : Nat) (hw : w + n < A) :
    advanceRow A w n (blit r w n src) j =
      if w ≤ j ∧ j < w + n then src (j - w)
      else if w + A ≤ j ∧ j < w + A + n then src (j - (w + A)) else r j := by
  have e1 : min (w + n) A - w = n := by omega
  simp only [advanceRow, e1]
  rw [if_neg (Nat.lt_irrefl n)]
  unfold blit
  by_cases h1 : w ≤ j ∧ j < w + n
  · rw [if_neg (by omega), if_pos h1, if_pos h1]
  · rw [if_neg h1]
    by_cases h2 : w + A ≤ j ∧ j < w + A + n
    · rw [if_pos h2, if_pos h2]
      simp only
      rw [if_neg h1, if_pos (by omega), show w + (j - (w + A)) - w = j - (w + A) by omega]
    · rw [if_neg h2, if_neg h2, if_neg h1]

/-- Closed form of one write of at most `A` samples at `w` that reaches or crosses the end of the first half. -/
theorem writeRow_wrap (r src : Nat → α) (A w n j : Nat) (hw : w < A) (hn : n ≤ A) (hwn : A ≤ w + n) :
    advanceRow A w n (blit r w n src) j =
      if j < w + n - A then src (j + A - w)
      else if w ≤ j ∧ j < w + n then src (j - w)
      else if w + A ≤ j ∧ j < A + A then src (j - (w + A)) else r j := by
  have e1 : min (w + n) A - w = A - w := by omega
  have key : ∀ j, blit (blit r w n src) (w + A) (A - w) (fun i => blit r w n src (w + i)) j =
      if w ≤ j ∧ j < w + n then src (j - w)
      else if w + A ≤ j ∧ j < A + A then src (j - (w + A)) else r j := by
    intro j
    unfold blit
    by_cases h1 : w ≤ j ∧ j < w + n
    · rw [if_neg (by omega), if_pos h1, if_pos h1]
    · rw [if_neg h1]
      by_cases h2 : w + A ≤ j ∧ j < A + A
      · rw [if_pos (by omega), if_pos h2]
        simp only
        rw [if_neg h1, if_pos (by omega), show w + (j - (w + A)) - w = j - (w + A) by omega]
      · rw [if_neg (by omega), if_neg h2, if_neg h1]
  simp only [advanceRow, e1]
  split
  · by_cases h0 : j < w + n - A
    · rw [if_pos h0, blit, if_pos (by omega), key, if_pos (by omega)]
      congr 1; omega
    · rw [if_neg h0, blit, if_neg (by omega), key]
  · rw [if_neg (by omega), key]

theorem rel_advance {b : CB α} {H : Nat → Nat → α} (h : Rel b H) (data : Nat → Nat → α) {n : Nat}
    (hn : n ≤ b.length) :
    ∃ b', CB.advance { b with row := fun ch => if ch < b.channels then blit (b.row ch) b.w n (data ch) else b.row ch } n
        = .ok b' ∧ Rel b' (pushPast H data n) ∧ b'.channels = b.channels ∧ b'.length = b.length := by
  obtain ⟨hA, hL, hw, hm, hp⟩ := h
  obtain ⟨C, L, A, row, w⟩ := b
  simp only at *
  have hnA : n ≤ A := Nat.le_trans hn hL
  simp only [CB.advance]
  rw [if_neg (by omega), if_neg (by omega)]
  refine ⟨_, rfl, ?_, rfl, rfl⟩
  by_cases hcase : w + n < A
  · have hmod : (w + n) % A = w + n := Nat.mod_eq_of_lt hcase
    refine ⟨hA, hL, Nat.mod_lt _ hA, ?_, ?_⟩
    · intro ch hch i hi
      simp only at hch hi ⊢
      simp only [hch, if_true]
      rw [writeRow_nowrap _ _ _ _ _ _ hcase, writeRow_nowrap _ _ _ _ _ _ hcase]
      have := hm ch hch i hi
      by_cases h1 : w ≤ i ∧ i < w + n
      · rw [if_neg (by omega), if_pos (by omega), if_pos h1]; congr 1; omega
      · rw [if_neg (by omega), if_neg (by omega), if_neg h1, if_neg (by omega)]; exact this
    · intro ch hch d hd1 hd2
      simp only at hch hd2 ⊢
      simp only [hch, if_true, pushPast, hmod]
      rw [writeRow_nowrap _ _ _ _ _ _ hcase]
      by_cases hdn : d ≤ n
      · rw [if_pos hdn, if_neg (by omega), if_pos (by omega)]; congr 1; omega
      · rw [if_neg hdn, if_neg (by omega), if_neg (by omega), ← hp ch hch (d - n) (by omega) (by omega)]
        congr 1; omega
  · have hmod : (w + n) % A = w + n - A := by
      rw [Nat.mod_eq_sub_mod (by omega), Nat.mod_eq_of_lt (by omega)]
    refine ⟨hA, hL, Nat.mod_lt _ hA, ?_, ?_⟩
    · intro ch hch i hi
      simp only at hch hi ⊢
      simp only [hch, if_true]
      rw [writeRow_wrap _ _ _ _ _ _ hw hnA (by omega), writeRow_wrap _ _ _ _ _ _ hw hnA (by omega)]
      have := hm ch hch i hi
      by_cases h0 : i < w + n - A
      · rw [if_neg (by omega), if_pos (by omega), if_pos h0]
      · rw [if_neg (by omega), if_neg h0]
        by_cases h1 : w ≤ i ∧ i < w + n
        · rw [if_neg (by omega), if_pos (by omega), if_pos h1]; congr 1; omega
        · rw [if_neg (by omega), if_neg (by omega), if_neg h1, if_neg (by omega)]; exact this
    · intro ch hch d hd1 hd2
      simp only at hch hd2 ⊢
      simp only [hch, if_true, pushPast, hmod]
      rw [writeRow_wrap _ _ _ _ _ _ hw hnA (by omega)]
      by_cases hdn : d ≤ n
      · rw [if_pos hdn, if_neg (by omega), if_pos (by omega)]; congr 1; omega
      · rw [if_neg hdn, if_neg (by omega), if_neg (by omega), if_neg (by omega),
          ← hp ch hch (d - n) (by omega) (by omega)]
        have h2 := hm ch hch (w + n - d) (by omega)
        rw [show A + w - (d - n) = w + n - d + A by omega, h2]
        congr 1; omega

theorem rel_feed {b : CB α} {H : Nat → Nat → α} (h : Rel b H) (ks : List (Block α))
    (hks : ∀ k ∈ ks, k.n ≤ b.length) :
    ∃ b', feed b ks = .ok b' ∧ Rel b' (ks.foldl (fun H k => pushPast H k.data k.n) H) ∧
      b'.channels = b.channels ∧ b'.length = b.length := by
  induction ks generalizing b H with
  | nil => exact ⟨b, rfl, h, rfl, rfl⟩
  | cons k ks ih =>
    have hk := hks k (by simp)
    obtain ⟨b1, hb1, hr1, hc1, hl1⟩ := rel_advance h k.data hk
    have hA := h.len
    have hw := h.w
    have hstep : (if k.direct then b.directWrite k.data k.n else b.write k.data b.channels k.n) = .ok b1 := by
      split
      · simp only [CB.directWrite]
        rw [if_neg (by omega), if_neg (by omega), hb1]
      · simp only [CB.write]
        rw [if_neg (by simp), if_neg (by omega), if_neg (by omega), hb1]
    obtain ⟨b2, hb2, hr2, hc2, hl2⟩ := ih hr1 (fun k' hk' => by rw [hl1]; exact hks k' (by simp [hk']))
    refine ⟨b2, ?_, hr2, by rw [hc2, hc1], by rw [hl2, hl1]⟩
    simp only [feed, hstep, hb2]


/-- The past of a signal extended by a block. -/
theorem pushPast_eq [Zero α] (s : List α) (H : Nat → Nat → α) (data : Nat → Nat → α) (n ch d : Nat) (hd : 1 ≤ d)
    (hH : ∀ d, 1 ≤ d → H ch d = past s d) :
    pushPast H data n ch d = past (s ++ (List.range n).map (data ch)) d := by
  simp only [pushPast, past, List.length_append, List.length_map, List.length_range]
  by_cases hdn : d ≤ n
  · rw [if_pos hdn, if_pos (by omega)]
    rw [List.getD_eq_getElem?_getD, List.getElem?_append_right (by omega)]
    rw [List.getElem?_map, List.getElem?_range (by omega)]
    simp only [Option.map_some, Option.getD_some]
    congr 1; omega
  · rw [if_neg hdn, hH _ (by omega), past]
    by_cases hl : d ≤ s.length + n
    · rw [if_pos hl, if_pos (by omega)]
      rw [List.getD_eq_getElem?_getD, List.getD_eq_getElem?_getD, List.getElem?_append_left (by omega)]
      congr 2; omega
    · rw [if_neg hl, if_neg (by omega)]

theorem foldl_pushPast_eq [Zero α] (ks : List (Block α)) (s : Nat → List α) (ch d : Nat) (hd : 1 ≤ d) :
    ks.foldl (fun H k => pushPast H k.data k.n) (fun ch d => past (s ch) d) ch d =
      past (s ch ++ signal ch ks) d := by
  suffices hgen : ∀ (H : Nat → Nat → α), (∀ ch d, 1 ≤ d → H ch d = past (s ch) d) →
      ks.foldl (fun H k => pushPast H k.data k.n) H ch d = past (s ch ++ signal ch ks) d from hgen _ (fun _ _ _ => rfl)
  induction ks generalizing s with
  | nil => intro H hH; simp [signal, hH ch d hd]
  | cons k ks ih =>
    intro H hH
    simp only [List.foldl_cons]
    rw [ih (fun ch => s ch ++ (List.range k.n).map (k.data ch))]
    · simp only [signal, List.append_assoc]
    · intro ch d hd
      exact pushPast_eq (s ch) H k.data k.n ch d hd (fun d hd => hH ch d hd)

/-! ### Buffers representing a signal -/

/-- The buffer holds the most recent part of the signals `s ch`. -/
def Rep [Zero α] (b : CB α) (s : Nat → List α) : Prop := Rel b (fun ch d => past (s ch) d)

theorem rep_init [Zero α] (channels length align : Nat) (hlen : 0 < length) :
    Rep (CB.init channels length align : CB α) (fun _ => []) := by
  have := le_nextAlignedSize length align
  refine ⟨by simp only [CB.init]; omega, this, by simp only [CB.init]; omega, fun _ _ _ _ => rfl, ?_⟩
  intro ch _ d h1 _
  simp only [CB.init, past, List.length_nil]
  rw [if_neg (by omega)]

theorem rep_advance [Zero α] {b : CB α} {s : Nat → List α} (h : Rep b s) (data : Nat → Nat → α) {n : Nat}
    (hn : n ≤ b.length) :
    ∃ b', CB.advance { b with row := fun ch => if ch < b.channels then blit (b.row ch) b.w n (data ch) else b.row ch } n
        = .ok b' ∧ Rep b' (fun ch => s ch ++ (List.range n).map (data ch)) ∧ b'.channels = b.channels ∧
        b'.length = b.length := by
  obtain ⟨b', h1, ⟨a1, a2, a3, a4, a5⟩, h3, h4⟩ := rel_advance h data hn
  refine ⟨b', h1, ⟨a1, a2, a3, a4, ?_⟩, h3, h4⟩
  intro ch hch d hd1 hd2
  rw [a5 ch hch d hd1 hd2, pushPast_eq (s ch) _ data n ch d hd1 (fun _ _ => rfl)]

theorem rep_directWrite [Zero α] {b : CB α} {s : Nat → List α} (h : Rep b s) (data : Nat → Nat → α) {n : Nat}
    (hn : n ≤ b.length) :
    ∃ b', b.directWrite data n = .ok b' ∧ Rep b' (fun ch => s ch ++ (List.range n).map (data ch)) ∧
      b'.channels = b.channels ∧ b'.length = b.length := by
  obtain ⟨b', h1, h2⟩ := rep_advance h data hn
  refine ⟨b', ?_, h2⟩
  have := h.len; have := h.w
  simp only [CB.directWrite]
  rw [if_neg (by omega), if_neg (by omega), h1]

theorem rep_write [Zero α] {b : CB α} {s : Nat → List α} (h : Rep b s) (data : Nat → Nat → α) {n : Nat}
    (hn : n ≤ b.length) :
    ∃ b', b.write data b.channels n = .ok b' ∧ Rep b' (fun ch => s ch ++ (List.range n).map (data ch)) ∧
      b'.channels = b.channels ∧ b'.length = b.length := by
  obtain ⟨b', h1, h2⟩ := rep_advance h data hn
  refine ⟨b', ?_, h2⟩
  have := h.len; have := h.w
  simp only [CB.write]
  rw [if_neg (by simp), if_neg (by omega), if_neg (by omega), h1]

theorem rep_read [Zero α] {b : CB α} {s : Nat → List α} (h : Rep b s) {ch d n : Nat} (hch : ch < b.channels)
    (hnd : n ≤ d) (hd : d ≤ b.length) :
    b.read ch d n = .ok ((List.range n).map fun i => past (s ch) (d - i)) := by
  have hL := h.len
  have hw := h.w
  simp only [CB.read]
  rw [if_neg (by omega)]
  congr 1
  apply List.map_congr_left
  intro i hi
  rw [List.mem_range] at hi
  have := h.past ch hch (d - i) (by omega) (by omega)
  rw [show b.alloc + b.w - d + i = b.alloc + b.w - (d - i) by omega, this]

/-- Reading only samples that have actually been written. -/
theorem rep_read_written [Zero α] {b : CB α} {s : Nat → List α} (h : Rep b s) {ch d n : Nat} (hch : ch < b.channels)
    (hnd : n ≤ d) (hd : d ≤ b.length) (hs : d ≤ (s ch).length) :
    b.read ch d n = .ok (((s ch).drop ((s ch).length - d)).take n) := by
  rw [rep_read h hch hnd hd]
  congr 1
  apply List.ext_getElem
  · simp; omega
  · intro i h1 h2
    simp only [List.length_map, List.length_range] at h1
    simp only [List.getElem_map, List.getElem_range, List.getElem_take, List.getElem_drop, past]
    rw [if_pos (by omega), List.getD_eq_getElem?_getD, List.getElem?_eq_getElem (by omega), Option.getD_some]
    congr 1; omega

end Visr.CircularBuffer
