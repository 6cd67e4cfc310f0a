import Verif.LateFilter.Spec
import Mathlib.Tactic.Ring
import Mathlib.Tactic.Linarith
import Mathlib.Algebra.BigOperators.Fin

/-!
# Lemmas about late reverberation filters
-/

namespace Visr.LateFilter
open Visr
open Visr.Reverb (Late)

/-- The sample `j` steps before time `n`, zero before the start. -/
def past (x : ℕ → ℝ) (n j : ℕ) : ℝ := if j ≤ n then x (n - j) else 0

theorem iir_past (c : Biquad.Coef ℝ) (x : ℕ → ℝ) (n : ℕ) :
    Biquad.iir (fun _ => c) x n = c.b0 * x n + c.b1 * past x n 1 + c.b2 * past x n 2 -
      c.a1 * past (Biquad.iir (fun _ => c) x) n 1 - c.a2 * past (Biquad.iir (fun _ => c) x) n 2 := by
  match n with
  | 0 => simp [Biquad.iir, past]
  | 1 => simp [Biquad.iir, past]; ring
  | n + 2 =>
    rw [Biquad.iir]
    simp only [past, Nat.le_add_left, if_true, show 1 ≤ n + 2 by omega, Nat.add_sub_cancel, show n + 2 - 1 = n + 1 by omega]
    ring

theorem filterBiquad_iir (c : Biquad.Coef ℝ) (x : ℕ → ℝ) (m : ℕ) : ∀ n : ℕ,
    filterBiquad c ((List.range' n m).map x) (past x n 2) (past x n 1) (past (Biquad.iir (fun _ => c) x) n 2)
      (past (Biquad.iir (fun _ => c) x) n 1) = (List.range' n m).map (Biquad.iir (fun _ => c) x) := by
  induction m with
  | zero => intro n; simp [filterBiquad]
  | succ m ih =>
    intro n
    rw [List.range'_succ, List.map_cons, List.map_cons, filterBiquad]
    have hy := (iir_past c x n).symm
    rw [hy]
    congr 1
    have e : ∀ z : ℕ → ℝ, past z (n + 1) 1 = z n ∧ past z (n + 1) 2 = past z n 1 := by
      intro z
      refine ⟨by simp [past], ?_⟩
      unfold past
      by_cases h : 1 ≤ n
      · rw [if_pos (by omega), if_pos h]; congr 1
      · rw [if_neg (by omega), if_neg h]
    have := ih (n + 1)
    rw [(e x).1, (e x).2, (e _).1, (e _).2] at this
    exact this

theorem noiseRow_eq (align len : ℕ) (raw : ℕ → ℕ → ℝ) (row : ℕ) :
    noiseRow align len raw row = (List.range len).map fun k =>
      Biquad.iir (fun _ => octaveBands.getD (row % 9) Biquad.Coef.flat) (raw row) (extra align + k) := by
  unfold noiseRow
  have h := filterBiquad_iir (octaveBands.getD (row % 9) Biquad.Coef.flat) (raw row) (len + extra align) 0
  have e : ∀ z : ℕ → ℝ, past z 0 1 = 0 ∧ past z 0 2 = 0 := fun z => ⟨by simp [past], by simp [past]⟩
  rw [(e _).1, (e _).2, (e _).1, (e _).2, ← List.range_eq_range'] at h
  simp only
  rw [h]
  apply List.ext_getElem
  · simp
  · intro i h1 h2
    simp

theorem noise_getD {align len : ℕ} {raw : ℕ → ℕ → ℝ} {obj b k : ℕ} (hb : b < 9) (hk : k < len) :
    (noiseRow align len raw (obj * 9 + b)).getD k 0 = noise align raw obj b k := by
  rw [noiseRow_eq, show (obj * 9 + b) % 9 = b by omega]
  simp [hk, noise]

theorem fill_eq (f : ℕ → ℝ) (m : ℕ) : ∀ (n : ℕ) (data : ℕ → ℝ) (k : ℕ),
    fill f m n data k = if n ≤ k ∧ k < n + m then f k else data k := by
  induction m with
  | zero => intro n data k; rw [fill, if_neg (by omega)]
  | succ m ih =>
    intro n data k
    rw [fill, ih]
    by_cases h : n + 1 ≤ k ∧ k < n + 1 + m
    · rw [if_pos h, if_pos (by omega)]
    · rw [if_neg h]
      by_cases hk : k = n
      · subst hk; rw [Function.update_self, if_pos (by omega)]
      · rw [Function.update_of_ne hk, if_neg (by omega)]

theorem roundSamples_nearest {x : ℝ} {m : ℕ} (h0 : 0 ≤ x) (h : Nearest x m) (hm : m < 2 ^ 64) : roundSamples x = .ok m := by
  unfold roundSamples
  have hz : ⌊x + 1 / 2⌋ = (m : ℤ) := by
    rw [Int.floor_eq_iff]
    obtain ⟨h1, h2⟩ := h
    push_cast
    constructor <;> linarith
  simp only [h0, if_true, hz]
  rw [if_neg (by omega)]
  simp

theorem nearest_unique {x : ℝ} {m m' : ℕ} (h : Nearest x m) (h' : Nearest x m') : m = m' := by
  obtain ⟨h1, h2⟩ := h
  obtain ⟨h3, h4⟩ := h'
  have a1 : (m : ℝ) < m' + 1 := by linarith
  have a2 : (m' : ℝ) < m + 1 := by linarith
  have b1 : m < m' + 1 := by exact_mod_cast a1
  have b2 : m' < m + 1 := by exact_mod_cast a2
  omega

theorem exists_nearest {x : ℝ} (h : 0 ≤ x) : ∃ m, Nearest x m := by
  refine ⟨⌊x + 1 / 2⌋.toNat, ?_⟩
  have h0 : 0 ≤ ⌊x + 1 / 2⌋ := Int.floor_nonneg.2 (by linarith)
  have e : ((⌊x + 1 / 2⌋.toNat : ℕ) : ℝ) = (⌊x + 1 / 2⌋ : ℝ) := by
    have : ((⌊x + 1 / 2⌋.toNat : ℤ)) = ⌊x + 1 / 2⌋ := Int.toNat_of_nonneg h0
    exact_mod_cast congrArg (fun z : ℤ => (z : ℝ)) this
  constructor
  · rw [e]; linarith [Int.floor_le (x + 1 / 2)]
  · rw [e]; linarith [Int.lt_floor_add_one (x + 1 / 2)]

theorem createEnvelope_ok {len d a : ℕ} {onset gain attack decay fs : ℝ} (h0 : 0 ≤ onset * fs) (h1 : 0 ≤ attack * fs)
    (hd : Nearest (onset * fs) d) (ha : Nearest (attack * fs) a) (hs : d + a < len) (hl : len < 2 ^ 64) (data : ℕ → ℝ) :
    ∃ env, createEnvelope len onset gain attack decay fs data = (env, .ok ()) ∧
      ∀ k < len, env k = envelope d a gain decay fs k := by
  unfold createEnvelope
  rw [roundSamples_nearest h0 hd (by omega), roundSamples_nearest h1 ha (by omega)]
  have hmod : (d + a) % 2 ^ 64 = d + a := Nat.mod_eq_of_lt (by omega)
  simp only [hmod]
  rw [if_neg (by omega)]
  refine ⟨_, rfl, fun k hk => ?_⟩
  rw [fill_eq]
  unfold envelope
  by_cases c1 : k < d
  · rw [if_neg (by omega), fill_eq, if_neg (by omega), fill_eq, if_pos (by omega), if_pos c1]
  · by_cases c2 : k < d + a
    · rw [if_neg (by omega), fill_eq, if_pos (by omega), if_neg c1, if_pos c2]
      rw [Nat.cast_sub (by omega)]
    · rw [if_pos (by omega), if_neg c1, if_neg c2]
      rw [Nat.sub_sub, Nat.cast_sub (by omega)]
      push_cast
      congr 2
      rw [div_mul_eq_mul_div, mul_div_assoc]
      congr 2
      ring

/-- Too long: rejected without changing the buffer. -/
theorem createEnvelope_long {len d a : ℕ} {onset gain attack decay fs : ℝ} (h0 : 0 ≤ onset * fs) (h1 : 0 ≤ attack * fs)
    (hd : Nearest (onset * fs) d) (ha : Nearest (attack * fs) a) (hs : len ≤ d + a) (hl : d + a < 2 ^ 64) (data : ℕ → ℝ) :
    createEnvelope len onset gain attack decay fs data = (data, .throw .invalidArgument) := by
  unfold createEnvelope
  rw [roundSamples_nearest h0 hd (by omega), roundSamples_nearest h1 ha (by omega)]
  have hmod : (d + a) % 2 ^ 64 = d + a := Nat.mod_eq_of_lt (by omega)
  simp only [hmod]
  rw [if_pos (by omega)]

/-- The bands from `b` on are added if their attack fits, until the first band whose attack does not fit. -/
theorem bandLoop_eq {cfg : Cfg} {align : ℕ} {raw : ℕ → ℕ → ℝ} (hn : cfg.bandNoise = noiseRow align cfg.len raw) (hl : cfg.len < 2 ^ 64)
    {obj : ℕ} {late : Late} {d : ℕ} {a : Fin 9 → ℕ} (h0 : 0 ≤ late.onset * cfg.fs) (h1 : ∀ b, 0 ≤ late.attacks b * cfg.fs)
    (hd : Nearest (late.onset * cfg.fs) d) (ha : ∀ b, Nearest (late.attacks b * cfg.fs) (a b)) (m : ℕ) :
    ∀ (b : ℕ) (env ir : ℕ → ℝ), b + m ≤ 9 → (∀ c : Fin 9, b ≤ c.val → c.val < b + m → d + a c < cfg.len) →
    ∃ ir' env', (∀ m', bandLoop cfg obj late (m + m') b env ir = bandLoop cfg obj late m' (b + m) env' ir') ∧
      ∀ k < cfg.len, ir' k = (if b = 0 ∧ 0 < m then 0 else ir k) +
        ∑ c ∈ Finset.univ.filter (fun c : Fin 9 => b ≤ c.val ∧ c.val < b + m),
          noise align raw obj c k * envelope d (a c) (late.levels c) (late.decays c) cfg.fs k := by
  induction m with
  | zero =>
    intro b env ir _ _
    refine ⟨ir, env, fun m' => by rw [Nat.zero_add, Nat.add_zero], fun k _ => ?_⟩
    rw [if_neg (by omega), Finset.filter_false_of_mem, Finset.sum_empty, add_zero]
    intro c _
    omega
  | succ m ih =>
    intro b env ir hb hs
    have hb9 : b < 9 := by omega
    have hfin : (Fin.ofNat 9 b) = (⟨b, hb9⟩ : Fin 9) := by ext; simp [Nat.mod_eq_of_lt hb9]
    obtain ⟨e1, he1, he2⟩ := createEnvelope_ok (gain := late.levels ⟨b, hb9⟩) (decay := late.decays ⟨b, hb9⟩) h0 (h1 ⟨b, hb9⟩) hd
      (ha ⟨b, hb9⟩) (hs ⟨b, hb9⟩ (le_refl _) (by simp)) hl env
    obtain ⟨ir', env', i1, i2⟩ := ih (b + 1) e1
      (fun k => if k < cfg.len then (if b = 0 then (cfg.bandNoise (obj * 9 + b)).getD k 0 * e1 k
        else ir k + (cfg.bandNoise (obj * 9 + b)).getD k 0 * e1 k) else ir k) (by omega)
      (fun c c1 c2 => hs c (by omega) (by omega))
    refine ⟨ir', env', fun m' => ?_, fun k hk => ?_⟩
    · rw [show m + 1 + m' = (m + m') + 1 by omega, bandLoop, hfin, he1]
      simp only
      rw [i1 m', show b + 1 + m = b + (m + 1) by omega]
    · rw [i2 k hk, if_neg (by omega), if_pos hk, hn, noise_getD hb9 hk, he2 k hk]
      have hset : Finset.univ.filter (fun c : Fin 9 => b ≤ c.val ∧ c.val < b + (m + 1)) =
          insert ⟨b, hb9⟩ (Finset.univ.filter (fun c : Fin 9 => b + 1 ≤ c.val ∧ c.val < b + 1 + m)) := by
        ext c
        simp only [Finset.mem_filter, Finset.mem_univ, true_and, Finset.mem_insert, Fin.ext_iff]
        omega
      rw [hset, Finset.sum_insert (by simp)]
      by_cases hb0 : b = 0
      · rw [if_pos hb0, if_pos ⟨hb0, by omega⟩]; ring
      · rw [if_neg hb0, if_neg (by omega)]; ring

theorem calculate_fits {cfg : Cfg} {align : ℕ} {raw : ℕ → ℕ → ℝ} (hn : cfg.bandNoise = noiseRow align cfg.len raw) (hl : cfg.len < 2 ^ 64)
    {obj : ℕ} {late : Late} {d : ℕ} {a : Fin 9 → ℕ} (h : Fits cfg.len cfg.fs late d a) :
    calculate cfg obj late = .ok ((List.range cfg.len).map (tail align cfg.fs raw obj late d a)) := by
  obtain ⟨ir, env, e1, e2⟩ := bandLoop_eq hn hl (obj := obj) h.onset h.attack h.nearOnset h.nearAttack 9 0 (fun _ => 0) (fun _ => 0)
    (by omega) (fun c _ _ => h.short c)
  unfold calculate
  have := e1 0
  rw [bandLoop] at this
  simp only [Nat.add_zero] at this
  rw [this]
  simp only [Outcome.ok.injEq]
  apply List.map_congr_left
  intro k hk
  rw [e2 k (List.mem_range.1 hk), if_pos ⟨rfl, by omega⟩, zero_add, tail, Finset.filter_true_of_mem]
  intro c _
  have := c.isLt
  omega

/-- Bands up to the first that does not fit. -/
theorem calculate_cut {cfg : Cfg} {align : ℕ} {raw : ℕ → ℕ → ℝ} (hn : cfg.bandNoise = noiseRow align cfg.len raw) (hl : cfg.len < 2 ^ 64)
    {obj : ℕ} {late : Late} {d : ℕ} {a : Fin 9 → ℕ} (h0 : 0 ≤ late.onset * cfg.fs) (h1 : ∀ b, 0 ≤ late.attacks b * cfg.fs)
    (hd : Nearest (late.onset * cfg.fs) d) (ha : ∀ b, Nearest (late.attacks b * cfg.fs) (a b)) (b : Fin 9)
    (hlong : cfg.len ≤ d + a b) (hbig : d + a b < 2 ^ 64) (hbefore : ∀ c < b, d + a c < cfg.len) :
    calculate cfg obj late = .ok ((List.range cfg.len).map fun k =>
      ∑ c ∈ Finset.univ.filter (· < b), noise align raw obj c k * envelope d (a c) (late.levels c) (late.decays c) cfg.fs k) := by
  obtain ⟨ir, env, e1, e2⟩ := bandLoop_eq hn hl (obj := obj) h0 h1 hd ha b.val 0 (fun _ => 0) (fun _ => 0)
    (by have := b.isLt; omega) (fun c _ hc => hbefore c (by rw [Fin.lt_def]; omega))
  unfold calculate
  have hb := b.isLt
  have := e1 (9 - b.val)
  rw [show b.val + (9 - b.val) = (9 : ℕ) by omega, show 9 - b.val = (8 - b.val) + 1 by omega, bandLoop.eq_2 cfg obj late (0 + b.val)] at this
  have hfin : (Fin.ofNat 9 (0 + b.val)) = b := by ext; simp
  rw [hfin, createEnvelope_long h0 (h1 b) hd (ha b) hlong hbig] at this
  simp only at this
  rw [this]
  simp only [Outcome.ok.injEq]
  apply List.map_congr_left
  intro k hk
  rw [e2 k (List.mem_range.1 hk), ite_self, zero_add]
  refine Finset.sum_congr ?_ fun _ _ => rfl
  ext c
  simp only [Finset.mem_filter, Finset.mem_univ, true_and, Fin.lt_def, Nat.zero_add, Nat.zero_le]

/-! ### Queue -/

/-- The messages `ms` can be processed. -/
def Good (cfg : Cfg) (m : ℕ × Late) : Prop := m.1 < cfg.objects ∧ ∃ f, calculate cfg m.1 m.2 = .ok f

/-- The filter for a message. -/
noncomputable def filterFor (cfg : Cfg) (m : ℕ × Late) : ℕ × List ℝ :=
  (m.1, match calculate cfg m.1 m.2 with
    | .ok f => f
    | _ => [])

theorem processLoop_good {cfg : Cfg} : ∀ (ms : List (ℕ × Late)) (cnt : ℕ) (sent : List (ℕ × List ℝ)), cnt < cfg.maxUpdates →
    (∀ m ∈ ms.take (cfg.maxUpdates - cnt), Good cfg m) →
    processLoop cfg cnt ms sent =
      (⟨ms.drop (cfg.maxUpdates - cnt), sent ++ (ms.take (cfg.maxUpdates - cnt)).map (filterFor cfg)⟩, .ok ()) := by
  intro ms
  induction ms with
  | nil => intro cnt sent _ _; simp [processLoop]
  | cons m ms ih =>
    intro cnt sent hc hg
    obtain ⟨k, hk⟩ : ∃ k, cfg.maxUpdates - cnt = k + 1 := ⟨cfg.maxUpdates - cnt - 1, by omega⟩
    rw [hk] at hg ⊢
    obtain ⟨g1, f, g2⟩ := hg m (by simp)
    rw [processLoop, if_neg (by omega), g2]
    simp only
    have hf : filterFor cfg m = (m.1, f) := by unfold filterFor; rw [g2]
    by_cases he : cnt + 1 ≥ cfg.maxUpdates
    · have : k = 0 := by omega
      subst this
      rw [if_pos he]
      simp [hf]
    · rw [if_neg he, ih (cnt + 1) _ (by omega) (fun x hx => hg x (by
        rw [List.take_succ_cons]
        exact List.mem_cons_of_mem _ (by rw [show k = cfg.maxUpdates - (cnt + 1) by omega]; exact hx)))]
      rw [show cfg.maxUpdates - (cnt + 1) = k by omega]
      simp [hf]

end Visr.LateFilter
