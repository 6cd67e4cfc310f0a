import Verif.Biquad.Lemmas
import Mathlib.Algebra.Order.Field.Rat
import Mathlib.Tactic.NormNum

/-!
# C21: IIR filters
-/

set_option linter.unusedSectionVars false

namespace Visr.Biquad
open Visr

variable {K : Type*} [Field K]

/-- The filters a user can construct, with the coefficient table they asked for. The first constructor is documented to
yield flat sections, see `biquad_default_is_mute` for what it does. -/
inductive Created (channels sections : Nat) : Filter K → Tab K → Prop
  | uniform (c : Coef K) : Created channels sections (Filter.createUniform channels sections c) (fun _ _ => c)
  | list (cs : List (Coef K)) (f : Filter K) (h : Filter.createList channels sections cs = .ok f) :
      Created channels sections f (fun _ k => (cs[k]?).getD Coef.flat)
  | matrix (m : List (List (Coef K))) (f : Filter K) (hr : Rectangular m)
      (h : Filter.createMatrix channels sections m = .ok f) :
      Created channels sections f (fun ch k => (m[ch]?.bind fun r => r[k]?).getD Coef.flat)

/-- The filter represents the log. -/
structure Rep (channels sections : Nat) (f : Filter K) (l : Log K) : Prop where
  chans : f.channels = channels
  secs : f.sections = sections
  coeffs : CoeffsHold f l.tab
  states : ∀ ch < channels, StatesAt (l.coef ch) (l.input ch) sections (f.states ch) (l.past ch).length

theorem setAllSections_ok (f : Filter K) (ch : Nat) (c : Coef K) (n : Nat) :
    (setAllSections f ch c n).channels = f.channels ∧ (setAllSections f ch c n).sections = f.sections ∧
    (setAllSections f ch c n).states = f.states ∧ ∀ ch' k' i, i < 5 →
      (setAllSections f ch c n).coeffs ch' (k' * 5 + i) =
        if ch' = ch ∧ k' < n then c.data i else f.coeffs ch' (k' * 5 + i) := by
  induction n with
  | zero => simp [setAllSections]
  | succ n ih =>
    obtain ⟨h1, h2, h3, h4⟩ := ih
    refine ⟨h1, h2, h3, ?_⟩
    intro ch' k' i hi
    simp only [setAllSections]
    rw [setInternal_coeffs _ _ _ _ _ _ _ hi, h4 ch' k' i hi]
    by_cases hk : k' = n
    · subst hk; by_cases hch : ch' = ch <;> simp [hch]
    · have : k' < n + 1 ↔ k' < n := by omega
      simp [hk, this]

theorem setAllChannels_ok (f : Filter K) (c : Coef K) (n : Nat) :
    (setAllChannels f c n).channels = f.channels ∧ (setAllChannels f c n).sections = f.sections ∧
    (setAllChannels f c n).states = f.states ∧ ∀ ch k i, k < f.sections → i < 5 →
      (setAllChannels f c n).coeffs ch (k * 5 + i) = if ch < n then c.data i else f.coeffs ch (k * 5 + i) := by
  induction n with
  | zero => simp [setAllChannels]
  | succ n ih =>
    obtain ⟨h1, h2, h3, h4⟩ := ih
    obtain ⟨g1, g2, g3, g4⟩ := setAllSections_ok (setAllChannels f c n) n c f.sections
    refine ⟨by rw [setAllChannels, g1, h1], by rw [setAllChannels, g2, h2], by rw [setAllChannels, g3, h3], ?_⟩
    intro ch k i hk hi
    rw [setAllChannels, g4 ch k i hi, h4 ch k i hk hi]
    by_cases hch : ch = n
    · subst hch; simp [hk]
    · have : ch < n + 1 ↔ ch < n := by omega
      simp [hch, this]

theorem setListChannels_ok (f : Filter K) (cs : List (Coef K)) (hcs : cs.length = f.sections) (n : Nat) :
    ∃ f', setListChannels f cs n = .ok f' ∧ f'.channels = f.channels ∧ f'.sections = f.sections ∧ f'.states = f.states ∧
      ∀ ch k i, k < f.sections → i < 5 → f'.coeffs ch (k * 5 + i) =
        if ch < n then ((cs[k]?).map (·.data i)).getD (f.coeffs ch (k * 5 + i)) else f.coeffs ch (k * 5 + i) := by
  induction n with
  | zero => exact ⟨f, rfl, rfl, rfl, rfl, by intro ch k i _ _; simp⟩
  | succ n ih =>
    obtain ⟨f', h1, h2, h3, h4, h5⟩ := ih
    obtain ⟨f'', g1, g2, g3, g4, g5⟩ := setChannelLoop_ok f' n cs f'.sections (by omega)
    simp only [setListChannels, h1, g1]
    refine ⟨f'', rfl, by rw [g2, h2], by rw [g3, h3], by rw [g4, h4], ?_⟩
    intro ch k i hk hi
    rw [g5 ch k i hi, h5 ch k i hk hi]
    by_cases hch : ch = n
    · subst hch
      have : k < f'.sections := by omega
      simp [this]
    · have : ch < n + 1 ↔ ch < n := by omega
      simp [hch, this]

theorem created_init {channels sections : Nat} {f : Filter K} {t : Tab K} (h : Created channels sections f t) :
    f.channels = channels ∧ f.sections = sections ∧ (∀ ch i, f.states ch i = 0) ∧ CoeffsHold f t := by
  cases h with
  | uniform c =>
    obtain ⟨h1, h2, h3, h4⟩ := setAllChannels_ok (Filter.create channels sections) c channels
    unfold Filter.createUniform
    refine ⟨by rw [h1]; rfl, by rw [h2]; rfl, by intro ch i; rw [h3]; rfl, ?_⟩
    intro ch k hch hk i hi
    have hk' : k < (Filter.create (K := K) channels sections).sections := by rw [h2] at hk; exact hk
    have hch : ch < channels := by rw [h1] at hch; exact hch
    rw [h4 ch k i hk' hi, if_pos hch]
  | list cs f h =>
    unfold Filter.createList at h
    split_ifs at h with hl
    obtain ⟨f', h1, h2, h3, h4, h5⟩ := setListChannels_ok (Filter.create channels sections) cs
      (show cs.length = sections by simpa using hl) channels
    rw [h1] at h
    injection h with h; subst h
    refine ⟨h2, h3, by intro ch i; rw [h4]; rfl, ?_⟩
    intro ch k hch hk i hi
    have hk' : k < (Filter.create (K := K) channels sections).sections := by rw [← h3]; exact hk
    have hch' : ch < channels := by rw [h2] at hch; exact hch
    have hkc : k < cs.length := by
      have : cs.length = sections := by simpa using hl
      rw [this]; exact hk'
    rw [h5 ch k i hk' hi, if_pos hch']
    simp [hkc]
  | matrix m f hr h =>
    unfold Filter.createMatrix at h
    split_ifs at h with hl
    have hl1 : m.length = channels := by by_contra hc; exact hl (Or.inl hc)
    have hl2 : numberOfSections m = sections := by by_contra hc; exact hl (Or.inr hc)
    have hrect : ∀ r ∈ m, r.length = sections := by
      intro r hrm
      cases m with
      | nil => cases hrm
      | cons r0 m => rw [hr r hrm r0 (by simp)]; exact hl2
    obtain ⟨f', h1, h2, h3, h4, h5⟩ := setMatrixLoop_ok (Filter.create channels sections) m channels (by omega) hrect
    rw [h1] at h
    injection h with h; subst h
    refine ⟨h2, h3, by intro ch i; rw [h4]; rfl, ?_⟩
    intro ch k hch hk i hi
    have hk' : k < (Filter.create (K := K) channels sections).sections := by rw [← h3]; exact hk
    have hch' : ch < channels := by rw [h2] at hch; exact hch
    have hcm : ch < m.length := by omega
    have hkc : k < m[ch].length := by rw [hrect _ (List.getElem_mem _)]; exact hk'
    rw [h5 ch k i hk' hi, if_pos hch']
    simp [hcm, hkc]

/-- The first call of `setMatrix` on a rectangular matrix is accepted exactly if the dimensions match. -/
theorem setMatrix_ok {channels sections : Nat} {f : Filter K} {l : Log K} (h : Rep channels sections f l)
    (m : List (List (Coef K))) (hr : Rectangular m) :
    (¬ (m.length = channels ∧ ∀ r ∈ m, r.length = sections) → f.setMatrix m = .throw .invalidArgument) ∧
    ((m.length = channels ∧ ∀ r ∈ m, r.length = sections) → ∃ f', f.setMatrix m = .ok f' ∧
      Rep channels sections f' ⟨fun ch k => ((m[ch]?.bind fun r => r[k]?)).getD (l.tab ch k), l.past⟩) := by
  unfold Filter.setMatrix
  rw [h.chans, h.secs]
  constructor
  · intro hn
    by_cases hl : m.length = channels
    · rw [if_neg (by simpa using hl), if_pos]
      cases m with
      | nil => exact absurd ⟨hl, by simp⟩ hn
      | cons r0 m =>
        refine ⟨by rw [← hl]; simp, ?_⟩
        intro hs
        apply hn
        refine ⟨hl, fun r hrm => ?_⟩
        rw [hr r hrm r0 (by simp)]; exact hs
    · rw [if_pos (by simpa using hl)]
  · rintro ⟨hl, hrect⟩
    rw [if_neg (by simpa using hl), if_neg]
    · obtain ⟨f', h1, h2, h3, h4, h5⟩ := setMatrixLoop_ok f m channels (by omega)
        (by intro r hrm; rw [h.secs]; exact hrect r hrm)
      refine ⟨f', h1, by rw [h2, h.chans], by rw [h3, h.secs], ?_, ?_⟩
      · intro ch k hch hk i hi
        rw [h2, h.chans] at hch
        have hk' : k < f.sections := by rw [← h3]; exact hk
        rw [h5 ch k i hk' hi, if_pos hch]
        have hcm : ch < m.length := by omega
        have hkc : k < m[ch].length := by rw [hrect _ (List.getElem_mem _), ← h.secs]; exact hk'
        simp [hcm, hkc]
      · intro ch hch; rw [h4]; exact h.states ch hch
    · rintro ⟨hpos, hs⟩
      apply hs
      cases m with
      | nil => simp at hl; omega
      | cons r0 m => exact hrect r0 (by simp)

theorem filterBlock_ok {channels sections : Nat} {f : Filter K} {l : Log K} (h : Rep channels sections f l)
    (audio : Nat → List K) :
    let l' : Log K := ⟨l.tab, fun ch => l.past ch ++ (audio ch).map fun x => (x, l.tab ch)⟩
    Rep channels sections (f.filterBlock audio).1 l' ∧
    (f.filterBlock audio).2 = (List.range channels).map fun ch =>
      (List.range (audio ch).length).map fun i => l'.output sections ch ((l.past ch).length + i) := by
  intro l'
  have key : ∀ ch < channels, ∃ st, iirFilterBiquadsSingleChannel (audio ch) (f.states ch) (f.coeffs ch) f.sections 2 5 =
        ((List.range (audio ch).length).map (fun i => l'.output sections ch ((l.past ch).length + i)), st) ∧
      StatesAt (l'.coef ch) (l'.input ch) sections st (l'.past ch).length := by
    intro ch hch
    have hs0 := h.states ch hch
    have hs : StatesAt (l'.coef ch) (l'.input ch) sections (f.states ch) (l.past ch).length := by
      intro k hk
      have hx := hs0 k hk
      have hcg : ∀ m < (l.past ch).length, (∀ j, l.coef ch m j = l'.coef ch m j) ∧ l.input ch m = l'.input ch m := by
        intro m hm
        constructor
        · intro j; simp [Log.coef, l', List.getElem?_append_left hm]
        · simp [Log.input, l', List.getElem?_append_left hm]
      have hcc : ∀ m < (l.past ch).length, l.coef ch m k = l'.coef ch m k ∧
          cascade (l.coef ch) (l.input ch) k m = cascade (l'.coef ch) (l'.input ch) k m := by
        intro m hm
        exact ⟨(hcg m hm).1 k, cascade_congr k m (fun m' hm' => ⟨fun j _ => (hcg m' (by omega)).1 j,
          (hcg m' (by omega)).2⟩)⟩
      exact ⟨by rw [hx.1]; exact tail1_congr _ hcc, by rw [hx.2]; exact tail2_congr _ hcc⟩
    rw [h.secs]
    obtain ⟨st, h1, h2⟩ := channel_block (l.tab ch) (f.coeffs ch) sections
      (fun k hk i hi => h.coeffs ch k (by rw [h.chans]; exact hch) (by rw [h.secs]; exact hk) i hi)
      (l'.coef ch) (l'.input ch) (l.past ch).length (audio ch) (by
        intro i hi
        constructor
        · simp [Log.input, l', hi]
        · intro k _; simp [Log.coef, l', hi]) (f.states ch) hs
    refine ⟨st, h1, ?_⟩
    have : (l'.past ch).length = (l.past ch).length + (audio ch).length := by simp [l']
    rw [this]; exact h2
  constructor
  · refine ⟨h.chans, h.secs, h.coeffs, ?_⟩
    intro ch hch
    obtain ⟨st, h1, h2⟩ := key ch hch
    simp only [Filter.filterBlock, h.chans, if_pos hch, h1]
    exact h2
  · simp only [Filter.filterBlock, h.chans]
    apply List.map_congr_left
    intro ch hch
    obtain ⟨st, h1, _⟩ := key ch (by simpa using hch)
    rw [h1]

theorem step_ok {channels sections : Nat} {f : Filter K} {l : Log K} (h : Rep channels sections f l) (op : Op K)
    (hop : OpOK op) :
    Rep channels sections (step f op).1 (logStep channels sections l op) ∧ (step f op).2 = expected channels sections l op := by
  cases op with
  | setCoefficients ch k c =>
    simp only [step, expected, logStep, tabStep, Filter.setCoefficients, h.chans, h.secs]
    by_cases hch : ch < channels
    · by_cases hk : k < sections
      · rw [if_neg (show ¬ ch ≥ channels by omega), if_neg (show ¬ k ≥ sections by omega), if_pos ⟨hch, hk⟩]
        refine ⟨⟨h.chans, h.secs, ?_, h.states⟩, rfl⟩
        intro ch' k' hch' hk' i hi
        show (f.setInternal ch k c).coeffs ch' (k' * 5 + i) = (if ch' = ch ∧ k' = k then c else l.tab ch' k').data i
        rw [setInternal_coeffs _ _ _ _ _ _ _ hi, h.coeffs ch' k' hch' hk' i hi]
        split_ifs <;> rfl
      · rw [if_neg (show ¬ ch ≥ channels by omega), if_pos (show k ≥ sections by omega),
          if_neg (show ¬ (ch < channels ∧ k < sections) by omega)]
        exact ⟨h, rfl⟩
    · rw [if_pos (show ch ≥ channels by omega), if_neg (show ¬ (ch < channels ∧ k < sections) by omega)]
      exact ⟨h, rfl⟩
  | setChannel ch cs =>
    simp only [step, expected, logStep, tabStep, Filter.setChannel, h.chans, h.secs]
    by_cases hch : ch < channels
    · by_cases hk : cs.length = sections
      · rw [if_neg (show ¬ ch ≥ channels by omega), if_neg (show ¬ cs.length ≠ sections by omega), if_pos ⟨hch, hk⟩]
        obtain ⟨f', g1, g2, g3, g4, g5⟩ := setChannelLoop_ok f ch cs sections (by omega)
        rw [g1]
        refine ⟨⟨by rw [← h.chans]; exact g2, by rw [← h.secs]; exact g3, ?_, ?_⟩, rfl⟩
        · intro ch' k' hch' hk' i hi
          have hch' : ch' < f'.channels := hch'
          have hk' : k' < f'.sections := hk'
          show f'.coeffs ch' (k' * 5 + i) = _
          have hks : k' < sections := by rw [← h.secs, ← g3]; exact hk'
          rw [g5 ch' k' i hi, h.coeffs ch' k' (by rw [← g2]; exact hch') (by rw [← g3]; exact hk') i hi]
          by_cases hc : ch' = ch
          · have : k' < cs.length := by omega
            simp [hc, hks, this]
          · simp [hc]
        · intro ch' hch'
          show StatesAt _ _ _ (f'.states ch') _
          rw [g4]; exact h.states ch' hch'
      · rw [if_neg (show ¬ ch ≥ channels by omega), if_pos (show cs.length ≠ sections by omega),
          if_neg (show ¬ (ch < channels ∧ cs.length = sections) by omega)]
        exact ⟨h, rfl⟩
    · rw [if_pos (show ch ≥ channels by omega), if_neg (show ¬ (ch < channels ∧ cs.length = sections) by omega)]
      exact ⟨h, rfl⟩
  | setMatrix m =>
    obtain ⟨h1, h2⟩ := setMatrix_ok h m hop
    simp only [step, expected, logStep, tabStep]
    by_cases hm : m.length = channels ∧ ∀ r ∈ m, r.length = sections
    · obtain ⟨f', g1, g2⟩ := h2 hm
      rw [g1, if_pos hm]
      exact ⟨g2, rfl⟩
    · rw [h1 hm, if_neg hm]
      exact ⟨h, rfl⟩
  | process eq audio =>
    cases eq with
    | none =>
      obtain ⟨h1, h2⟩ := filterBlock_ok h audio
      simp only [step, expected, logStep, tabStep]
      exact ⟨h1, by rw [h2]⟩
    | some m =>
      obtain ⟨h1, h2⟩ := setMatrix_ok h m hop
      simp only [step, expected, logStep, tabStep]
      by_cases hm : m.length = channels ∧ ∀ r ∈ m, r.length = sections
      · obtain ⟨f', g1, g2⟩ := h2 hm
        obtain ⟨k1, k2⟩ := filterBlock_ok g2 audio
        simp only [g1, if_pos hm]
        exact ⟨k1, by rw [k2]⟩
      · simp only [h1 hm, if_neg hm]
        exact ⟨h, trivial⟩

theorem created_rep {channels sections : Nat} {f : Filter K} {t : Tab K} (h : Created channels sections f t) :
    Rep channels sections f ⟨t, fun _ => []⟩ := by
  obtain ⟨h1, h2, h3, h4⟩ := created_init h
  refine ⟨h1, h2, h4, ?_⟩
  intro ch _ k _
  simp [h3, tail1, tail2]

theorem final_rep {channels sections : Nat} (past : List (Op K)) (hpast : ∀ op ∈ past, OpOK op) :
    ∀ (f : Filter K) (l : Log K), Rep channels sections f l →
      Rep channels sections (final step f past) (past.foldl (logStep channels sections) l) := by
  induction past with
  | nil => intro f l h; exact h
  | cons op past ih =>
    intro f l h
    simp only [final_cons, List.foldl_cons]
    exact ih (fun o ho => hpast o (by simp [ho])) _ _ (step_ok h op (hpast op (by simp))).1

/-- **C21.** For every constructed filter and every history of coefficient changes and blocks of any lengths, the
result of the next call is as specified: rejected changes throw `invalid_argument`, and every output sample of every
block is that of the cascade of difference equations over the complete input stream, with the coefficients in force. -/
theorem biquad_stream {channels sections : Nat} {f : Filter K} {t : Tab K} (hf : Created channels sections f t)
    (past : List (Op K)) (op : Op K) (hpast : ∀ o ∈ past, OpOK o) (hop : OpOK op) :
    (step (final step f past) op).2 =
      expected channels sections (past.foldl (logStep channels sections) ⟨t, fun _ => []⟩) op :=
  (step_ok (final_rep past hpast f _ (created_rep hf)) op hop).2

/-- The difference equation for constant coefficients, with samples before the start of the stream equal to zero. -/
theorem iir_constant (c : Coef K) (x : Nat → K) (n : Nat) :
    let before := fun (s : Nat → K) (d : Nat) => if d ≤ n then s (n - d) else 0
    let y := iir (fun _ => c) x
    y n = c.b0 * x n + c.b1 * before x 1 + c.b2 * before x 2 - c.a1 * before y 1 - c.a2 * before y 2 := by
  rcases n with _ | _ | n
  · simp [iir]
  · simp [iir]; ring
  · have h1 : 1 ≤ n + 2 := by omega
    simp only [iir, Nat.le_add_left, if_true, h1]
    rw [show n + 2 - 1 = n + 1 by omega, show n + 2 - 2 = n by omega]
    ring

/-- **C21, constant coefficients.** For every partition of the streams into blocks, the concatenated output of a
channel is the cascade of the constant-coefficient sections applied to the concatenated input; in particular it does
not depend on the partition. -/
theorem biquad_partition {channels sections : Nat} {f : Filter K} {t : Tab K} (hf : Created channels sections f t)
    (blocks : List (Nat → List K)) (ch : Nat) (hch : ch < channels) :
    ∃ outs : List (List (List K)), (run step f (blocks.map (Op.process none))).2 = outs.map .ok ∧
      outs.flatMap (fun o => o.getD ch []) =
        (List.range (blocks.flatMap (· ch)).length).map
          (cascade (fun _ => t ch) (fun n => (blocks.flatMap (· ch))[n]?.getD 0) sections) := by
  -- generalise over the samples already processed
  have key : ∀ (blocks : List (Nat → List K)) (f : Filter K) (xs : Nat → List K),
      Rep channels sections f ⟨t, fun ch => (xs ch).map fun x => (x, t ch)⟩ →
      ∃ outs : List (List (List K)), (run step f (blocks.map (Op.process none))).2 = outs.map .ok ∧
        outs.flatMap (fun o => o.getD ch []) =
          (List.range (blocks.flatMap (· ch)).length).map fun i =>
            cascade (fun _ => t ch) (fun n => (xs ch ++ blocks.flatMap (· ch))[n]?.getD 0) sections ((xs ch).length + i) := by
    intro blocks
    induction blocks with
    | nil => intro f xs _; exact ⟨[], rfl, rfl⟩
    | cons b blocks ih =>
      intro f xs h
      obtain ⟨h1, h2⟩ := filterBlock_ok h b
      have hrep : Rep channels sections (f.filterBlock b).1 ⟨t, fun ch => (xs ch ++ b ch).map fun x => (x, t ch)⟩ := by
        simpa using h1
      obtain ⟨outs, g1, g2⟩ := ih _ (fun ch => xs ch ++ b ch) hrep
      refine ⟨(f.filterBlock b).2 :: outs, ?_, ?_⟩
      · simp only [List.map_cons, run]
        rw [show step f (Op.process none b) = ((f.filterBlock b).1, .ok (f.filterBlock b).2) from rfl]
        simp only
        rw [g1]
      · rw [List.flatMap_cons, g2, h2, List.flatMap_cons,
          List.length_append (as := b ch), List.range_add, List.map_append]
        congr 1
        · rw [List.getD_eq_getElem?_getD]
          simp only [List.getElem?_map, List.getElem?_range hch, Option.map_some, Option.getD_some]
          apply List.map_congr_left
          intro i hi
          have hi : i < (b ch).length := by simpa using hi
          simp only [Log.output, List.length_map]
          apply cascade_congr
          intro m hm
          have hml : m < (xs ch ++ b ch).length := by simp; omega
          constructor
          · intro j _
            simp only [Log.coef]
            rw [← List.map_append, List.getElem?_map, List.getElem?_eq_getElem hml]
            rfl
          · simp only [Log.input]
            rw [← List.map_append, List.getElem?_map, ← List.append_assoc, List.getElem?_append_left hml]
            rw [List.getElem?_eq_getElem hml]
            rfl
        · rw [List.map_map]
          apply List.map_congr_left
          intro i _
          simp only [Function.comp, List.length_append, List.append_assoc]
          congr 1
          omega
  have := key blocks f (fun _ => []) (by simpa using created_rep hf)
  simpa using this

/-- **C21, finding.** The constructor without coefficients is documented to set all sections to a flat response, but its
coefficients are all zero: until coefficients are set, every channel with at least one section is silent. -/
theorem biquad_default_is_mute (channels sections : Nat) (hs : 0 < sections) (audio : Nat → List K) :
    (step (Filter.create channels sections) (.process none audio)).2 =
      .ok ((List.range channels).map fun ch => List.replicate (audio ch).length 0) := by
  have hb : ∀ l : List K, biquad (fun _ => (0 : K)) 0 0 l = (List.replicate l.length 0, 0, 0) := by
    intro l
    induction l with
    | nil => rfl
    | cons x l ih => simp [biquad, ih, List.replicate_succ]
  have hst : ∀ pos, storeStates (fun _ => (0 : K)) pos 0 0 = fun _ => 0 := by
    intro pos; funext i; simp [storeStates]
  have hl : ∀ n j m, sectionLoop (fun _ => (0 : K)) 2 5 n j (List.replicate m 0) (fun _ => 0) =
      (List.replicate m 0, fun _ => 0) := by
    intro n
    induction n with
    | zero => intro j m; rfl
    | succ n ih => intro j m; simp [sectionLoop, hb, hst, ih]
  simp only [step, Filter.filterBlock, Filter.create]
  congr 1
  apply List.map_congr_left
  intro ch _
  simp [iirFilterBiquadsSingleChannel, hs.ne', hb, hst, hl]

/-- A concrete stream: a one-pole section `y[n] = x[n] + y[n-1] / 2`, in blocks of two and one samples. -/
example : Created 1 1 (Filter.createUniform 1 1 (⟨1, 0, 0, -1/2, 0⟩ : Coef ℚ)) (fun _ _ => ⟨1, 0, 0, -1/2, 0⟩) ∧
    (run step (Filter.createUniform 1 1 (⟨1, 0, 0, -1/2, 0⟩ : Coef ℚ))
      [.process none (fun _ => [1, 0]), .process none (fun _ => [4])]).2 = [.ok [[1, 1/2]], .ok [[17/4]]] := by
  refine ⟨.uniform _, ?_⟩
  simp [run, step, Filter.filterBlock, Filter.createUniform, setAllChannels, setAllSections, Filter.create,
    Filter.setInternal, iirFilterBiquadsSingleChannel, biquad, sectionLoop, storeStates, Coef.data]
  norm_num

end Visr.Biquad
