import Verif.NdArray.Lemmas
import Mathlib.Tactic.IntervalCases

/-!
# C85: samples and matrices passed from and to Python
-/

namespace Visr.NdArray

open Visr

variable {K : Type} {σ : Type}

/-! ### Processing -/

/-- Calling `process( array )`: the flow receives the elements of the array, whatever its strides are (reversed, transposed,
repeated), and the elements of the returned array are the output of the flow. (Missing: strides that are not a multiple of the size
of an element, see `odd_stride_wrong`.) -/
theorem process_partial (F : FlexibleBuffer.Flow σ K) {size : BitVec 64} (hsize : PowerOfTwo size) (mem : Memory K) (junk : K) (s s' : σ)
    (a : Nd) (x : Nat → Nat → K) (y : Nat → Nat → K) (ht : a.typeOk = true) (hx : Elements mem a F.captureCh F.period x)
    (hw : WholeStrides size a) (hmax : F.playbackCh * F.period * size.toNat < 2 ^ 63) (hmax' : F.period * size.toNat < 2 ^ 63)
    (hF : F.proc s ((List.range F.captureCh).map fun c => (List.range F.period).map fun i => x c i) = (s', .ok y)) :
    ∃ out, wrapProcess F size mem junk s a = (s', .ok out) ∧ out.shape = [F.playbackCh, F.period] ∧
      ∀ ch < F.playbackCh, ∀ i < F.period, out.elem size ch i = some (y ch i) := by
  have hp := size_pos hsize
  obtain ⟨cells, e, hl, hv⟩ := writeChannels_ok F.period y F.playbackCh 0 (List.replicate (F.playbackCh * F.period) junk) (by simp)
  refine ⟨⟨[F.playbackCh, F.period], [size.toNat * F.period, size.toNat], cells⟩, ?_, rfl, ?_⟩
  · unfold wrapProcess
    have h1 : typeAndChannels F.captureCh a = true := by simp [typeAndChannels, ht, hx.1]
    have h2 : a.shape.getD 1 0 = F.period := by rw [hx.1]; rfl
    rw [if_neg (by rw [h1]; decide), if_neg (by rw [h2]; simp), newArray_ok _ _ _ _ hmax hmax']
    dsimp only
    rw [readChannels_elements hsize hw hx]
    dsimp only
    rw [hF]
    dsimp only
    rw [show ([size.toNat * F.period, size.toNat].getD 1 0) = size.toNat from rfl,
      show ([size.toNat * F.period, size.toNat].headD 0) = size.toNat * F.period from rfl, Nat.mul_div_cancel_left _ hp, Nat.div_self hp, e]
  · intro ch hch i hi
    rw [new_elem hp, hv ch i hi, if_pos (by omega)]

/-- Arrays of other types, dimensions or numbers of channels or samples are rejected, and the flow is not executed. -/
theorem process_rejects (F : FlexibleBuffer.Flow σ K) (size : BitVec 64) (mem : Memory K) (junk : K) (s : σ) (a : Nd)
    (h : a.typeOk = false ∨ a.shape ≠ [F.captureCh, F.period]) : wrapProcess F size mem junk s a = (s, .throw .invalidArgument) := by
  unfold wrapProcess
  by_cases h1 : typeAndChannels F.captureCh a = false
  · rw [if_pos h1]
  · rw [if_neg h1]
    by_cases h2 : a.shape.getD 1 0 = F.period
    · exfalso
      simp only [Bool.not_eq_false, typeAndChannels, Bool.and_eq_true, decide_eq_true_eq] at h1
      obtain ⟨⟨t, l⟩, c⟩ := h1
      rcases h with h | h
      · rw [t] at h; cases h
      · apply h
        match e : a.shape, l with
        | [p, q], _ =>
          rw [e] at c h2
          simp at c h2
          rw [c, h2]
    · rw [if_pos h2]

/-- If the execution of the flow fails, `process` raises an exception. -/
theorem process_fails (F : FlexibleBuffer.Flow σ K) {size : BitVec 64} (hsize : PowerOfTwo size) (mem : Memory K) (junk : K) (s s' : σ)
    (a : Nd) (x : Nat → Nat → K) (exn : Exn) (ht : a.typeOk = true) (hx : Elements mem a F.captureCh F.period x)
    (hw : WholeStrides size a) (hmax : F.playbackCh * F.period * size.toNat < 2 ^ 63) (hmax' : F.period * size.toNat < 2 ^ 63)
    (hF : F.proc s ((List.range F.captureCh).map fun c => (List.range F.period).map fun i => x c i) = (s', .throw exn)) :
    wrapProcess F size mem junk s a = (s', .throw .invalidArgument) := by
  unfold wrapProcess
  have h1 : typeAndChannels F.captureCh a = true := by simp [typeAndChannels, ht, hx.1]
  have h2 : a.shape.getD 1 0 = F.period := by rw [hx.1]; rfl
  rw [if_neg (by rw [h1]; decide), if_neg (by rw [h2]; simp), newArray_ok _ _ _ _ hmax hmax']
  dsimp only
  rw [readChannels_elements hsize hw hx]
  dsimp only
  rw [hF]

/-- `process()` without arguments runs flows without inputs and rejects the others. -/
theorem process_without_input (F : FlexibleBuffer.Flow σ K) {size : BitVec 64} (hsize : PowerOfTwo size) (mem : Memory K) (junk : K)
    (s : σ) (hmax : F.playbackCh * F.period * size.toNat < 2 ^ 63) (hmax' : F.period * size.toNat < 2 ^ 63) :
    (F.captureCh ≠ 0 → processNoInput F size mem junk s = (s, .throw .invalidArgument)) ∧
    (F.captureCh = 0 → ∀ s' y, F.proc s [] = (s', .ok y) → ∃ out, processNoInput F size mem junk s = (s', .ok out) ∧
      out.shape = [F.playbackCh, F.period] ∧ ∀ ch < F.playbackCh, ∀ i < F.period, out.elem size ch i = some (y ch i)) := by
  constructor
  · intro h
    exact process_rejects F size mem junk s _ (.inr (by simp [dummy]; omega))
  · intro h s' y hF
    refine process_partial F hsize mem junk s s' (dummy size F.period) (fun _ _ => junk) y rfl ⟨by simp [dummy, h], ?_⟩ ?_ hmax hmax' ?_
    · intro i hi; omega
    · intro t ht
      simp only [dummy, List.mem_cons, List.not_mem_nil, or_false] at ht
      rcases ht with rfl | rfl
      · exact Int.dvd_mul_right _ _
      · exact Int.dvd_refl _
    · rw [h]; exact hF

namespace Demo

/-- Two channels with a period of two; the output is the sum of the channels, and the input itself. -/
def flow : FlexibleBuffer.Flow Nat Int :=
  ⟨2, 2, 2, fun s b => (s + 1, .ok fun ch i => if ch = 0 then ((b.getD 0 []).getD i 0 + (b.getD 1 []).getD i 0) else (b.getD 0 []).getD i 0)⟩

/-- Samples with four bytes at the addresses `1000, …, 1015`. -/
def mem : Memory Int := fun p =>
  if p = 1000 then some 1 else if p = 1004 then some 2 else if p = 1008 then some 3 else if p = 1012 then some 4 else none

def show1 : Nat × Outcome (New Int) → Option (Nat × List Int)
  | (s, .ok o) => some (s, o.cells)
  | _ => none

end Demo

/-- Rows in reversed order and time in reversed order. -/
example : Demo.show1 (wrapProcess Demo.flow 4 Demo.mem 0 5 ⟨true, 1012, [2, 2], [-8, -4]⟩) = some (6, [6, 4, 4, 3]) := by decide +kernel

/-- Transposed. -/
example : Demo.show1 (wrapProcess Demo.flow 4 Demo.mem 0 5 ⟨true, 1000, [2, 2], [4, 8]⟩) = some (6, [3, 7, 1, 3]) := by decide +kernel

example : ∃ out, wrapProcess Demo.flow 4 Demo.mem 0 5 ⟨true, 1012, [2, 2], [-8, -4]⟩ = (6, .ok out) ∧ out.shape = [2, 2] := by
  obtain ⟨out, h, hs, _⟩ := process_partial Demo.flow (size := 4) ⟨2, by decide, rfl⟩ Demo.mem 0 5 6 ⟨true, 1012, [2, 2], [-8, -4]⟩
    (fun i j => 4 - 2 * i - j) _ rfl
    ⟨rfl, by intro i hi j hj; have hi' : i < 2 := hi; have hj' : j < 2 := hj; interval_cases i <;> interval_cases j <;> decide +kernel⟩
    (by intro s hs; simp at hs; rcases hs with rfl | rfl <;> decide) (by decide) (by decide) rfl
  exact ⟨out, h, hs⟩

example : wrapProcess Demo.flow 4 Demo.mem 0 5 ⟨true, 1000, [4], [4]⟩ = (5, .throw .invalidArgument) :=
  process_rejects _ _ _ _ _ _ (.inr (by decide))

/-- A stride of six bytes (a field of a structured array): instead of the second element, another address is read. -/
theorem odd_stride_wrong {size : BitVec 64} (hsize : PowerOfTwo size) (base : BitVec 64) (s1 : Int)
    (hs : ¬ (size.toNat : Int) ∣ s1) : base + size * elementStride size s1 ≠ base + BitVec.ofInt 64 s1 := by
  intro h
  have h := add_left_cancel h
  have h2 := congrArg BitVec.toNat h
  unfold elementStride at h2
  rw [BitVec.toNat_mul, BitVec.toNat_udiv, Nat.mod_eq_of_lt
    (Nat.lt_of_le_of_lt (Nat.mul_div_le _ _) (BitVec.isLt _))] at h2
  have hd : size.toNat ∣ (BitVec.ofInt 64 s1).toNat := by rw [← h2]; exact Nat.dvd_mul_right _ _
  apply hs
  rw [BitVec.toNat_ofInt] at hd
  have h0 : (0 : Int) ≤ s1 % (2 ^ 64 : Nat) := Int.emod_nonneg _ (by decide)
  rw [← Int.natCast_dvd_natCast, Int.toNat_of_nonneg h0, Int.emod_def] at hd
  have h64 : (size.toNat : Int) ∣ ((2 ^ 64 : Nat) : Int) := by exact_mod_cast size_dvd hsize
  have := Int.dvd_add hd (Int.dvd_trans h64 (Int.dvd_mul_right _ (s1 / ((2 ^ 64 : Nat) : Int))))
  simpa using this

namespace Demo

/-- One channel, one output. -/
def through : FlexibleBuffer.Flow Unit Int := ⟨1, 1, 2, fun s b => (s, .ok fun _ i => (b.getD 0 []).getD i 0)⟩

/-- Records with a sample of four bytes and two further bytes at `1000` and `1006`: the samples are 1 and 2. What is at the other
addresses has other values. -/
def records : Memory Int := fun p => if p = 1000 then some 1 else if p = 1006 then some 2 else if p = 1004 then some 77 else none

/-- The array `records['sample']`. -/
def field : Nd := ⟨true, 1000, [1, 2], [12, 6]⟩

end Demo

/-- The array consists of 1 and 2, and the flow receives 1 and something else. -/
theorem odd_stride_wrong_samples :
    Elements Demo.records Demo.field 1 2 (fun _ j => if j = 0 then 1 else 2) ∧
    (match (wrapProcess Demo.through 4 Demo.records 0 () Demo.field).2 with | .ok o => o.cells | _ => []) = [1, 77] := by
  refine ⟨⟨rfl, ?_⟩, by decide +kernel⟩
  intro i hi j hj
  interval_cases i; interval_cases j <;> decide +kernel

/-! ### Processing with other block sizes -/

/-- A sequence of calls of `FlexibleBufferWrapper.process` in Python; the results of the calls. -/
def flexibleCalls (F : FlexibleBuffer.Flow σ K) (size : BitVec 64) (junk : K) : FlexibleBuffer.Wrapper σ K → List (Memory K × Nd) →
    FlexibleBuffer.Wrapper σ K × List (Outcome (New K))
  | w, [] => (w, [])
  | w, (mem, a) :: cs =>
    let r := wrapFlexible F size mem junk w a
    let q := flexibleCalls F size junk r.1 cs
    (q.1, r.2 :: q.2)

section
variable [Zero K]

theorem flexible_call (C P p : Nat) (g : σ → List (List K) → σ × (Nat → Nat → K)) (s0 : σ) (X : Nat → Nat → K) (hp : 0 < p)
    {size : BitVec 64} (hsize : PowerOfTwo size) (junk : K) (mem : Memory K) (a : Nd) (n : Nat) (w : FlexibleBuffer.Wrapper σ K) (T : Nat)
    (hw : FlexibleBuffer.Inv C P p g s0 X w T) (ht : a.typeOk = true) (hx : Elements mem a C n fun ch i => X ch (T + i))
    (hs : WholeStrides size a) (hmax : P * n * size.toNat < 2 ^ 63) (hmax' : n * size.toNat < 2 ^ 63)
    (hXC : ∀ ch, C ≤ ch → ∀ t, X ch t = junk) :
    ∃ w' out, wrapFlexible (FlexibleBuffer.totalFlow C P p g) size mem junk w a = (w', .ok out) ∧
      FlexibleBuffer.Inv C P p g s0 X w' (T + n) ∧ out.shape = [P, n] ∧
      ∀ ch < P, ∀ i < n, out.elem size ch i = some (FlexibleBuffer.expected C p g s0 X ch (T + i)) := by
  have hpos := size_pos hsize
  let input := (List.range C).map fun c => (List.range n).map fun i => X c (T + i)
  have hcap : ∀ ch i, i < 0 + n → (input.getD ch []).getD i junk = X ch (T + i) := by
    intro ch i hi
    by_cases hc : ch < C
    · simp [input, List.getD_eq_getElem?_getD, List.getElem?_range hc, List.getElem?_range (show i < n by omega)]
    · simp only [input, List.getD_eq_getElem?_getD]
      rw [hXC ch (by omega), List.getElem?_eq_none (l := (List.range C).map fun c => (List.range n).map fun i => X c (T + i)) (i := ch) (by simp; omega)]
      simp
  obtain ⟨w', cs, h1, h2, h3⟩ := FlexibleBuffer.loop_ok C P p g s0 X hp (fun ch i => (input.getD ch []).getD i junk) T n w 0 n
    (Nat.le_refl n) (by simpa using hw) hcap
  refine ⟨w', ⟨[P, n], [size.toNat * n, size.toNat], (List.range (P * n)).map
    (cs.foldl (fun m c => FlexibleBuffer.storeChannels n 1 m c.1 c.2) fun _ => junk)⟩, ?_, by simpa using h2, rfl, ?_⟩
  · unfold wrapFlexible
    have e1 : typeAndChannels (FlexibleBuffer.totalFlow C P p g).captureCh a = true := by
      simp [typeAndChannels, ht, hx.1, FlexibleBuffer.totalFlow]
    have e2 : a.shape.getD 1 0 = n := by rw [hx.1]; rfl
    rw [if_neg (by rw [e1]; decide)]
    simp only [e2]
    rw [newArray_ok _ _ _ _ (by exact hmax) hmax']
    dsimp only
    have e3 : readChannels mem size a.base (elementStride size (a.strides.headD 0)) (elementStride size (a.strides.getD 1 0)) n
        (FlexibleBuffer.totalFlow C P p g).captureCh 0 = .ok input := readChannels_elements hsize hs hx
    rw [e3]
    dsimp only
    rw [h1]
    rw [show ([size.toNat * n, size.toNat].getD 1 0) = size.toNat from rfl,
      show ([size.toNat * n, size.toNat].headD 0) = size.toNat * n from rfl, Nat.mul_div_cancel_left _ hpos, Nat.div_self hpos]
    rfl
  · intro ch hch i hi
    rw [new_elem hpos, List.getElem?_map, List.getElem?_range]
    · simp only [Option.map_some]
      rw [FlexibleBuffer.chunks_mem_strided C P p g s0 X h3 n (by omega) _ ch i hi, if_pos (by omega)]
    · have := Nat.mul_le_mul_right n (show ch + 1 ≤ P by omega)
      rw [Nat.add_mul, Nat.one_mul] at this
      omega

/-- The calls of a sequence are given consecutive sections of the signals `X`, with any numbers of samples and any strides. -/
def Sections (C P : Nat) (size : BitVec 64) (X : Nat → Nat → K) : Nat → List (Memory K × Nd) → Prop
  | _, [] => True
  | T, (mem, a) :: cs => ∃ n, a.typeOk = true ∧ Elements mem a C n (fun ch i => X ch (T + i)) ∧ WholeStrides size a ∧
      P * n * size.toNat < 2 ^ 63 ∧ n * size.toNat < 2 ^ 63 ∧ Sections C P size X (T + n) cs

/-- The results of a sequence of calls are consecutive sections of the signals `Y`. -/
def Results (C P : Nat) (size : BitVec 64) (Y : Nat → Nat → K) : Nat → List (Memory K × Nd) → List (Outcome (New K)) → Prop
  | _, [], [] => True
  | T, (_, a) :: cs, r :: rs => ∃ n out, a.shape = [C, n] ∧ r = .ok out ∧ out.shape = [P, n] ∧
      (∀ ch < P, ∀ i < n, out.elem size ch i = some (Y ch (T + i))) ∧ Results C P size Y (T + n) cs rs
  | _, _, _ => False

theorem expected_only_uses (C p : Nat) (g : σ → List (List K) → σ × (Nat → Nat → K)) (s0 : σ) (X : Nat → Nat → K) (junk : K) :
    FlexibleBuffer.expected C p g s0 (fun ch t => if ch < C then X ch t else junk) = FlexibleBuffer.expected C p g s0 X := by
  have hb : ∀ k, FlexibleBuffer.block C p (fun ch t => if ch < C then X ch t else junk) k = FlexibleBuffer.block C p X k := by
    intro k
    unfold FlexibleBuffer.block
    apply List.map_congr_left
    intro ch hch
    apply List.map_congr_left
    intro i _
    exact if_pos (List.mem_range.1 hch)
  have hs : ∀ k, FlexibleBuffer.stateAfter C p g s0 (fun ch t => if ch < C then X ch t else junk) k =
      FlexibleBuffer.stateAfter C p g s0 X k := by
    intro k
    induction k with
    | zero => rfl
    | succ k ih => rw [FlexibleBuffer.stateAfter, FlexibleBuffer.stateAfter, ih, hb]
  funext ch t
  unfold FlexibleBuffer.expected FlexibleBuffer.blockOut
  rw [hs, hb]

theorem sections_only_uses (C P : Nat) (size : BitVec 64) (X : Nat → Nat → K) (junk : K) : ∀ (cs : List (Memory K × Nd)) (T : Nat),
    Sections C P size X T cs → Sections C P size (fun ch t => if ch < C then X ch t else junk) T cs
  | [], _, _ => trivial
  | (_, _) :: cs, _, h => by
    obtain ⟨n, h1, h2, h3, h4, h5, h6⟩ := h
    refine ⟨n, h1, ⟨h2.1, ?_⟩, h3, h4, h5, sections_only_uses C P size X junk cs _ h6⟩
    intro i hi j hj
    rw [h2.2 i hi j hj]
    dsimp only
    rw [if_pos hi]

/-- Processing with arbitrary block sizes from Python: the results are the output of the flow for the whole signals, block by block,
delayed by one period. -/
theorem flexible_stream_partial (C P p : Nat) (g : σ → List (List K) → σ × (Nat → Nat → K)) (s0 : σ) (X : Nat → Nat → K) (hp : 0 < p)
    {size : BitVec 64} (hsize : PowerOfTwo size) (junk : K) (calls : List (Memory K × Nd))
    (hcalls : Sections C P size X 0 calls) :
    ∃ w, FlexibleBuffer.Wrapper.init (FlexibleBuffer.totalFlow C P p g) s0 = .ok w ∧
      Results C P size (FlexibleBuffer.expected C p g s0 X) 0 calls
        (flexibleCalls (FlexibleBuffer.totalFlow C P p g) size junk w calls).2 := by
  rw [← expected_only_uses C p g s0 X junk]
  replace hcalls := sections_only_uses C P size X junk calls 0 hcalls
  have hXC : ∀ ch, C ≤ ch → ∀ t, (fun ch t => if ch < C then X ch t else junk : Nat → Nat → K) ch t = junk := by
    intro ch hch t
    exact if_neg (by omega)
  generalize (fun ch t => if ch < C then X ch t else junk : Nat → Nat → K) = X at hcalls hXC ⊢
  obtain ⟨w, hw, hinv⟩ := FlexibleBuffer.init_inv C P p g s0 X hp
  refine ⟨w, hw, ?_⟩
  clear hw
  generalize 0 = T at hinv hcalls
  induction calls generalizing w T with
  | nil => trivial
  | cons c cs ih =>
    obtain ⟨mem, a⟩ := c
    obtain ⟨n, ht, hx, hs, hm, hm', hrest⟩ := hcalls
    obtain ⟨w', out, e, hinv', hsh, hv⟩ := flexible_call C P p g s0 X hp hsize junk mem a n w T hinv ht hx hs hm hm' hXC
    refine ⟨n, out, hx.1, ?_, hsh, hv, ?_⟩
    · show (wrapFlexible _ size mem junk w a).2 = _
      rw [e]
    · show Results C P size _ (T + n) cs (flexibleCalls _ size junk (wrapFlexible _ size mem junk w a).1 cs).2
      rw [e]
      exact ih w' (T + n) hinv' hrest

end

/-- Arrays of other types, dimensions or numbers of channels are rejected, and nothing is processed. -/
theorem flexible_rejects (F : FlexibleBuffer.Flow σ K) (size : BitVec 64) (mem : Memory K) (junk : K) (w : FlexibleBuffer.Wrapper σ K)
    (a : Nd) (h : a.typeOk = false ∨ a.shape.length ≠ 2 ∨ a.shape.headD 0 ≠ F.captureCh) :
    wrapFlexible F size mem junk w a = (w, .throw .invalidArgument) := by
  unfold wrapFlexible
  rw [if_pos]
  simp only [typeAndChannels, Bool.and_eq_false_iff, decide_eq_false_iff_not]
  tauto

/-- A period of two, calls with one and with two samples: the output is delayed by two samples. -/
example : (match FlexibleBuffer.Wrapper.init Demo.through () with
    | .ok w => (flexibleCalls Demo.through 4 0 w [(Demo.mem, ⟨true, 1000, [1, 1], [4, 4]⟩), (Demo.mem, ⟨true, 1004, [1, 2], [4, 4]⟩)]).2.map
      fun r => match r with | .ok o => o.cells | _ => []
    | _ => []) = [[0], [0, 1]] := by decide +kernel

example : Sections 1 1 4 (fun ch t => if ch = 0 ∧ t < 3 then (t + 1 : Int) else 0) 0
    [(Demo.mem, ⟨true, 1000, [1, 1], [4, 4]⟩), (Demo.mem, ⟨true, 1004, [1, 2], [4, 4]⟩)] := by
  refine ⟨1, rfl, ⟨rfl, ?_⟩, ?_, by decide, by decide, 2, rfl, ⟨rfl, ?_⟩, ?_, by decide, by decide, trivial⟩
  · intro i hi j hj; interval_cases i; interval_cases j; decide +kernel
  · intro s hs; simp at hs; subst hs; decide
  · intro i hi j hj; interval_cases i; interval_cases j <;> decide +kernel
  · intro s hs; simp at hs; subst hs; decide

/-! ### Matrices -/

section
variable [Zero K]

theorem fillColumns_ok (mem : Memory K) (a : Nd) (row : Nat) (x : Nat → Nat → K) {rows cols : Nat} (h : Elements mem a rows cols x)
    (hr : row < rows) : ∀ (k col : Nat) (m : Efl.Mat K) (t : Efl.Table K), Efl.Holds m t → m.rows = rows → m.cols = cols → col + k ≤ cols →
    ∃ m', fillColumns mem a row k col m = .ok m' ∧ m'.rows = rows ∧ m'.cols = cols ∧ Efl.Holds m'
      { t with elem := fun i j => if i = row ∧ col ≤ j ∧ j < col + k then x i j else t.elem i j }
  | 0, col, m, t, ht, e1, e2, _ => ⟨m, rfl, e1, e2, by
      have : (fun i j => if i = row ∧ col ≤ j ∧ j < col + 0 then x i j else t.elem i j) = t.elem := by
        funext i j; rw [if_neg (by omega)]
      rw [this]; exact ht⟩
  | k + 1, col, m, t, ht, e1, e2, hk => by
    have hread : readAt mem a row col = .ok (x row col) := by
      unfold readAt
      have := h.2 row hr col (by omega)
      unfold elementAddress at this
      rw [this]
    obtain ⟨m1, p1, p0, p2⟩ := Efl.Holds.put ht (r := row) (c := col) (by omega) (by omega) (x row col)
    have q1 : m1.rows = rows := p0.trans e1
    have q2 : m1.cols = cols := by rw [p2.cols]; exact ht.cols.symm.trans e2
    obtain ⟨m', s1, s2, s3, s4⟩ := fillColumns_ok mem a row x h hr k (col + 1) m1 _ p2 q1 q2 (by omega)
    refine ⟨m', ?_, s2, s3, ?_⟩
    · rw [fillColumns, hread, Outcome.ok_bind, p1, Outcome.ok_bind]
      exact s1
    · have : (fun i j => if i = row ∧ col ≤ j ∧ j < col + (k + 1) then x i j else t.elem i j) =
          fun i j => if i = row ∧ col + 1 ≤ j ∧ j < col + 1 + k then x i j else
            if i = row ∧ j = col then x row col else t.elem i j := by
        funext i j
        by_cases g1 : i = row
        · subst g1
          by_cases g2 : j = col
          · subst g2; rw [if_pos (by omega), if_neg (by omega), if_pos (by omega)]
          · by_cases g3 : col + 1 ≤ j ∧ j < col + 1 + k
            · rw [if_pos (by omega), if_pos (by omega)]
            · rw [if_neg (by omega), if_neg (by omega), if_neg (by omega)]
        · rw [if_neg (by tauto), if_neg (by tauto), if_neg (by tauto)]
      rw [this]; exact s4

theorem fillRows_ok (mem : Memory K) (a : Nd) (x : Nat → Nat → K) {rows cols : Nat} (h : Elements mem a rows cols x) :
    ∀ (k row : Nat) (m : Efl.Mat K) (t : Efl.Table K), Efl.Holds m t → m.rows = rows → m.cols = cols → row + k ≤ rows →
    ∃ m', fillRows mem a cols k row m = .ok m' ∧ m'.rows = rows ∧ m'.cols = cols ∧ Efl.Holds m'
      { t with elem := fun i j => if row ≤ i ∧ i < row + k ∧ j < cols then x i j else t.elem i j }
  | 0, row, m, t, ht, e1, e2, _ => ⟨m, rfl, e1, e2, by
      have : (fun i j => if row ≤ i ∧ i < row + 0 ∧ j < cols then x i j else t.elem i j) = t.elem := by
        funext i j; rw [if_neg (by omega)]
      rw [this]; exact ht⟩
  | k + 1, row, m, t, ht, e1, e2, hk => by
    obtain ⟨m1, p1, q1, q2, p2⟩ := fillColumns_ok mem a row x h (by omega) cols 0 m t ht e1 e2 (by omega)
    obtain ⟨m', s1, s2, s3, s4⟩ := fillRows_ok mem a x h k (row + 1) m1 _ p2 q1 q2 (by omega)
    refine ⟨m', ?_, s2, s3, ?_⟩
    · rw [fillRows, p1, Outcome.ok_bind]; exact s1
    · have : (fun i j => if row ≤ i ∧ i < row + (k + 1) ∧ j < cols then x i j else t.elem i j) =
          fun i j => if row + 1 ≤ i ∧ i < row + 1 + k ∧ j < cols then x i j else
            if i = row ∧ 0 ≤ j ∧ j < 0 + cols then x i j else t.elem i j := by
        funext i j
        by_cases g1 : row + 1 ≤ i ∧ i < row + 1 + k ∧ j < cols
        · rw [if_pos (by omega), if_pos g1]
        · rw [if_neg g1]
          by_cases g2 : i = row ∧ 0 ≤ j ∧ j < 0 + cols
          · rw [if_pos (by omega), if_pos g2]
          · rw [if_neg (by omega), if_neg g2]
      rw [this]; exact s4

/-- A matrix created from an array has the dimensions and the elements of the array, for all strides and alignments. -/
theorem matrix_from_array (mem : Memory K) (a : Nd) (rows cols alignment : Nat) (x : Nat → Nat → K) (ht : a.typeOk = true)
    (hx : Elements mem a rows cols x) (hal : Efl.LegalAlign alignment) (h64 : alignment < 2 ^ 64) :
    ∃ m, matrixFrom mem a alignment = .ok m ∧ m.rows = rows ∧ m.cols = cols ∧
      ∀ i j, m.at i j = if i < rows ∧ j < cols then .ok (x i j) else .throw .outOfRange := by
  have hc : (Efl.Mat.create rows cols alignment : Outcome (Efl.Mat K)) = .ok ⟨Efl.nextAlignedSize cols alignment, rows, cols,
      if alignment = 0 then 1 else alignment, Efl.nextAlignedSize cols alignment * rows, fun _ => 0⟩ := by
    unfold Efl.Mat.create
    rw [(Efl.alignmentAccepted_iff h64).2 hal]
    rfl
  obtain ⟨m, e, e1, e2, hm⟩ := fillRows_ok mem a x hx rows 0 _ _ (Efl.create_holds rows cols alignment) rfl rfl (by omega)
  refine ⟨m, ?_, e1, e2, ?_⟩
  · unfold matrixFrom
    rw [hx.1, ht]
    simp only [List.length_cons, List.length_nil, ne_eq, not_true_eq_false, if_false, Bool.true_eq_false, List.headD_cons,
      List.getD_cons_succ, List.getD_cons_zero, Nat.zero_add, Nat.reduceAdd]
    rw [hc, Outcome.ok_bind]
    exact e
  · intro i j
    unfold Efl.Mat.at
    rw [e1, e2]
    by_cases h : i < rows ∧ j < cols
    · rw [if_neg (by omega), if_pos h, Efl.Holds.get hm (by omega) (by omega)]
      simp only [Nat.zero_add]
      rw [if_pos (by omega)]
    · rw [if_pos (by omega), if_neg h]

end

/-- Arrays of other dimensions, and alignments that are not powers of two, are rejected. -/
theorem matrix_from_array_rejects [Zero K] (mem : Memory K) (a : Nd) (alignment : Nat) (h64 : alignment < 2 ^ 64)
    (h : a.shape.length ≠ 2 ∨ a.typeOk = false ∨ ¬ Efl.LegalAlign alignment) : matrixFrom mem a alignment = .throw .invalidArgument := by
  unfold matrixFrom
  split
  · rfl
  · split
    · rfl
    · rename_i h1 h2
      have h3 : ¬ Efl.LegalAlign alignment := by
        rcases h with h | h | h
        · exact absurd h (by simpa using h1)
        · exact absurd h (by simpa using h2)
        · exact h
      have : (Efl.Mat.create (a.shape.headD 0) (a.shape.getD 1 0) alignment : Outcome (Efl.Mat K)) = .throw .invalidArgument := by
        unfold Efl.Mat.create
        rw [if_pos]
        rw [← Efl.alignmentAccepted_iff h64] at h3
        simpa using h3
      rw [this]
      rfl

example : (match matrixFrom Demo.mem ⟨true, 1012, [2, 2], [-8, -4]⟩ 4 with | .ok m => (m.stride, (List.range 8).map m.data) | _ => (0, [])) =
    (4, [4, 3, 0, 0, 2, 1, 0, 0]) := by decide +kernel

example : ∃ m, matrixFrom Demo.mem ⟨true, 1012, [2, 2], [-8, -4]⟩ 4 = .ok m ∧ m.at 0 1 = .ok (3 : Int) := by
  obtain ⟨m, h, _, _, hv⟩ := matrix_from_array Demo.mem ⟨true, 1012, [2, 2], [-8, -4]⟩ 2 2 4 (fun i j => (4 - 2 * i - j : Int)) rfl
    ⟨rfl, by intro i hi j hj; interval_cases i <;> interval_cases j <;> decide +kernel⟩ (.inr ⟨2, rfl⟩) (by decide)
  exact ⟨m, h, by rw [hv]; rfl⟩

/-- The array of a matrix (NumPy's view through the buffer protocol) has its dimensions and elements, without the padding. -/
theorem array_of_matrix {size : BitVec 64} (hsize : PowerOfTwo size) (base : BitVec 64) (m : Efl.Mat K) (hstride : m.cols ≤ m.stride)
    (hm : m.size = m.stride * m.rows) (hmax : size.toNat * m.size < 2 ^ 64) :
    ∃ x : Nat → Nat → K, Elements (memoryOf size base m) (viewOf size base m) m.rows m.cols x ∧
      ∀ i < m.rows, ∀ j < m.cols, m.at i j = .ok (x i j) := by
  have hpos := size_pos hsize
  have hlt : ∀ i < m.rows, ∀ j < m.cols, i * m.stride + j < m.size := by
    intro i hi j hj
    rw [hm]
    exact Efl.pos_lt hi (by omega)
  refine ⟨fun i j => m.data (i * m.stride + j), ⟨rfl, ?_⟩, ?_⟩
  · intro i hi j hj
    have h1 := hlt i hi j hj
    have h2 : (elementAddress (viewOf size base m) i j - base).toNat = (i * m.stride + j) * size.toNat := by
      unfold elementAddress viewOf
      have e : ((i : Int) * ((size.toNat * m.stride : Nat) : Int) + (j : Int) * (size.toNat : Int)) =
          (((i * m.stride + j) * size.toNat : Nat) : Int) := by push_cast; ring
      simp only [List.headD_cons, List.getD_cons_succ, List.getD_cons_zero]
      rw [show ((size.toNat : Int) * (m.stride : Int)) = ((size.toNat * m.stride : Nat) : Int) by push_cast; rfl, e, BitVec.ofInt_natCast,
        add_sub_cancel_left, BitVec.toNat_ofNat]
      apply Nat.mod_eq_of_lt
      have := Nat.mul_lt_mul_of_pos_right h1 hpos
      rw [Nat.mul_comm size.toNat] at hmax
      omega
    unfold memoryOf
    rw [h2, Nat.mul_mod_left, Nat.mul_div_cancel _ hpos, if_pos ⟨rfl, h1⟩]
  · intro i hi j hj
    unfold Efl.Mat.at Efl.Mat.get
    rw [if_neg (by omega), if_pos (hlt i hi j hj)]

/-- A matrix that is converted to an array and back is the same. -/
theorem matrix_roundtrip [Zero K] {size : BitVec 64} (hsize : PowerOfTwo size) (base : BitVec 64) (m : Efl.Mat K)
    (hstride : m.cols ≤ m.stride) (hm : m.size = m.stride * m.rows) (hmax : size.toNat * m.size < 2 ^ 64) (alignment : Nat)
    (hal : Efl.LegalAlign alignment) (h64 : alignment < 2 ^ 64) :
    ∃ m', matrixFrom (memoryOf size base m) (viewOf size base m) alignment = .ok m' ∧ m'.rows = m.rows ∧ m'.cols = m.cols ∧
      ∀ i j, m'.at i j = m.at i j := by
  obtain ⟨x, hx, hv⟩ := array_of_matrix hsize base m hstride hm hmax
  obtain ⟨m', e, e1, e2, h⟩ := matrix_from_array (memoryOf size base m) (viewOf size base m) m.rows m.cols alignment x rfl hx hal h64
  refine ⟨m', e, e1, e2, ?_⟩
  intro i j
  rw [h i j]
  split
  · rename_i hij
    rw [hv i hij.1 j hij.2]
  · rename_i hij
    unfold Efl.Mat.at
    rw [if_pos (by omega)]

example : ∃ m', matrixFrom (memoryOf 4 1000 (⟨4, 2, 2, 4, 8, fun k => (k : Int)⟩ : Efl.Mat Int)) (viewOf 4 1000 (⟨4, 2, 2, 4, 8, fun k => (k : Int)⟩ : Efl.Mat Int)) 1 =
    .ok m' ∧ m'.at 1 1 = .ok 5 := by
  obtain ⟨m', e, _, _, h⟩ := matrix_roundtrip (size := 4) ⟨2, by decide, rfl⟩ 1000 (⟨4, 2, 2, 4, 8, fun k => (k : Int)⟩ : Efl.Mat Int)
    (by decide) (by decide) (by decide) 1 (.inr ⟨0, rfl⟩) (by decide)
  exact ⟨m', e, by rw [h]; rfl⟩

/-! ### Elements and vectors -/

/-- `m[i, j]` in Python: the element, `IndexError` outside of the matrix, and an exception for negative indices. -/
theorem get_item (m : Efl.Mat K) (i j : Int) : getItem m [i, j] =
    if i < 0 ∨ j < 0 then .throw .runtimeError else m.at i.toNat j.toNat := by
  unfold getItem index
  dsimp only
  split <;> rfl

/-- `m[i, j] = v` changes exactly this element. -/
theorem set_item [Zero K] (m : Efl.Mat K) (t : Efl.Table K) (h : Efl.Holds m t) (i j : Int) (v : K) (hi : 0 ≤ i) (hj : 0 ≤ j)
    (hi' : i < m.rows) (hj' : j < m.cols) : ∃ m', setItem m [i, j] v = .ok m' ∧
      Efl.Holds m' { t with elem := fun r c => if r = i.toNat ∧ c = j.toNat then v else t.elem r c } := by
  obtain ⟨m', e, _, hm⟩ := Efl.Holds.put h (r := i.toNat) (c := j.toNat) (by omega) (by omega) v
  refine ⟨m', ?_, hm⟩
  unfold setItem index
  dsimp only
  rw [if_neg (by omega), Outcome.ok_bind]
  unfold Efl.Mat.setAt
  dsimp only
  rw [if_neg (by omega)]
  exact e

/-- Further indices are ignored. -/
theorem extra_indices_ignored (m : Efl.Mat K) (i j : Int) (more : List Int) : getItem m (i :: j :: more) = getItem m [i, j] := rfl

/-- `set` stores the elements of a one-dimensional array in a vector. (Missing: strides that are not a multiple of the size.) -/
theorem vector_set_partial (mem : Memory K) {size : BitVec 64} (hsize : PowerOfTwo size) (v : List K) (a : Nd) (x : Nat → K)
    (hshape : a.shape = [v.length]) (hx : ∀ i < v.length, mem (a.base + BitVec.ofInt 64 (i * a.strides.headD 0)) = some (x i))
    (hw : WholeStrides size a) : setData mem size v a = .ok ((List.range v.length).map x) := by
  unfold setData
  rw [if_neg (by simp [hshape]), readStrided_ok mem size _ x v.length 0]
  · simp
  · intro i hi
    rw [mul_elementStride hsize (whole hw).1, Nat.zero_add, ← hx i hi, BitVec.ofInt_mul, BitVec.ofInt_natCast]

/-- Arrays of other lengths or dimensions are rejected. -/
theorem vector_set_rejects (mem : Memory K) (size : BitVec 64) (v : List K) (a : Nd) (h : a.shape ≠ [v.length]) :
    setData mem size v a = .throw .invalidArgument := by
  unfold setData
  rw [if_pos]
  by_contra hc
  simp only [not_or, not_not] at hc
  obtain ⟨h1, h2⟩ := hc
  match e : a.shape, h1 with
  | [p], _ => rw [e] at h2 h; simp at h2; exact h (by rw [h2])

example : setData Demo.mem 4 [0, 0] ⟨true, 1012, [2], [-8]⟩ = .ok [(4 : Int), 2] := by
  rw [vector_set_partial Demo.mem (size := 4) ⟨2, by decide, rfl⟩ [0, 0] ⟨true, 1012, [2], [-8]⟩ (fun i => 4 - 2 * i) rfl]
  · rfl
  · intro i hi
    have hi' : i < 2 := hi
    interval_cases i <;> decide +kernel
  · intro s hs; simp at hs; subst hs; decide

/-- A reversed column of records of six bytes: other values than those of the array. -/
theorem vector_set_odd_stride : (∀ i < 2, Demo.records ((1000 : BitVec 64) + BitVec.ofInt 64 ((i : Nat) * 6)) = some (if i = 0 then 1 else 2)) ∧
    setData Demo.records 4 [0, 0] ⟨true, 1000, [2], [6]⟩ = .ok [1, 77] := by
  refine ⟨?_, rfl⟩
  intro i hi
  interval_cases i <;> decide +kernel

/-! ### Views -/

section
variable [Zero K]

/-- The storage of a matrix suits its dimensions. -/
def Consistent (m : Efl.Mat K) : Prop := m.cols ≤ m.stride ∧ m.size = m.stride * m.rows

theorem act_storage (o o' : Obj K) (x : Action K) (h : act o x = .ok o') : o.storage ≤ o'.storage ∧
    ((∀ r c, x ≠ .resize r c) → o'.storage = o.storage ∧ o'.mat.rows = o.mat.rows ∧ o'.mat.cols = o.mat.cols ∧
      o'.mat.stride = o.mat.stride ∧ o'.mat.size = o.mat.size) := by
  cases x with
  | setItem i j v =>
    simp only [act] at h
    unfold Efl.Mat.setAt Efl.Mat.put at h
    split at h
    · cases h
      rename_i m hm
      split at hm
      · cases hm
      · split at hm
        · cases hm; exact ⟨Nat.le_refl _, fun _ => ⟨rfl, rfl, rfl, rfl, rfl⟩⟩
        · cases hm
    · cases h; exact ⟨Nat.le_refl _, fun _ => ⟨rfl, rfl, rfl, rfl, rfl⟩⟩
    · cases h
  | fill v =>
    simp only [act] at h
    unfold Efl.Mat.fill at h
    split at h
    · cases h
      rename_i m hm
      split at hm
      · cases hm
      · cases hm; exact ⟨Nat.le_refl _, fun _ => ⟨rfl, rfl, rfl, rfl, rfl⟩⟩
    · cases h; exact ⟨Nat.le_refl _, fun _ => ⟨rfl, rfl, rfl, rfl, rfl⟩⟩
    · cases h
  | resize r c =>
    simp only [act] at h
    cases h
    exact ⟨Nat.le_succ _, fun hc => absurd rfl (hc r c)⟩

theorem acts_storage : ∀ (xs : List (Action K)) (o o' : Obj K), acts o xs = .ok o' → o.storage ≤ o'.storage ∧
    ((∀ r c, Action.resize r c ∉ xs) → o'.storage = o.storage ∧ o'.mat.rows = o.mat.rows ∧ o'.mat.cols = o.mat.cols ∧
      o'.mat.stride = o.mat.stride ∧ o'.mat.size = o.mat.size) ∧
    ((∃ r c, Action.resize r c ∈ xs) → o.storage < o'.storage)
  | [], o, o', h => by
    simp only [acts] at h
    cases h
    exact ⟨Nat.le_refl _, fun _ => ⟨rfl, rfl, rfl, rfl, rfl⟩, fun hc => by simp at hc⟩
  | x :: xs, o, o', h => by
    rw [acts] at h
    cases e : act o x with
    | ok o1 =>
      rw [e, Outcome.ok_bind] at h
      obtain ⟨a1, a2⟩ := act_storage o o1 x e
      obtain ⟨b1, b2, b3⟩ := acts_storage xs o1 o' h
      refine ⟨Nat.le_trans a1 b1, ?_, ?_⟩
      · intro hn
        obtain ⟨c1, c2, c3, c4, c5⟩ := a2 (fun r c hx => hn r c (by simp [hx]))
        obtain ⟨d1, d2, d3, d4, d5⟩ := b2 (fun r c hx => hn r c (by simp [hx]))
        exact ⟨d1.trans c1, d2.trans c2, d3.trans c3, d4.trans c4, d5.trans c5⟩
      · rintro ⟨r, c, hm⟩
        rcases List.mem_cons.1 hm with rfl | hm
        · have : o1.storage = o.storage + 1 := by simp only [act] at e; cases e; rfl
          omega
        · have := b3 ⟨r, c, hm⟩
          omega
    | throw ex => rw [e] at h; cases h
    | ub => rw [e] at h; cases h

/-- As long as a matrix is not resized, an array that refers to it always has the current elements. -/
theorem view_follows_partial (o o' : Obj K) (xs : List (Action K)) (hc : Consistent o.mat) (h : acts o xs = .ok o')
    (hn : ∀ r c, Action.resize r c ∉ xs) (i j : Nat) : o.view.get o' i j = o'.mat.at i j ∧
      (i < o.mat.rows → j < o.mat.cols → ∃ v, o'.mat.at i j = .ok v) := by
  refine ⟨?_, ?_⟩
  rotate_left
  · intro hi hj
    obtain ⟨e1, e2, e3, e4, e5⟩ := (acts_storage xs o o' h).2.1 hn
    unfold Efl.Mat.at Efl.Mat.get
    rw [if_neg (by omega), e4, e5, hc.2, if_pos (Efl.pos_lt hi (Nat.lt_of_lt_of_le hj hc.1))]
    exact ⟨_, rfl⟩
  obtain ⟨e1, e2, e3, e4, e5⟩ := (acts_storage xs o o' h).2.1 hn
  unfold View.get Obj.view Efl.Mat.at Efl.Mat.get
  dsimp only
  rw [e1, e2, e3, e4]
  by_cases h1 : o.mat.rows ≤ i ∨ o.mat.cols ≤ j
  · rw [if_pos h1, if_pos h1]
  · rw [if_neg h1, if_neg h1, if_neg (by simp)]

/-- Storing a value through such an array stores it in the matrix. -/
theorem view_writes_partial (o o' : Obj K) (xs : List (Action K)) (h : acts o xs = .ok o')
    (hn : ∀ r c, Action.resize r c ∉ xs) (i j : Nat) (v : K) :
    o.view.set o' i j v = (match o'.mat.setAt i j v with | .ok m => .ok { o' with mat := m } | .throw e => .throw e | .ub => .ub) := by
  obtain ⟨e1, e2, e3, e4, e5⟩ := (acts_storage xs o o' h).2.1 hn
  unfold View.set Obj.view Efl.Mat.setAt Efl.Mat.put
  dsimp only
  rw [e1, e2, e3, e4]
  by_cases h1 : o.mat.rows ≤ i ∨ o.mat.cols ≤ j
  · rw [if_pos h1, if_pos h1]
  · rw [if_neg h1, if_neg h1, if_neg (by simp)]
    by_cases h2 : i * o.mat.stride + j < o'.mat.size
    · rw [if_pos h2, if_pos h2]
    · rw [if_neg h2, if_neg h2]

/-- After a `resize()`, reading an element of an array that referred to the matrix before accesses freed memory. -/
theorem view_dangles (o o' : Obj K) (xs : List (Action K)) (h : acts o xs = .ok o') (hr : ∃ r c, Action.resize r c ∈ xs) (i j : Nat)
    (hi : i < o.mat.rows) (hj : j < o.mat.cols) : o.view.get o' i j = .ub := by
  have := (acts_storage xs o o' h).2.2 hr
  unfold View.get Obj.view
  dsimp only
  rw [if_neg (by omega), if_pos (by omega)]

end

example : ∃ o', acts (⟨⟨4, 2, 2, 4, 8, fun k => (k : Int)⟩, 0⟩ : Obj Int) [.setItem 1 1 9, .fill 3, .setItem 0 1 7] = .ok o' ∧
    o'.mat.at 0 1 = .ok 7 := ⟨_, rfl, rfl⟩

example : ∃ o', acts (⟨⟨4, 2, 2, 4, 8, fun k => (k : Int)⟩, 0⟩ : Obj Int) [.resize 3 3] = .ok o' ∧
    (Obj.view (⟨⟨4, 2, 2, 4, 8, fun k => (k : Int)⟩, 0⟩ : Obj Int)).get o' 1 1 = .ub :=
  ⟨_, rfl, view_dangles _ _ [.resize 3 3] rfl ⟨3, 3, by simp⟩ 1 1 (by decide) (by decide)⟩

end Visr.NdArray
