import Verif.PortAudio.Spec
import Mathlib.Data.List.Basic
import Mathlib.Tactic.Ring
import Mathlib.Tactic.Linarith

/-! # Lemmas about the PortAudio interface -/

namespace Visr.PortAudio
open Visr

variable {α F U : Type}

/-- The copy loop succeeds inside the arrays and changes exactly the elements it visits. -/
theorem copyLoop_ok (src : List α) (ss ds : Nat) (hds : 0 < ds) :
    ∀ (n s d : Nat) (dst : List α), (∀ k < n, s + k * ss < src.length) → (∀ k < n, d + k * ds < dst.length) →
      ∃ r, copyLoop src ss ds n s d dst = .ok r ∧ r.length = dst.length ∧
        (∀ k < n, r[d + k * ds]? = src[s + k * ss]?) ∧
        ∀ i, (∀ k < n, i ≠ d + k * ds) → r[i]? = dst[i]? := by
  intro n
  induction n with
  | zero => intro s d dst _ _; exact ⟨dst, rfl, rfl, by simp, by simp⟩
  | succ n ih =>
    intro s d dst hs hd
    have hs0 : s < src.length := by simpa using hs 0 (by omega)
    have hd0 : d < dst.length := by simpa using hd 0 (by omega)
    obtain ⟨r, h1, h2, h3, h4⟩ := ih (s + ss) (d + ds) (dst.set d src[s])
      (fun k hk => by have := hs (k + 1) (by omega); rw [Nat.add_mul] at this; omega)
      (fun k hk => by have := hd (k + 1) (by omega); rw [Nat.add_mul] at this; simp only [List.length_set]; omega)
    refine ⟨r, ?_, by simpa using h2, ?_, ?_⟩
    · rw [copyLoop, List.getElem?_eq_getElem hs0]; simp only [hd0, if_true]; exact h1
    · intro k hk
      cases k with
      | zero =>
        rw [Nat.zero_mul, Nat.zero_mul, Nat.add_zero, Nat.add_zero, h4 d (fun k _ => by omega)]
        rw [List.getElem?_set_self hd0, List.getElem?_eq_getElem hs0]
      | succ k =>
        have := h3 k (by omega)
        rw [Nat.add_mul, Nat.add_mul, Nat.one_mul, Nat.one_mul, Nat.add_comm (k * ds), Nat.add_comm (k * ss),
          ← Nat.add_assoc, ← Nat.add_assoc]
        exact this
    · intro i hi
      have h0 : i ≠ d := by simpa using hi 0 (by omega)
      rw [h4 i (fun k hk => by have := hi (k + 1) (by omega); rw [Nat.add_mul] at this; omega)]
      rw [List.getElem?_set_ne (by omega)]

instance : LawfulMonad Outcome := LawfulMonad.mk' _
  (by intro α x; cases x <;> rfl) (by intros; rfl) (by intro α β γ x f g; cases x <;> rfl)

/-- A loop over channels keeps an invariant indexed by the number of channels done. -/
theorem loop_ok {β : Type} (body : β → Nat → Outcome β) (P : Nat → β → Prop) (b : β) (h0 : P 0 b) :
    ∀ n, (∀ c < n, ∀ b, P c b → ∃ b', body b c = .ok b' ∧ P (c + 1) b') →
      ∃ b', (List.range n).foldlM body b = .ok b' ∧ P n b' := by
  intro n
  induction n with
  | zero => intro _; exact ⟨b, rfl, h0⟩
  | succ n ih =>
    intro h
    obtain ⟨b1, e1, p1⟩ := ih (fun c hc => h c (by omega))
    obtain ⟨b2, e2, p2⟩ := h n (by omega) b1 p1
    refine ⟨b2, ?_, p2⟩
    rw [List.range_succ, List.foldlM_append, e1]
    simp [e2]

theorem le_stride (p a : Nat) : p ≤ stride p a := by
  unfold stride Efl.nextAlignedSize
  split_ifs with h1
  · exact le_refl _
  · simp only
    split_ifs with h2
    · exact le_refl _
    · have h3 := Nat.div_add_mod p a
      have h4 := Nat.mod_lt p (Nat.pos_of_ne_zero h1)
      rw [Nat.add_mul, Nat.mul_comm (p / a)]
      omega

theorem pointers_ok (n str first : Nat) : ∀ k, first + k ≤ n →
    pointers n str first k = .ok ((List.range k).map fun i => str * (first + i)) := by
  intro k
  induction k with
  | zero => intro _; rfl
  | succ k ih =>
    intro h
    rw [pointers, ih (by omega)]
    simp only [Outcome.ok_bind, areaAt]
    rw [if_neg (by omega)]
    simp [List.range_succ]

/-- What holds for the interface at all times: the channels are disjoint parts of the area. -/
structure Good (str : Nat) (x : Iface α F U) : Prop where
  str_le : x.period ≤ str
  len : x.mem.length = (x.nCap + x.nPlay) * str
  cap : x.capPtr = (List.range x.nCap).map fun i => str * i
  play : x.playPtr = (List.range x.nPlay).map fun i => str * (x.nCap + i)

theorem Good.of_mem {str : Nat} {x : Iface α F U} (g : Good str x) (m : List α) (h : m.length = x.mem.length) :
    Good str { x with mem := m } :=
  ⟨g.str_le, by simpa using h.trans g.len, g.cap, g.play⟩

theorem prepare_ok [Zero α] (align nCap nPlay period : Nat) (c : Config) :
    ∃ x : Iface α F U, prepare align nCap nPlay period c = .ok x ∧ Good (stride period align) x ∧
      x.nCap = nCap ∧ x.nPlay = nPlay ∧ x.period = period ∧ x.format = c.format ∧
      x.interleaved = c.interleaved ∧ x.callback = none := by
  simp only [prepare]
  rw [pointers_ok _ _ _ _ (by omega), pointers_ok _ _ _ _ (by omega)]
  exact ⟨_, rfl, ⟨le_stride _ _, by simp, by simp, by simp⟩, rfl, rfl, rfl, rfl, rfl, rfl⟩

/-- Positions of different channels in the area are different. -/
theorem offset_ne {str p c c' t t' : Nat} (hp : p ≤ str) (ht : t < p) (ht' : t' < p) (hc : c ≠ c') :
    str * c + t ≠ str * c' + t' := by
  intro h
  rcases Nat.lt_or_gt_of_ne hc with h1 | h1
  · have := Nat.mul_le_mul_left str (Nat.succ_le_of_lt h1); rw [Nat.mul_succ] at this; omega
  · have := Nat.mul_le_mul_left str (Nat.succ_le_of_lt h1); rw [Nat.mul_succ] at this; omega

theorem offset_lt {str p c n t : Nat} (hp : p ≤ str) (ht : t < p) (hc : c < n) : str * c + t < n * str := by
  have := Nat.mul_le_mul_left str (Nat.succ_le_of_lt hc); rw [Nat.mul_succ] at this
  rw [Nat.mul_comm n]; omega

theorem inter_lt {n p c t : Nat} (hc : c < n) (ht : t < p) : c + t * n < n * p := by
  have := Nat.mul_le_mul_left n (Nat.succ_le_of_lt ht); rw [Nat.mul_succ, Nat.mul_comm n t] at this; omega

/-- The samples of the channels copied so far. -/
def Copied (b : Buf α) (n p k : Nat) (off : Nat → Nat) (m0 m : List α) : Prop :=
  m.length = m0.length ∧ (∀ c t, c < k → t < p → m[off c + t]? = sample n b c t) ∧
    ∀ i, (∀ c t, c < k → t < p → i ≠ off c + t) → m[i]? = m0[i]?

theorem captureChannel_ok {str : Nat} {x : Iface α F U} (g : Good str x) {input : Buf α}
    (hf : Fits x.nCap x.period x.interleaved input) {c : Nat} (hc : c < x.nCap) {m : List α}
    (hm : Copied input x.nCap x.period c (fun c => str * c) x.mem m) :
    ∃ m', captureChannel x input m c = .ok m' ∧
      Copied input x.nCap x.period (c + 1) (fun c => str * c) x.mem m' := by
  obtain ⟨hl, hin, hout⟩ := hm
  have hptr : x.capPtr[c]? = some (str * c) := by rw [g.cap]; simp [hc]
  have hbound : ∀ k < x.period, str * c + k * 1 < m.length := by
    intro k hk
    rw [hl, g.len, Nat.mul_one]
    exact offset_lt g.str_le hk (by omega)
  have key : ∃ m', captureChannel x input m c = .ok m' ∧ m'.length = m.length ∧
      (∀ t < x.period, m'[str * c + t]? = sample x.nCap input c t) ∧
      ∀ i, (∀ t < x.period, i ≠ str * c + t) → m'[i]? = m[i]? := by
    unfold captureChannel
    rw [hptr]
    generalize hi : x.interleaved = inter at hf
    cases hf with
    | flat d hd =>
      obtain ⟨r, h1, h2, h3, h4⟩ := copyLoop_ok d x.nCap 1 one_pos x.period c (str * c) m
        (fun k hk => by rw [hd]; exact inter_lt hc hk) hbound
      refine ⟨r, by simpa using h1, h2, ?_, ?_⟩
      · intro t ht
        have := h3 t ht
        rw [Nat.mul_one] at this
        rw [this, sample, Nat.add_comm]
      · intro i h; exact h4 i (fun k hk => by rw [Nat.mul_one]; exact h k hk)
    | planar d hd hd' =>
      have hcd : c < d.length := by omega
      have hlen := hd' d[c] (List.getElem_mem hcd)
      obtain ⟨r, h1, h2, h3, h4⟩ := copyLoop_ok d[c] 1 1 one_pos x.period 0 (str * c) m
        (fun k hk => by rw [hlen]; omega) hbound
      refine ⟨r, by simpa [hcd] using h1, h2, ?_, ?_⟩
      · intro t ht
        have := h3 t ht
        rw [Nat.mul_one, Nat.zero_add] at this
        rw [this, sample, List.getElem?_eq_getElem hcd]; rfl
      · intro i h; exact h4 i (fun k hk => by rw [Nat.mul_one]; exact h k hk)
  obtain ⟨m', h1, h2, h3, h4⟩ := key
  refine ⟨m', h1, h2.trans hl, ?_, ?_⟩
  · intro c' t hc' ht
    by_cases e : c' = c
    · subst e; exact h3 t ht
    · rw [h4 _ (fun t' ht' => offset_ne g.str_le ht ht' e)]
      exact hin c' t (by omega) ht
  · intro i hi
    rw [h4 i (fun t ht => hi c t (by omega) ht)]
    exact hout i (fun c' t hc' ht => hi c' t (by omega) ht)

theorem transferCapture_ok {str : Nat} {x : Iface α F U} (g : Good str x) (h32 : x.format = .f32) {input : Buf α}
    (hf : Fits x.nCap x.period x.interleaved input) :
    ∃ m, transferCapture x input = .ok { x with mem := m } ∧
      Copied input x.nCap x.period x.nCap (fun c => str * c) x.mem m := by
  obtain ⟨m, h1, h2⟩ := loop_ok (captureChannel x input)
    (fun k m => Copied input x.nCap x.period k (fun c => str * c) x.mem m) x.mem
    ⟨rfl, by simp, by simp⟩ x.nCap (fun c hc b hb => captureChannel_ok g hf hc hb)
  refine ⟨m, ?_, h2⟩
  simp [transferCapture, h32, h1]

/-- The channels seen through pointers. -/
theorem view_get (m : List α) (off : Nat → Nat) (n p c t : Nat) (hc : c < n) (ht : t < p) :
    ((view m ((List.range n).map off) p)[c]?.bind fun ch => ch[t]?) = m[off c + t]? := by
  simp [view, hc, ht]

theorem view_shape (m : List α) (off : Nat → Nat) (n p : Nat) (h : ∀ c t, c < n → t < p → off c + t < m.length) :
    Shape n p (view m ((List.range n).map off) p) := by
  refine ⟨by simp [view], ?_⟩
  intro ch hch
  simp only [view, List.map_map, List.mem_map, List.mem_range, Function.comp] at hch
  obtain ⟨c, hc, rfl⟩ := hch
  rw [List.length_take, List.length_drop]
  rcases Nat.eq_zero_or_pos p with h0 | h0
  · simp [h0]
  · have := h c (p - 1) hc (by omega); omega

/-- The samples of the channels stored so far. -/
def Stored (chs : List (List α)) (p k : Nat) (off : Nat → Nat) (m0 m : List α) : Prop :=
  m.length = m0.length ∧ (∀ c t, c < k → t < p → m[off c + t]? = (chs[c]?.bind fun ch => ch[t]?))

theorem store_ok {str : Nat} {x : Iface α F U} (g : Good str x) {chs : List (List α)}
    (hs : Shape x.nPlay x.period chs) :
    ∃ m, store x.mem x.playPtr x.period chs = .ok m ∧
      Stored chs x.period x.nPlay (fun c => str * (x.nCap + c)) x.mem m := by
  have hlen : x.playPtr.length = x.nPlay := by rw [g.play]; simp
  unfold store
  rw [hlen]
  refine loop_ok _ (fun k m => Stored chs x.period k (fun c => str * (x.nCap + c)) x.mem m) x.mem
    ⟨rfl, by simp⟩ x.nPlay ?_
  rintro c hc m ⟨hl, hin⟩
  have hcd : c < chs.length := by rw [hs.1]; exact hc
  have hch := hs.2 chs[c] (List.getElem_mem hcd)
  obtain ⟨r, h1, h2, h3, h4⟩ := copyLoop_ok chs[c] 1 1 one_pos x.period 0 (str * (x.nCap + c)) m
    (fun k hk => by rw [hch]; omega)
    (fun k hk => by rw [hl, g.len, Nat.mul_one]; exact offset_lt g.str_le hk (by omega))
  refine ⟨r, ?_, h2.trans hl, ?_⟩
  · have hptr : x.playPtr[c]? = some (str * (x.nCap + c)) := by rw [g.play]; simp [hc]
    simp only [storeChannel, hptr, List.getElem?_eq_getElem hcd]
    exact h1
  · intro c' t hc' ht
    by_cases e : c' = c
    · subst e
      have := h3 t ht
      rw [Nat.mul_one, Nat.zero_add] at this
      rw [this, List.getElem?_eq_getElem hcd]; rfl
    · rw [h4 _ (fun t' ht' => by rw [Nat.mul_one]; exact offset_ne g.str_le ht ht' (by omega))]
      exact hin c' t (by omega) ht

/-- The samples of the channels played so far. -/
def Played (m : List α) (n p k : Nat) (inter : Bool) (off : Nat → Nat) (b : Buf α) : Prop :=
  Fits n p inter b ∧ ∀ c t, c < k → t < p → sample n b c t = m[off c + t]?

theorem playbackChannel_ok {str : Nat} {x : Iface α F U} (g : Good str x) {b : Buf α} {c : Nat} (hc : c < x.nPlay)
    (hb : Played x.mem x.nPlay x.period c x.interleaved (fun c => str * (x.nCap + c)) b) :
    ∃ b', playbackChannel x b c = .ok b' ∧
      Played x.mem x.nPlay x.period (c + 1) x.interleaved (fun c => str * (x.nCap + c)) b' := by
  obtain ⟨hf, hin⟩ := hb
  have hptr : x.playPtr[c]? = some (str * (x.nCap + c)) := by rw [g.play]; simp [hc]
  have hsrc : ∀ k < x.period, str * (x.nCap + c) + k * 1 < x.mem.length := by
    intro k hk; rw [g.len, Nat.mul_one]; exact offset_lt g.str_le hk (by omega)
  unfold playbackChannel
  rw [hptr]
  generalize hi : x.interleaved = inter at hf
  cases hf with
  | flat d hd =>
    obtain ⟨r, h1, h2, h3, h4⟩ := copyLoop_ok x.mem 1 x.nPlay (by omega) x.period (str * (x.nCap + c)) c d hsrc
      (fun k hk => by rw [hd]; exact inter_lt hc hk)
    refine ⟨.flat r, by simp [h1], .flat r (h2.trans hd), ?_⟩
    intro c' t hc' ht
    rw [sample]
    by_cases e : c' = c
    · subst e
      have := h3 t ht
      rw [Nat.mul_one] at this
      rw [Nat.add_comm, this]
    · rw [h4 _ (fun k hk he => ?_)]
      · exact hin c' t (by omega) ht
      · have h5 : (t * x.nPlay + c') % x.nPlay = (c + k * x.nPlay) % x.nPlay := by rw [he]
        rw [Nat.mul_comm, Nat.mul_add_mod, Nat.add_mul_mod_self_right, Nat.mod_eq_of_lt hc,
          Nat.mod_eq_of_lt (by omega)] at h5
        exact e h5
  | planar d hd hd' =>
    have hcd : c < d.length := by omega
    have hlen := hd' d[c] (List.getElem_mem hcd)
    obtain ⟨r, h1, h2, h3, h4⟩ := copyLoop_ok x.mem 1 1 one_pos x.period (str * (x.nCap + c)) 0 d[c] hsrc
      (fun k hk => by rw [hlen]; omega)
    refine ⟨.planar (d.set c r), by simp [hcd, h1], .planar _ (by simpa using hd) ?_, ?_⟩
    · intro ch hch
      rcases List.mem_or_eq_of_mem_set hch with h | h
      · exact hd' ch h
      · rw [h, h2, hlen]
    · intro c' t hc' ht
      rw [sample]
      by_cases e : c' = c
      · subst e
        have := h3 t ht
        rw [Nat.mul_one, Nat.zero_add] at this
        rw [List.getElem?_set_self hcd]; exact this
      · rw [List.getElem?_set_ne (by omega)]
        exact hin c' t (by omega) ht

theorem transferPlayback_ok {str : Nat} {x : Iface α F U} (g : Good str x) (h32 : x.format = .f32) {b : Buf α}
    (hf : Fits x.nPlay x.period x.interleaved b) :
    ∃ b', transferPlayback x b = .ok b' ∧
      Played x.mem x.nPlay x.period x.nPlay x.interleaved (fun c => str * (x.nCap + c)) b' := by
  obtain ⟨b', h1, h2⟩ := loop_ok (playbackChannel x)
    (fun k b => Played x.mem x.nPlay x.period k x.interleaved (fun c => str * (x.nCap + c)) b) b
    ⟨hf, by simp⟩ x.nPlay (fun c hc b hb => playbackChannel_ok g hc hb)
  exact ⟨b', by simp [transferPlayback, h32, h1], h2⟩

end Visr.PortAudio
