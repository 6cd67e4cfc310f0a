import Verif.Simd.Complex

/-!
# Lemmas about complete calls of the vectorised functions
-/

namespace Visr.Simd
open Visr

variable {K : Type} [CommRing K]

/-! ### Alignment of the arguments -/

theorem aligned_dvd {fn : Fn} {a : Args K} (h : Aligned fn a) (j : Nat) (hj : 2 ^ j ≤ a.alignment) :
    2 ^ j * fn.size ∣ a.p1 ∧ (fn.usesP2 = true → 2 ^ j * fn.size ∣ a.p2) ∧ 2 ^ j * fn.size ∣ a.y := by
  rcases h with h | ⟨⟨k, hk⟩, h1, h2, h3⟩
  · have := Nat.two_pow_pos j; omega
  · have hjk : j ≤ k := (Nat.pow_le_pow_iff_right (by omega)).1 (hk ▸ hj)
    have d : 2 ^ j * fn.size ∣ a.alignment * fn.size := by
      rw [hk]; exact Nat.mul_dvd_mul_right (Nat.pow_dvd_pow 2 hjk) _
    exact ⟨d.trans (Nat.dvd_of_mod_eq_zero h1), fun hu => d.trans (Nat.dvd_of_mod_eq_zero (h2 hu)),
      d.trans (Nat.dvd_of_mod_eq_zero h3)⟩

theorem aligned_check {fn : Fn} {a : Args K} (hal : a.alignment < 2 ^ 64) (h : Aligned fn a) :
    check fn.size a.p1 a.alignment = true ∧ (fn.usesP2 = true → check fn.size a.p2 a.alignment = true) ∧
      check fn.size a.y a.alignment = true := by
  simp only [check_iff _ _ _ hal]
  rcases h with h | ⟨hk, h1, h2, h3⟩
  · exact ⟨.inl h, fun _ => .inl h, .inl h⟩
  · exact ⟨.inr ⟨hk, h1⟩, fun hu => .inr ⟨hk, h2 hu⟩, .inr ⟨hk, h3⟩⟩

omit [CommRing K] in
theorem check_misaligned {fn : Fn} {a : Args K} (hal : a.alignment < 2 ^ 64) (h : ¬ Aligned fn a) :
    check fn.size a.p1 a.alignment = false ∨ check fn.size a.p2 a.alignment = false ∨
      check fn.size a.y a.alignment = false := by
  by_contra hn
  simp only [not_or, Bool.not_eq_false, check_iff _ _ _ hal] at hn
  obtain ⟨h1, h2, h3⟩ := hn
  apply h
  rcases h1 with h1 | ⟨hk, h1⟩
  · exact .inl h1
  · rcases h2 with h2 | ⟨_, h2⟩
    · exact .inl h2
    · rcases h3 with h3 | ⟨_, h3⟩
      · exact .inl h3
      · exact .inr ⟨hk, h1, fun _ => h2, h3⟩

/-! ### Loops -/

theorem stage (c : Bool) (w : Nat) (hw : 0 < w) (body : Ptr → Mem K → Outcome (Ptr × Mem K)) (P : Nat → Ptr)
    (R : Nat → Mem K) (N : Nat)
    (hbody : c = true → ∀ off, w ∣ off → off + w ≤ N → body (P off) (R off) = .ok (P (off + w), R (off + w)))
    (cnt off : Nat) (hN : off + cnt = N) (hd : w ∣ off) :
    ∃ off' cnt', off' + cnt' = N ∧ w ∣ off' ∧ (c = true → cnt' < w) ∧ (c = false → off' = off) ∧
      loopIf c w body cnt (P off) (R off) = .ok (cnt', P off', R off') := by
  unfold loopIf
  by_cases hc : c = true
  · obtain ⟨off', cnt', h1, h2, h3, _, h5⟩ := loop_at w hw body P R N (hbody hc) cnt off hN hd
    exact ⟨off', cnt', h1, h2, fun _ => h3, (fun h => by rw [hc] at h; cases h), by rw [if_pos hc]; exact h5⟩
  · exact ⟨off, cnt, hN, hd, fun h => absurd h hc, fun _ => rfl, by rw [if_neg hc]⟩

theorem last_stage (body : Ptr → Mem K → Outcome (Ptr × Mem K)) (P : Nat → Ptr) (R : Nat → Mem K) (N : Nat)
    (hbody : ∀ off, off + 1 ≤ N → body (P off) (R off) = .ok (P (off + 1), R (off + 1)))
    (cnt off : Nat) (hN : off + cnt = N) : loop 1 body cnt (P off) (R off) = .ok (0, P N, R N) := by
  obtain ⟨off', cnt', h1, _, h3, _, h5⟩ :=
    loop_at 1 Nat.one_pos body P R N (fun off _ h => hbody off h) cnt off hN (Nat.one_dvd off)
  have : cnt' = 0 := by omega
  subst this
  rw [Nat.add_zero] at h1
  subst h1
  exact h5

theorem at3_zero (s : Nat) (a : Args K) : at3 s a 0 = ⟨a.p1, a.p2, a.y⟩ := by simp [at3]

theorem at2_zero (s : Nat) (a : Args K) : at2 s a 0 = ⟨a.p1, 0, a.y⟩ := by simp [at2]

/-! ### The vectorised functions -/

theorem vectorMultiply_ok (fn : Fn) (f : Feature) (j : Nat)
    (hfn : fn = .multiplyFloat ∧ j = 3 ∨ fn = .multiplyDouble ∧ j = 2) (a : Args K) (m : Mem K)
    (hal : a.alignment < 2 ^ 64) (hs : Separate fn a) (ha : Aligned fn a) :
    vectorMultiply f (2 ^ j) a.p1 a.p2 a.y a.n a.alignment m = .ok (.noError, written fn a m a.n) := by
  have hfn' : fn = .multiplyFloat ∨ fn = .multiplyDouble := hfn.imp And.left And.left
  have hsz : fn.size = 1 := by rcases hfn' with rfl | rfl <;> rfl
  have hu : fn.usesP2 = true := by rcases hfn' with rfl | rfl <;> rfl
  obtain ⟨c1, c2, c3⟩ := aligned_check hal ha
  rw [hsz] at c1 c2 c3
  unfold vectorMultiply
  rw [if_neg (by rw [c1]; simp), if_neg (by rw [c2 hu]; simp), if_neg (by rw [c3]; simp)]
  obtain ⟨o1, n1, h1, _, _, _, e1⟩ := stage f.hasAvx (2 ^ j) (Nat.two_pow_pos j)
    (multiplyBody (decide (2 ^ j ≤ a.alignment)) (2 ^ j)) (at3 1 a) (written fn a m) a.n
    (fun _ off hd ho => multiplyBody_ok fn hfn' a m hs _ _ (fun h => by
      have := aligned_dvd ha j (of_decide_eq_true h)
      rw [hsz, mul_one] at this
      exact ⟨this.1, this.2.1 hu, this.2.2⟩) off hd ho) a.n 0 (Nat.zero_add _) (Nat.dvd_zero _)
  rw [at3_zero, written_zero] at e1
  simp only
  rw [e1, Outcome.ok_bind]
  simp only
  rw [last_stage _ (at3 1 a) (written fn a m) a.n (fun off ho => multiplyScalar_ok fn hfn' a m hs off ho) n1 o1 h1,
    Outcome.ok_bind]
  rfl

theorem vectorMultiplyAdd_ok (fn : Fn) (f : Feature) (j : Nat)
    (hfn : fn = .multiplyAddFloat ∧ j = 2 ∨ fn = .multiplyAddDouble ∧ j = 1) (a : Args K) (m : Mem K)
    (hal : a.alignment < 2 ^ 64) (hs : Separate fn a) (ha : Aligned fn a) :
    vectorMultiplyAddInplace f (2 ^ (j + 1)) a.p1 a.p2 a.y a.n a.alignment m = .ok (.noError, written fn a m a.n) := by
  have hfn' : fn = .multiplyAddFloat ∨ fn = .multiplyAddDouble := hfn.imp And.left And.left
  have hsz : fn.size = 1 := by rcases hfn' with rfl | rfl <;> rfl
  have hu : fn.usesP2 = true := by rcases hfn' with rfl | rfl <;> rfl
  obtain ⟨c1, c2, c3⟩ := aligned_check hal ha
  rw [hsz] at c1 c2 c3
  have hhalf : 2 ^ (j + 1) / 2 = 2 ^ j := by rw [Nat.pow_succ]; exact Nat.mul_div_cancel _ (by omega)
  unfold vectorMultiplyAddInplace
  rw [if_neg (by rw [c1]; simp), if_neg (by rw [c2 hu]; simp), if_neg (by rw [c3]; simp), hhalf]
  obtain ⟨o1, n1, h1, d1, _, _, e1⟩ := stage f.hasAvx (2 ^ (j + 1)) (Nat.two_pow_pos _)
    (multiplyAddBody f (decide (2 ^ (j + 1) ≤ a.alignment)) (2 ^ (j + 1))) (at3 1 a) (written fn a m) a.n
    (fun _ off hd ho => multiplyAddBody_ok fn hfn' f a m hs _ _ (fun h => by
      have := aligned_dvd ha (j + 1) (of_decide_eq_true h)
      rw [hsz, mul_one] at this
      exact ⟨this.1, this.2.1 hu, this.2.2⟩) off hd ho) a.n 0 (Nat.zero_add _) (Nat.dvd_zero _)
  rw [at3_zero, written_zero] at e1
  simp only
  rw [e1, Outcome.ok_bind]
  simp only
  obtain ⟨o2, n2, h2, _, _, _, e2⟩ := loop_at (2 ^ j) (Nat.two_pow_pos j) (multiplyAddBody f false (2 ^ j)) (at3 1 a)
    (written fn a m) a.n (fun off hd ho => multiplyAddBody_ok fn hfn' f a m hs _ _ (fun h => by simp at h) off hd ho)
    n1 o1 h1 ((Nat.pow_dvd_pow 2 (by omega)).trans d1)
  rw [e2, Outcome.ok_bind]
  simp only
  rw [last_stage _ (at3 1 a) (written fn a m) a.n (fun off ho => multiplyAddScalar_ok fn hfn' f a m hs off ho) n2 o2 h2,
    Outcome.ok_bind]
  rfl

theorem cVectorMultiply_ok (f : Feature) (a : Args K) (m : Mem K) (hal : a.alignment < 2 ^ 64)
    (hs : Separate .multiplyComplex a) (ha : Aligned .multiplyComplex a) :
    cVectorMultiply f a.p1 a.p2 a.y a.n a.alignment m = .ok (.noError, written .multiplyComplex a m a.n) := by
  obtain ⟨c1, c2, c3⟩ := aligned_check hal ha
  have c2 := c2 rfl
  rw [show Fn.size .multiplyComplex = 2 from rfl] at c1 c2 c3
  unfold cVectorMultiply
  rw [if_neg (by rw [c1]; simp), if_neg (by rw [c2]; simp), if_neg (by rw [c3]; simp)]
  obtain ⟨o1, n1, h1, d1, _, _, e1⟩ := stage f.hasAvx 4 (by omega)
    (cMultiplyBody4 (decide (4 ≤ a.alignment))) (at3 2 a) (written .multiplyComplex a m) a.n
    (fun _ off hd ho => cMultiplyBody4_ok a m hs _ (fun h => by
      have := aligned_dvd ha 2 (of_decide_eq_true h)
      exact ⟨this.1, this.2.1 rfl, this.2.2⟩) off hd ho) a.n 0 (Nat.zero_add _) (Nat.dvd_zero _)
  rw [at3_zero, written_zero] at e1
  simp only
  rw [e1, Outcome.ok_bind]
  simp only
  obtain ⟨o2, n2, h2, _, _, _, e2⟩ := stage (f.hasAvx && decide (2 ≤ a.alignment)) 2 (by omega) cMultiplyBody2 (at3 2 a)
    (written .multiplyComplex a m) a.n
    (fun h off hd ho => cMultiplyBody2_ok a m hs (aligned_dvd ha 1 (by simpa using (Bool.and_eq_true_iff.1 h).2)).2.2 off hd ho) n1 o1 h1
    (Dvd.dvd.trans ⟨2, rfl⟩ d1)
  rw [e2, Outcome.ok_bind]
  simp only
  rw [last_stage _ (at3 2 a) (written .multiplyComplex a m) a.n (fun off ho => cMultiplyScalar_ok a m hs off ho) n2 o2 h2,
    Outcome.ok_bind]
  rfl

theorem cVectorMultiplyAdd_ok (f : Feature) (a : Args K) (m : Mem K) (hal : a.alignment < 2 ^ 64)
    (hs : Separate .multiplyAddComplex a) (ha : Aligned .multiplyAddComplex a) :
    cVectorMultiplyAddInplace f a.p1 a.p2 a.y a.n a.alignment m =
      .ok (.noError, written .multiplyAddComplex a m a.n) := by
  obtain ⟨c1, c2, c3⟩ := aligned_check hal ha
  have c2 := c2 rfl
  rw [show Fn.size .multiplyAddComplex = 2 from rfl] at c1 c2 c3
  unfold cVectorMultiplyAddInplace
  rw [if_neg (by rw [c1]; simp), if_neg (by rw [c2]; simp), if_neg (by rw [c3]; simp)]
  obtain ⟨o1, n1, h1, d1, _, _, e1⟩ := stage f.hasAvx 4 (by omega)
    (cMultiplyAddBody4 (decide (4 ≤ a.alignment))) (at3 2 a) (written .multiplyAddComplex a m) a.n
    (fun _ off hd ho => cMultiplyAddBody4_ok a m hs _ (fun h => by
      have := aligned_dvd ha 2 (of_decide_eq_true h)
      exact ⟨this.1, this.2.1 rfl, this.2.2⟩) off hd ho) a.n 0 (Nat.zero_add _) (Nat.dvd_zero _)
  rw [at3_zero, written_zero] at e1
  simp only
  rw [e1, Outcome.ok_bind]
  simp only
  obtain ⟨o2, n2, h2, _, _, _, e2⟩ := stage (f.hasAvx && decide (2 ≤ a.alignment)) 2 (by omega) cMultiplyAddBody2 (at3 2 a)
    (written .multiplyAddComplex a m) a.n
    (fun h off hd ho => cMultiplyAddBody2_ok a m hs (by
      have := aligned_dvd ha 1 (by simpa using (Bool.and_eq_true_iff.1 h).2)
      exact ⟨this.1, this.2.1 rfl, this.2.2⟩) off hd ho) n1 o1 h1
    (Dvd.dvd.trans ⟨2, rfl⟩ d1)
  rw [e2, Outcome.ok_bind]
  simp only
  rw [last_stage _ (at3 2 a) (written .multiplyAddComplex a m) a.n (fun off ho => cMultiplyAddScalar_ok a m hs off ho)
    n2 o2 h2, Outcome.ok_bind]
  rfl

theorem cVectorConstAdd_ok (f : Feature) (a : Args K) (m : Mem K)
    (hs : Separate .constAddComplex a) (ha : Aligned .constAddComplex a) :
    cVectorMultiplyConstantAddInplace f a.re a.im a.p1 a.y a.n a.alignment m =
      .ok (.noError, written .constAddComplex a m a.n) := by
  unfold cVectorMultiplyConstantAddInplace
  obtain ⟨o1, n1, h1, d1, _, _, e1⟩ := stage f.hasAvx 4 (by omega)
    (cConstAddBody4 a.re a.im (decide (4 ≤ a.alignment))) (at2 2 a) (written .constAddComplex a m) a.n
    (fun _ off hd ho => cConstAddBody4_ok a m hs _ (fun h => by
      have := aligned_dvd ha 2 (of_decide_eq_true h)
      exact ⟨this.1, this.2.2⟩) off hd ho) a.n 0 (Nat.zero_add _) (Nat.dvd_zero _)
  rw [at2_zero, written_zero] at e1
  simp only
  rw [e1, Outcome.ok_bind]
  simp only
  obtain ⟨o2, n2, h2, _, _, _, e2⟩ := stage (decide (2 ≤ a.alignment)) 2 (by omega) (cConstAddBody2 a.re a.im) (at2 2 a)
    (written .constAddComplex a m) a.n
    (fun h off hd ho => cConstAddBody2_ok a m hs (by
      have := aligned_dvd ha 1 (by simpa using h)
      exact ⟨this.1, this.2.2⟩) off hd ho) n1 o1 h1
    (Dvd.dvd.trans ⟨2, rfl⟩ d1)
  rw [e2, Outcome.ok_bind]
  simp only
  rw [last_stage _ (at2 2 a) (written .constAddComplex a m) a.n (fun off ho => cConstAddScalar_ok a m hs off ho)
    n2 o2 h2, Outcome.ok_bind]
  rfl

theorem vectorConstAdd_ok (f : Feature) (a : Args K) (m : Mem K) (hs : Separate .constAddFloat a)
    (ha : Aligned .constAddFloat a)
    (hy : a.y % 4 = 0 ∨ (if f.hasAvx = true then a.n % 8 < 4 else a.n < 4)) :
    vectorMultiplyConstantAddInplace f a.re a.p1 a.y a.n a.alignment m =
      .ok (.noError, written .constAddFloat a m a.n) := by
  unfold vectorMultiplyConstantAddInplace
  obtain ⟨o1, n1, h1, d1, l1, z1, e1⟩ := stage f.hasAvx 8 (by omega)
    (constAddBody8 f a.re (decide (8 ≤ a.alignment))) (at2 1 a) (written .constAddFloat a m) a.n
    (fun _ off hd ho => constAddBody8_ok f a m hs _ (fun h => by
      have := aligned_dvd ha 3 (of_decide_eq_true h)
      exact ⟨this.1, this.2.2⟩) off hd ho) a.n 0 (Nat.zero_add _) (Nat.dvd_zero _)
  rw [at2_zero, written_zero] at e1
  simp only
  rw [e1, Outcome.ok_bind]
  simp only
  have h2 : ∃ o2 n2, o2 + n2 = a.n ∧ loop 4 (constAddBody4 f a.re) n1 (at2 1 a o1) (written .constAddFloat a m o1) =
      .ok (n2, at2 1 a o2, written .constAddFloat a m o2) := by
    by_cases hy4 : a.y % 4 = 0
    · obtain ⟨o2, n2, h2, _, _, _, e2⟩ := loop_at 4 (by omega) (constAddBody4 f a.re) (at2 1 a)
        (written .constAddFloat a m) a.n
        (fun off hd ho => constAddBody4_ok f a m hs (Nat.dvd_of_mod_eq_zero hy4) off hd ho) n1 o1 h1
        (Dvd.dvd.trans ⟨2, rfl⟩ d1)
      exact ⟨o2, n2, h2, e2⟩
    · have hn : n1 < 4 := by
        rcases hy with hy | hy
        · exact absurd hy hy4
        · split_ifs at hy with hx
          · have := l1 hx; omega
          · have := z1 (by simpa using hx); omega
      exact ⟨o1, n1, h1, by rw [loop, dif_neg (by omega)]⟩
  obtain ⟨o2, n2, h2, e2⟩ := h2
  rw [e2, Outcome.ok_bind]
  simp only
  rw [last_stage _ (at2 1 a) (written .constAddFloat a m) a.n (fun off ho => constAddScalar_ok f a m hs off ho) n2 o2 h2,
    Outcome.ok_bind]
  rfl

theorem vectorRamp_ok (debug : Bool) (f : Feature) (a : Args K) (m : Mem K) (hal : a.alignment < 2 ^ 64)
    (hs : Separate .rampFloat a) (ha : Aligned .rampFloat a) :
    vectorRampScaling debug f a.p1 a.p2 a.y a.re a.im a.n a.accumulate a.alignment m =
      .ok (.noError, written .rampFloat a m a.n) := by
  obtain ⟨c1, c2, c3⟩ := aligned_check hal ha
  have c2 := c2 rfl
  rw [show Fn.size .rampFloat = 1 from rfl] at c1 c2 c3
  unfold vectorRampScaling
  rw [if_neg (by rw [c1]; simp), if_neg (by rw [c2]; simp), if_neg (by rw [c3]; simp)]
  have hd : ∀ j, decide (2 ^ j ≤ a.alignment) = true → AllDvd (2 ^ j) a := fun j h => by
    have := aligned_dvd ha j (of_decide_eq_true h)
    rw [show Fn.size .rampFloat = 1 from rfl, mul_one] at this
    exact ⟨this.1, this.2.1 rfl, this.2.2⟩
  obtain ⟨o1, n1, h1, d1, _, _, e1⟩ := stage f.hasAvx 8 (by omega)
    (rampBody f a.re a.im a.accumulate (decide (8 ≤ a.alignment)) 8) (at3 1 a) (written .rampFloat a m) a.n
    (fun _ off hd' ho => rampBody_ok f a m hs _ 8 (hd 3) off hd' ho) a.n 0 (Nat.zero_add _) (Nat.dvd_zero _)
  rw [at3_zero, written_zero] at e1
  simp only
  rw [e1, Outcome.ok_bind]
  simp only
  obtain ⟨o2, n2, h2, _, _, _, e2⟩ := loop_at 4 (by omega)
    (rampBody f a.re a.im a.accumulate (decide (4 ≤ a.alignment)) 4) (at3 1 a)
    (written .rampFloat a m) a.n (fun off hd' ho => rampBody_ok f a m hs _ 4 (hd 2) off hd' ho) n1 o1 h1
    (Dvd.dvd.trans ⟨2, rfl⟩ d1)
  rw [e2, Outcome.ok_bind]
  simp only
  rw [last_stage _ (at3 1 a) (written .rampFloat a m) a.n (fun off ho => rampScalar_ok a m hs off ho) n2 o2 h2,
    Outcome.ok_bind]
  rfl

/-! ### The reference functions -/

theorem update_eq (m : Mem K) (p : Nat) (v : K) : Function.update m p v = storeu 1 m p (fun _ => v) := by
  funext q
  unfold storeu Function.update
  by_cases h : q = p
  · subst h; rw [dif_pos rfl, if_pos (by omega)]
  · rw [dif_neg h, if_neg (by omega)]

theorem setComplex_eq (m : Mem K) (p : Nat) (re im : K) :
    setComplex m p re im = storeu 2 m p (fun i => if i = 0 then re else im) := by
  funext q
  unfold setComplex storeu Function.update
  by_cases h : q = p + 1
  · subst h; rw [dif_pos rfl, if_pos (by omega)]; simp
  · rw [dif_neg h]
    by_cases h0 : q = p
    · subst h0; rw [dif_pos rfl, if_pos (by omega)]; simp
    · rw [dif_neg h0, if_neg (by omega)]

/-- One element of a reference function is written. -/
theorem step_real (fn : Fn) (hsz : fn.size = 1) (a : Args K) (m : Mem K) (idx : Nat) (v : K) (hv : v = value fn a m idx) :
    Function.update (written fn a m idx) (a.y + idx) v = written fn a m (idx + 1) := by
  have := storeu_written fn a m idx 1 (fun _ => v) (by
    intro i hi
    have : i = 0 := by rw [hsz] at hi; omega
    subst this
    rw [hv, hsz, one_mul, Nat.add_zero])
  rw [hsz, one_mul, one_mul] at this
  rw [update_eq, this]

theorem step_complex (fn : Fn) (hsz : fn.size = 2) (a : Args K) (m : Mem K) (idx : Nat) (re im : K)
    (hre : re = value fn a m (2 * idx)) (him : im = value fn a m (2 * idx + 1)) :
    setComplex (written fn a m idx) (a.y + 2 * idx) re im = written fn a m (idx + 1) := by
  have := storeu_written fn a m idx 1 (fun i => if i = 0 then re else im) (by
    intro i hi
    have : i < 2 := by rw [hsz] at hi; omega
    rw [hsz]
    interval_cases i
    · rw [if_pos rfl, hre]; rfl
    · rw [if_neg (by omega), him])
  rw [hsz, mul_one] at this
  rw [setComplex_eq, this]

theorem read_real {fn : Fn} (hsz : fn.size = 1) {a : Args K} {m : Mem K} {p idx : Nat}
    (h : NoConflict p a.y (fn.size * a.n)) (hi : idx < a.n) : written fn a m idx (p + idx) = m (p + idx) := by
  have := read_written (fn := fn) (a := a) (m := m) (off := idx) (i := 0) h (by rw [hsz]; omega)
  rw [hsz, one_mul, Nat.add_zero] at this
  exact this

theorem read_complex {fn : Fn} (hsz : fn.size = 2) {a : Args K} {m : Mem K} {p idx : Nat}
    (h : NoConflict p a.y (fn.size * a.n)) (hi : idx < a.n) :
    written fn a m idx (p + 2 * idx) = m (p + 2 * idx) ∧ written fn a m idx (p + 2 * idx + 1) = m (p + 2 * idx + 1) := by
  have h0 := read_written (fn := fn) (a := a) (m := m) (off := idx) (i := 0) h (by rw [hsz]; omega)
  have h1 := read_written (fn := fn) (a := a) (m := m) (off := idx) (i := 1) h (by rw [hsz]; omega)
  rw [hsz] at h0 h1
  exact ⟨h0, h1⟩

theorem self_conflict (y n : Nat) : NoConflict y y n := .inl rfl

theorem refMultiplyLoop_ok (fn : Fn) (hfn : fn = .multiplyFloat ∨ fn = .multiplyDouble) (a : Args K) (m : Mem K)
    (hs : Separate fn a) : ∀ k idx, idx + k = a.n →
      refMultiplyLoop a.p1 a.p2 a.y k idx (written fn a m idx) = written fn a m a.n := by
  have hsz : fn.size = 1 := by rcases hfn with rfl | rfl <;> rfl
  have hu : fn.usesP2 = true := by rcases hfn with rfl | rfl <;> rfl
  intro k
  induction k with
  | zero => intro idx h; rw [Nat.add_zero] at h; subst h; rfl
  | succ k ih =>
    intro idx h
    unfold refMultiplyLoop
    rw [read_real hsz hs.1 (by omega), read_real hsz (hs.2 hu) (by omega), step_real fn hsz a m idx _ (by
      rcases hfn with rfl | rfl <;> rfl)]
    exact ih (idx + 1) (by omega)

theorem refMultiplyAddLoop_ok (fn : Fn) (hfn : fn = .multiplyAddFloat ∨ fn = .multiplyAddDouble) (a : Args K) (m : Mem K)
    (hs : Separate fn a) : ∀ k idx, idx + k = a.n →
      refMultiplyAddLoop a.p1 a.p2 a.y k idx (written fn a m idx) = written fn a m a.n := by
  have hsz : fn.size = 1 := by rcases hfn with rfl | rfl <;> rfl
  have hu : fn.usesP2 = true := by rcases hfn with rfl | rfl <;> rfl
  intro k
  induction k with
  | zero => intro idx h; rw [Nat.add_zero] at h; subst h; rfl
  | succ k ih =>
    intro idx h
    unfold refMultiplyAddLoop
    rw [read_real hsz hs.1 (by omega), read_real hsz (hs.2 hu) (by omega), read_real hsz (self_conflict _ _) (by omega),
      step_real fn hsz a m idx _ (by rcases hfn with rfl | rfl <;> rfl)]
    exact ih (idx + 1) (by omega)

theorem refConstAddLoop_ok (a : Args K) (m : Mem K) (hs : Separate .constAddFloat a) : ∀ k idx, idx + k = a.n →
    refConstAddLoop a.re a.p1 a.y k idx (written .constAddFloat a m idx) = written .constAddFloat a m a.n := by
  have hsz : Fn.size .constAddFloat = 1 := rfl
  intro k
  induction k with
  | zero => intro idx h; rw [Nat.add_zero] at h; subst h; rfl
  | succ k ih =>
    intro idx h
    unfold refConstAddLoop
    rw [read_real hsz hs.1 (by omega), read_real hsz (self_conflict _ _) (by omega),
      step_real .constAddFloat hsz a m idx (m (a.y + idx) + a.re * m (a.p1 + idx)) rfl]
    exact ih (idx + 1) (by omega)

theorem refRampLoop_ok (a : Args K) (m : Mem K) (hs : Separate .rampFloat a) : ∀ k idx, idx + k = a.n →
    refRampLoop a.p1 a.p2 a.y a.re a.im a.accumulate k idx (written .rampFloat a m idx) = written .rampFloat a m a.n := by
  have hsz : Fn.size .rampFloat = 1 := rfl
  intro k
  induction k with
  | zero => intro idx h; rw [Nat.add_zero] at h; subst h; rfl
  | succ k ih =>
    intro idx h
    unfold refRampLoop
    simp only
    rw [read_real hsz hs.1 (by omega), read_real hsz (hs.2 rfl) (by omega), read_real hsz (self_conflict _ _) (by omega),
      step_real _ hsz a m idx _ (by simp only [value]; split_ifs <;> ring)]
    exact ih (idx + 1) (by omega)

theorem reAt_mul (m : Mem K) (p idx : Nat) : reAt m p (2 * idx / 2) = m (p + 2 * idx) := by
  unfold reAt; congr 1; omega

theorem imAt_mul (m : Mem K) (p idx : Nat) : imAt m p (2 * idx / 2) = m (p + 2 * idx + 1) := by
  unfold imAt; congr 1; omega

theorem reAt_mul1 (m : Mem K) (p idx : Nat) : reAt m p ((2 * idx + 1) / 2) = m (p + 2 * idx) := by
  unfold reAt; congr 1; omega

theorem imAt_mul1 (m : Mem K) (p idx : Nat) : imAt m p ((2 * idx + 1) / 2) = m (p + 2 * idx + 1) := by
  unfold imAt; congr 1; omega

theorem cell_mul (idx : Nat) (re im : K) : cell (2 * idx) re im = re := by unfold cell; rw [if_pos (by omega)]

theorem cell_mul1 (idx : Nat) (re im : K) : cell (2 * idx + 1) re im = im := by unfold cell; rw [if_neg (by omega)]

theorem refCMultiplyLoop_ok (a : Args K) (m : Mem K) (hs : Separate .multiplyComplex a) : ∀ k idx, idx + k = a.n →
    refCMultiplyLoop a.p1 a.p2 a.y k idx (written .multiplyComplex a m idx) = written .multiplyComplex a m a.n := by
  have hsz : Fn.size .multiplyComplex = 2 := rfl
  intro k
  induction k with
  | zero => intro idx h; rw [Nat.add_zero] at h; subst h; rfl
  | succ k ih =>
    intro idx h
    have hi : idx < a.n := by omega
    unfold refCMultiplyLoop
    simp only
    rw [(read_complex hsz hs.1 hi).1, (read_complex hsz hs.1 hi).2, (read_complex hsz (hs.2 rfl) hi).1,
      (read_complex hsz (hs.2 rfl) hi).2, step_complex _ hsz a m idx _ _
        (by simp only [value, reAt_mul, imAt_mul, cell_mul]) (by simp only [value, reAt_mul1, imAt_mul1, cell_mul1])]
    exact ih (idx + 1) (by omega)

theorem refCMultiplyAddLoop_ok (a : Args K) (m : Mem K) (hs : Separate .multiplyAddComplex a) : ∀ k idx, idx + k = a.n →
    refCMultiplyAddLoop a.p1 a.p2 a.y k idx (written .multiplyAddComplex a m idx) =
      written .multiplyAddComplex a m a.n := by
  have hsz : Fn.size .multiplyAddComplex = 2 := rfl
  intro k
  induction k with
  | zero => intro idx h; rw [Nat.add_zero] at h; subst h; rfl
  | succ k ih =>
    intro idx h
    have hi : idx < a.n := by omega
    unfold refCMultiplyAddLoop
    simp only
    rw [(read_complex hsz hs.1 hi).1, (read_complex hsz hs.1 hi).2, (read_complex hsz (hs.2 rfl) hi).1,
      (read_complex hsz (hs.2 rfl) hi).2, (read_complex hsz (self_conflict _ _) hi).1,
      (read_complex hsz (self_conflict _ _) hi).2, step_complex _ hsz a m idx _ _
        (by simp only [value, reAt_mul, imAt_mul, cell_mul]) (by simp only [value, reAt_mul1, imAt_mul1, cell_mul1])]
    exact ih (idx + 1) (by omega)

theorem refCConstAddLoop_ok (a : Args K) (m : Mem K) (hs : Separate .constAddComplex a) : ∀ k idx, idx + k = a.n →
    refCConstAddLoop a.re a.im a.p1 a.y k idx (written .constAddComplex a m idx) = written .constAddComplex a m a.n := by
  have hsz : Fn.size .constAddComplex = 2 := rfl
  intro k
  induction k with
  | zero => intro idx h; rw [Nat.add_zero] at h; subst h; rfl
  | succ k ih =>
    intro idx h
    have hi : idx < a.n := by omega
    unfold refCConstAddLoop
    simp only
    rw [(read_complex hsz hs.1 hi).1, (read_complex hsz hs.1 hi).2, (read_complex hsz (self_conflict _ _) hi).1,
      (read_complex hsz (self_conflict _ _) hi).2, step_complex _ hsz a m idx _ _
        (by simp only [value, reAt_mul, imAt_mul, cell_mul]) (by simp only [value, reAt_mul1, imAt_mul1, cell_mul1])]
    exact ih (idx + 1) (by omega)

end Visr.Simd
