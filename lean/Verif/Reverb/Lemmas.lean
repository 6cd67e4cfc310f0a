import Verif.Reverb.Spec
import Verif.Allocator.Props
import Verif.RoutingParameter.Props
import Verif.AllRad.Lemmas

/-!
# Lemmas for C62 and C63
-/

namespace Visr.Reverb
open Visr Visr.Rotation

/-! ### Comparison of late reverb parameters -/

theorem foldl_max_le (f : Fin 9 → ℝ) (limit : ℝ) (l : List (Fin 9)) : ∀ a : ℝ,
    l.foldl (fun (acc : ℝ) i => max acc (f i)) a ≤ limit ↔ a ≤ limit ∧ ∀ i ∈ l, f i ≤ limit := by
  induction l with
  | nil => simp
  | cons x l ih =>
    intro a
    rw [List.foldl_cons, ih, max_le_iff]
    simp only [List.mem_cons, forall_eq_or_imp, and_assoc]

theorem maxDiff_le {limit : ℝ} (h0 : 0 ≤ limit) (l r : Fin 9 → ℝ) :
    maxDiff l r ≤ limit ↔ ∀ k, |l k - r k| ≤ limit := by
  unfold maxDiff
  rw [foldl_max_le (fun i => |l i - r i|)]
  simp [h0]

theorem equal_iff {limit : ℝ} (h0 : 0 ≤ limit) (a b : Late) : equal limit a b = true ↔ Close limit a b := by
  unfold equal Close
  simp only [Bool.and_eq_true, decide_eq_true_eq, maxDiff_le h0]
  constructor
  · rintro ⟨⟨⟨h1, h2⟩, h3⟩, h4⟩
    exact ⟨h1, fun k => ⟨h2 k, h3 k, h4 k⟩⟩
  · rintro ⟨h1, h2⟩
    exact ⟨⟨⟨h1, fun k => (h2 k).1⟩, fun k => (h2 k).2.1⟩, fun k => (h2 k).2.2⟩

/-! ### Columns of the panning matrix -/

theorem copyStrided_hit (src : ℕ → ℝ) {st : ℕ} (hst : 0 < st) (n : ℕ) : ∀ (sp dp : ℕ) (dst : ℕ → ℝ) (k : ℕ), k < n →
    copyStrided src 1 st n sp dp dst (dp + k * st) = src (sp + k) := by
  have hmiss : ∀ (n sp dp : ℕ) (dst : ℕ → ℝ) (a : ℕ), a < dp → copyStrided src 1 st n sp dp dst a = dst a := by
    intro n
    induction n with
    | zero => intros; rfl
    | succ n ih =>
      intro sp dp dst a ha
      rw [copyStrided, ih _ _ _ _ (by omega), Function.update_of_ne (by omega)]
  induction n with
  | zero => intro _ _ _ k hk; omega
  | succ n ih =>
    intro sp dp dst k hk
    rw [copyStrided]
    cases k with
    | zero =>
      rw [hmiss _ _ _ _ _ (by omega)]
      simp
    | succ k =>
      have := ih (sp + 1) (dp + st) (Function.update dst dp (src sp)) k (by omega)
      rw [show dp + (k + 1) * st = dp + st + k * st by ring, this]
      congr 1
      ring

theorem copyStrided_miss (src : ℕ → ℝ) (st : ℕ) (n : ℕ) : ∀ (sp dp : ℕ) (dst : ℕ → ℝ) (a : ℕ),
    (∀ k < n, a ≠ dp + k * st) → copyStrided src 1 st n sp dp dst a = dst a := by
  induction n with
  | zero => intros; rfl
  | succ n ih =>
    intro sp dp dst a ha
    rw [copyStrided, ih]
    · exact Function.update_of_ne (by simpa using ha 0 (by omega)) _ _
    · intro k hk e
      apply ha (k + 1) (by omega)
      rw [e]
      ring

theorem fillStrided_eq (v : ℝ) (st n : ℕ) : ∀ (sp dp : ℕ) (dst : ℕ → ℝ),
    fillStrided v st n dp dst = copyStrided (fun _ => v) 1 st n sp dp dst := by
  induction n with
  | zero => intros; rfl
  | succ n ih => intro sp dp dst; rw [fillStrided, copyStrided, ih (sp + 1)]

theorem clearColumn_eq (st idx n : ℕ) : ∀ (l sp : ℕ) (pan : ℕ → ℝ),
    clearColumn st idx n l pan = copyStrided (fun _ => 0) 1 st n sp (l * st + idx) pan := by
  induction n with
  | zero => intros; rfl
  | succ n ih =>
    intro l sp pan
    rw [clearColumn, copyStrided, ih (l + 1) (sp + 1)]
    congr 1
    ring

/-! ### Slots -/

/-- Everything that belongs to one reflection slot. -/
@[ext] structure Slot where
  gain : ℝ
  delay : ℝ
  filters : Fin 10 → Biquad.Coef ℝ
  pan : ℕ → ℝ

/-- The contents of slot `i`. -/
noncomputable def slotAt (cfg : Cfg) (p : Params) (pan : ℕ → ℝ) (i : ℕ) : Slot :=
  ⟨p.gains i, p.delays i, p.filters i, fun l => if l < cfg.lsp then pan (l * cfg.stride + i) else 0⟩

/-- The contents for a reflection. -/
noncomputable def slotOf (cfg : Cfg) (r : Reflection) : Slot :=
  ⟨r.level, r.delay, r.filters, fun l => if l < cfg.lsp then
    (match Vbap.gains cfg.eps cfg.vbap r.pos false with
      | .ok g => g.getD l 0
      | _ => 0) else 0⟩

/-- The contents of a silent slot. -/
noncomputable def slotMute : Slot := ⟨0, 0, fun _ => Biquad.Coef.flat, fun _ => 0⟩

theorem le_stride (cfg : Cfg) : cfg.n * cfg.refl ≤ cfg.stride := AllRad.le_next _ _

theorem write_slot {cfg : Cfg} {p : Params} {pan : ℕ → ℝ} {i idx : ℕ} (hi : i < cfg.n * cfg.refl)
    (hidx : idx < cfg.n * cfg.refl) (f : Fin 10 → Biquad.Coef ℝ) (g d : ℝ) (src : ℕ → ℝ) :
    slotAt cfg (p.setReflection idx f g d) (copyStrided src 1 cfg.stride cfg.lsp 0 idx pan) i =
      if i = idx then ⟨g, d, f, fun l => if l < cfg.lsp then src l else 0⟩ else slotAt cfg p pan i := by
  have hs := le_stride cfg
  by_cases h : i = idx
  · subst h
    rw [if_pos rfl]
    unfold slotAt Params.setReflection
    ext l
    · simp
    · simp
    · simp
    · simp only
      by_cases hl : l < cfg.lsp
      · rw [if_pos hl, if_pos hl, show l * cfg.stride + i = i + l * cfg.stride by ring,
          copyStrided_hit src (by omega) _ _ _ _ _ hl]
        simp
      · rw [if_neg hl, if_neg hl]
  · rw [if_neg h]
    unfold slotAt Params.setReflection
    ext l
    · simp [Function.update_of_ne h]
    · simp [Function.update_of_ne h]
    · simp [Function.update_of_ne h]
    · simp only
      by_cases hl : l < cfg.lsp
      · rw [if_pos hl, if_pos hl, copyStrided_miss]
        intro k _ e
        have h1 : (l * cfg.stride + i) % cfg.stride = i := by
          rw [Nat.add_comm, Nat.add_mul_mod_self_right, Nat.mod_eq_of_lt (by omega)]
        have h2 : (idx + k * cfg.stride) % cfg.stride = idx := by
          rw [Nat.add_mul_mod_self_right, Nat.mod_eq_of_lt (by omega)]
        rw [e, h2] at h1
        exact h h1.symm
      · rw [if_neg hl, if_neg hl]

/-! ### Loops over reflections -/

/-- What the loops over reflections leave alone. -/
structure Frame (s s' : State) : Prop where
  alloc : s'.alloc = s.alloc
  prev : s'.prev = s.prev
  shown : s'.shown = s.shown
  sent : s'.sent = s.sent
  routing : s'.work.routing = s.work.routing
  lateGains : s'.work.lateGains = s.work.lateGains
  lateDelays : s'.work.lateDelays = s.work.lateDelays

theorem Frame.refl (s : State) : Frame s s := ⟨rfl, rfl, rfl, rfl, rfl, rfl, rfl⟩

theorem Frame.trans {s s' s'' : State} (h : Frame s s') (h' : Frame s' s'') : Frame s s'' :=
  ⟨h'.1.trans h.1, h'.2.trans h.2, h'.3.trans h.3, h'.4.trans h.4, h'.5.trans h.5, h'.6.trans h.6, h'.7.trans h.7⟩

theorem reflectionLoop_frame (cfg : Cfg) (start : ℕ) (rs : List Reflection) : ∀ (src : ℕ) (s : State),
    Frame s (reflectionLoop cfg start rs src s).1 := by
  induction rs with
  | nil => intro _ s; exact Frame.refl s
  | cons r rs ih =>
    intro src s
    rw [reflectionLoop]
    split
    · exact Frame.refl s
    · exact Frame.refl s
    · split
      · refine Frame.trans ?_ (ih _ _)
        exact ⟨rfl, rfl, rfl, rfl, rfl, rfl, rfl⟩
      · exact Frame.refl s

theorem unusedLoop_frame (cfg : Cfg) (start : ℕ) (m : ℕ) : ∀ (src : ℕ) (s : State),
    Frame s (unusedLoop cfg start m src s).1 := by
  induction m with
  | zero => intro _ s; exact Frame.refl s
  | succ m ih =>
    intro src s
    rw [unusedLoop]
    split
    · refine Frame.trans ?_ (ih _ _)
      exact ⟨rfl, rfl, rfl, rfl, rfl, rfl, rfl⟩
    · exact Frame.refl s

theorem clearLoop_eq (cfg : Cfg) (start : ℕ) (m : ℕ) : ∀ (src : ℕ) (s : State),
    clearLoop cfg start m src s = unusedLoop cfg start m src s := by
  induction m with
  | zero => intros; rfl
  | succ m ih =>
    intro src s
    rw [clearLoop, unusedLoop, clearColumn_eq _ _ _ 0 0, fillStrided_eq _ _ _ 0]
    simp only [Nat.zero_mul, Nat.zero_add, ih]

theorem reflectionLoop_ok {cfg : Cfg} {start : ℕ} (rs : List Reflection) : ∀ (src : ℕ) (s : State),
    (∀ r ∈ rs, ∃ g, Vbap.gains cfg.eps cfg.vbap r.pos false = .ok g) → start + src + rs.length ≤ cfg.n * cfg.refl →
    (reflectionLoop cfg start rs src s).2 = .ok () := by
  induction rs with
  | nil => intros; rfl
  | cons r rs ih =>
    intro src s hg hlen
    obtain ⟨g, e⟩ := hg r (by simp)
    simp only [List.length_cons] at hlen
    rw [reflectionLoop, e]
    simp only
    rw [if_pos (by omega)]
    exact ih _ _ (fun r hr => hg r (by simp [hr])) (by omega)

theorem reflectionLoop_pans {cfg : Cfg} {start : ℕ} (rs : List Reflection) : ∀ (src : ℕ) (s : State),
    (reflectionLoop cfg start rs src s).2 = .ok () →
    ∀ r ∈ rs, ∃ g, Vbap.gains cfg.eps cfg.vbap r.pos false = .ok g := by
  induction rs with
  | nil => intro _ _ _ r hr; cases hr
  | cons r rs ih =>
    intro src s h
    rw [reflectionLoop] at h
    cases e : Vbap.gains cfg.eps cfg.vbap r.pos false with
    | throw x => rw [e] at h; cases h
    | ub => rw [e] at h; cases h
    | ok g =>
      rw [e] at h
      simp only at h
      split at h
      · intro r' hr'
        rcases List.mem_cons.1 hr' with rfl | hr'
        · exact ⟨g, e⟩
        · exact ih _ _ h r' hr'
      · cases h

theorem reflectionLoop_slots {cfg : Cfg} {start : ℕ} (rs : List Reflection) : ∀ (src : ℕ) (s : State),
    (reflectionLoop cfg start rs src s).2 = .ok () → ∀ i < cfg.n * cfg.refl,
    slotAt cfg (reflectionLoop cfg start rs src s).1.work (reflectionLoop cfg start rs src s).1.pan i =
      if start + src ≤ i then
        match rs[i - (start + src)]? with
        | some r => slotOf cfg r
        | none => slotAt cfg s.work s.pan i
      else slotAt cfg s.work s.pan i := by
  induction rs with
  | nil => intro src s _ i _; simp [reflectionLoop]
  | cons r rs ih =>
    intro src s h i hi
    rw [reflectionLoop] at h ⊢
    cases e : Vbap.gains cfg.eps cfg.vbap r.pos false with
    | throw x => rw [e] at h; cases h
    | ub => rw [e] at h; cases h
    | ok g =>
      rw [e] at h
      simp only at h ⊢
      by_cases hlt : start + src < cfg.n * cfg.refl
      · rw [if_pos hlt] at h ⊢
        rw [ih _ _ h i hi]
        simp only [write_slot hi hlt]
        by_cases h1 : i = start + src
        · subst h1
          rw [if_neg (by omega), if_pos rfl, if_pos (by omega)]
          simp [slotOf, e]
        · rw [if_neg h1]
          by_cases h2 : start + src ≤ i
          · rw [if_pos (by omega), if_pos h2, show i - (start + src) = (i - (start + (src + 1))) + 1 by omega,
              List.getElem?_cons_succ]
          · rw [if_neg (by omega), if_neg h2]
      · rw [if_neg hlt] at h
        cases h

theorem unusedLoop_ok {cfg : Cfg} {start : ℕ} (m : ℕ) : ∀ (src : ℕ) (s : State),
    start + src + m ≤ cfg.n * cfg.refl → (unusedLoop cfg start m src s).2 = .ok () := by
  induction m with
  | zero => intros; rfl
  | succ m ih =>
    intro src s h
    rw [unusedLoop, if_pos (by omega)]
    exact ih _ _ (by omega)

theorem unusedLoop_slots {cfg : Cfg} {start : ℕ} (m : ℕ) : ∀ (src : ℕ) (s : State),
    (unusedLoop cfg start m src s).2 = .ok () → ∀ i < cfg.n * cfg.refl,
    slotAt cfg (unusedLoop cfg start m src s).1.work (unusedLoop cfg start m src s).1.pan i =
      if start + src ≤ i ∧ i < start + src + m then slotMute else slotAt cfg s.work s.pan i := by
  induction m with
  | zero =>
    intro src s _ i _
    rw [unusedLoop, if_neg (by omega)]
  | succ m ih =>
    intro src s h i hi
    rw [unusedLoop] at h ⊢
    by_cases hlt : start + src < cfg.n * cfg.refl
    · rw [if_pos hlt] at h ⊢
      rw [ih _ _ h i hi]
      simp only
      rw [clearColumn_eq _ _ _ 0 0]
      simp only [Nat.zero_mul, Nat.zero_add, write_slot hi hlt]
      by_cases h1 : i = start + src
      · subst h1
        rw [if_neg (by omega), if_pos rfl, if_pos (by omega)]
        simp [slotMute]
      · rw [if_neg h1]
        by_cases h2 : start + src ≤ i ∧ i < start + src + (m + 1)
        · rw [if_pos (by omega), if_pos h2]
        · rw [if_neg (by omega), if_neg h2]
    · rw [if_neg hlt] at h
      cases h

/-! ### Routing -/

theorem graph_of_ordered {r : List RoutingParameter.Entry} (h : RoutingParameter.Ordered r) : RoutingParameter.Graph r (fun o => (RoutingParameter.find r o).map RoutingParameter.Entry.input) := by
  refine ⟨h, fun e => ?_⟩
  constructor
  · intro he
    rw [(RoutingParameter.find_some_iff h e.output e).2 ⟨he, rfl⟩]
    rfl
  · intro he
    cases hf : RoutingParameter.find r e.output with
    | none => simp [hf] at he
    | some x =>
      rw [hf] at he
      obtain ⟨h1, h2⟩ := (RoutingParameter.find_some_iff h _ _).1 hf
      simp only [Option.map_some, Option.some.injEq] at he
      have : x = e := by cases x; cases e; simp_all
      exact this ▸ h1

theorem find_input_eq {r : List RoutingParameter.Entry} (h : RoutingParameter.Ordered r) (o : ℕ) :
    ((RoutingParameter.find r o).map RoutingParameter.Entry.input).map (fun i => (⟨i, o⟩ : RoutingParameter.Entry)) = RoutingParameter.find r o := by
  cases hf : RoutingParameter.find r o with
  | none => rfl
  | some x =>
    have := ((RoutingParameter.find_some_iff h _ _).1 hf).2
    simp [← this]

theorem find_add {r : List RoutingParameter.Entry} (h : RoutingParameter.Ordered r) (i ch o : ℕ) :
    RoutingParameter.find (RoutingParameter.addRouting r ⟨i, ch⟩) o = if o = ch then some (⟨i, ch⟩ : RoutingParameter.Entry) else RoutingParameter.find r o := by
  have hg := (RoutingParameter.graph_step (graph_of_ordered h) (.add i ch)).1
  have := hg.find o
  simp only [RoutingParameter.step, RoutingParameter.specStep] at this
  rw [this]
  by_cases hc : o = ch
  · simp [hc]
  · rw [if_neg hc, if_neg hc, find_input_eq h]

theorem find_remove {r : List RoutingParameter.Entry} (h : RoutingParameter.Ordered r) (ch o : ℕ) :
    RoutingParameter.find (RoutingParameter.removeOutput r ch).1 o = if o = ch then none else RoutingParameter.find r o := by
  have hg := (RoutingParameter.graph_step (graph_of_ordered h) (.removeOutput ch)).1
  have := hg.find o
  simp only [RoutingParameter.step, RoutingParameter.specStep] at this
  rw [this]
  by_cases hc : o = ch
  · simp [hc]
  · rw [if_neg hc, if_neg hc, find_input_eq h]

/-- A routing to the channels below `n`. -/
structure Routed (n : ℕ) (r : List RoutingParameter.Entry) : Prop where
  ordered : RoutingParameter.Ordered r
  lt : ∀ e ∈ r, e.output < n

theorem Routed.add {n : ℕ} {r : List RoutingParameter.Entry} (h : Routed n r) (i : ℕ) {ch : ℕ} (hch : ch < n) :
    Routed n (RoutingParameter.addRouting r ⟨i, ch⟩) := by
  refine ⟨RoutingParameter.addRouting_ordered h.1 _, fun e he => ?_⟩
  rcases (RoutingParameter.addRouting_mem _ _ _).1 he with rfl | ⟨h1, -⟩
  · exact hch
  · exact h.2 e h1

theorem Routed.remove {n : ℕ} {r : List RoutingParameter.Entry} (h : Routed n r) (ch : ℕ) :
    Routed n (RoutingParameter.removeOutput r ch).1 := by
  unfold RoutingParameter.removeOutput
  split
  · exact ⟨RoutingParameter.erase_ordered h.1 _, fun e he => h.2 e ((RoutingParameter.erase_mem _ _ _).1 he).1⟩
  · exact h

/-! ### One channel -/

/-- What one iteration of the loop over the channels may change, whatever its outcome; a message has the parameters `late`. -/
structure Step (cfg : Cfg) (ch : ℕ) (late : Late) (s s' : State) : Prop where
  alloc : s'.alloc = s.alloc
  shown : s'.shown = s.shown
  routed : Routed cfg.n s.work.routing → Routed cfg.n s'.work.routing
  routing : Routed cfg.n s.work.routing → ∀ o, o ≠ ch →
    RoutingParameter.find s'.work.routing o = RoutingParameter.find s.work.routing o
  prev : ∀ c, c ≠ ch → s'.prev c = s.prev c
  lateGains : ∀ c, c ≠ ch → s'.work.lateGains c = s.work.lateGains c
  lateDelays : ∀ c, c ≠ ch → s'.work.lateDelays c = s.work.lateDelays c
  sent : (s'.sent = s.sent ∧ s'.prev ch = s.prev ch) ∨
    (equal cfg.limit (s.prev ch) late = false ∧ s'.prev ch = late ∧ s'.sent = s.sent ++ [(ch, late)])

theorem Step.refl (cfg : Cfg) (ch : ℕ) (late : Late) (s : State) : Step cfg ch late s s :=
  ⟨rfl, rfl, id, fun _ _ _ => rfl, fun _ _ => rfl, fun _ _ => rfl, fun _ _ => rfl, .inl ⟨rfl, rfl⟩⟩

theorem Step.frame {cfg : Cfg} {ch : ℕ} {late : Late} {s s' s'' : State} (h : Frame s s') (h' : Step cfg ch late s' s'') :
    Step cfg ch late s s'' := by
  refine ⟨h'.1.trans h.1, h'.2.trans h.3, ?_, ?_, ?_, ?_, ?_, ?_⟩
  · intro hr; exact h'.routed (h.routing ▸ hr)
  · intro hr o ho; rw [h'.routing (h.routing ▸ hr) o ho, h.routing]
  · intro c hc; rw [h'.prev c hc, h.prev]
  · intro c hc; rw [h'.lateGains c hc, h.lateGains]
  · intro c hc; rw [h'.lateDelays c hc, h.lateDelays]
  · rw [← h.sent, ← h.prev]; exact h'.sent

theorem Frame.step {cfg : Cfg} {ch : ℕ} {late : Late} {s s' : State} (h : Frame s s') : Step cfg ch late s s' :=
  Step.frame h (Step.refl cfg ch late s')

theorem setLate_step (cfg : Cfg) (ch : ℕ) (gain : ℝ) (late : Late) (s : State) :
    Step cfg ch late s (setLate cfg ch gain late s).1 := by
  unfold setLate
  split
  · simp only
    split
    · exact ⟨rfl, rfl, id, fun _ _ _ => rfl, fun _ _ => rfl, fun c hc => Function.update_of_ne hc _ _,
        fun c hc => Function.update_of_ne hc _ _, .inl ⟨rfl, rfl⟩⟩
    · rename_i h
      refine ⟨rfl, rfl, id, fun _ _ _ => rfl, fun c hc => Function.update_of_ne hc _ _,
        fun c hc => Function.update_of_ne hc _ _, fun c hc => Function.update_of_ne hc _ _, .inr ⟨?_, ?_, rfl⟩⟩
      · simpa using h
      · simp
  · exact Step.refl cfg ch late s

/-- After the late part: gain, delay, and the stored parameters are close. -/
theorem setLate_done {cfg : Cfg} (h0 : 0 ≤ cfg.limit) {ch : ℕ} (hch : ch < cfg.n) (gain : ℝ) (late : Late) (s : State) :
    (setLate cfg ch gain late s).2 = .ok () ∧ (setLate cfg ch gain late s).1.work.lateGains ch = gain ∧
    (setLate cfg ch gain late s).1.work.lateDelays ch = 0 ∧ Close cfg.limit ((setLate cfg ch gain late s).1.prev ch) late ∧
    (setLate cfg ch gain late s).1.work.routing = s.work.routing ∧
    ∀ i, slotAt cfg (setLate cfg ch gain late s).1.work (setLate cfg ch gain late s).1.pan i = slotAt cfg s.work s.pan i := by
  unfold setLate
  rw [if_pos hch]
  simp only
  split
  · rename_i h
    refine ⟨rfl, by simp, by simp, (equal_iff h0 _ _).1 h, rfl, fun i => rfl⟩
  · refine ⟨rfl, by simp, by simp, ?_, rfl, fun i => rfl⟩
    simp only [Function.update_self]
    unfold Close
    simp [h0]

theorem processSingleObject_step (cfg : Cfg) (o : Obj) (ch : ℕ) (s : State) :
    Step cfg ch o.late s (processSingleObject cfg o ch s).1 := by
  unfold processSingleObject
  split
  · exact Step.refl cfg ch _ s
  · have h1 := reflectionLoop_frame cfg (ch * cfg.refl) o.reflections 0 s
    generalize reflectionLoop cfg (ch * cfg.refl) o.reflections 0 s = x at h1
    obtain ⟨s1, r1⟩ := x
    rcases r1 with ⟨⟩ | e | _
    · simp only
      have h2 := unusedLoop_frame cfg (ch * cfg.refl) (cfg.refl - o.reflections.length) o.reflections.length s1
      generalize unusedLoop cfg (ch * cfg.refl) (cfg.refl - o.reflections.length) o.reflections.length s1 = y at h2
      obtain ⟨s2, r2⟩ := y
      rcases r2 with ⟨⟩ | e | _
      · exact Step.frame (h1.trans h2) (setLate_step _ _ _ _ _)
      · exact (h1.trans h2).step
      · exact (h1.trans h2).step
    · exact h1.step
    · exact h1.step

theorem clearSingleObject_step (cfg : Cfg) (ch : ℕ) (s : State) :
    Step cfg ch Late.silent s (clearSingleObject cfg ch s).1 := by
  unfold clearSingleObject
  rw [clearLoop_eq]
  have h2 := unusedLoop_frame cfg (ch * cfg.refl) cfg.refl 0 s
  generalize unusedLoop cfg (ch * cfg.refl) cfg.refl 0 s = y at h2
  obtain ⟨s2, r2⟩ := y
  rcases r2 with ⟨⟩ | e | _
  · exact Step.frame h2 (setLate_step _ _ _ _ _)
  · exact h2.step
  · exact h2.step

theorem slot_lt {n refl ch j : ℕ} (hch : ch < n) (hj : j < refl) : ch * refl + j < n * refl := by
  have : (ch + 1) * refl ≤ n * refl := Nat.mul_le_mul_right _ hch
  rw [Nat.add_mul, Nat.one_mul] at this
  omega

theorem slots_le {n refl ch : ℕ} (hch : ch < n) : ch * refl + refl ≤ n * refl := by
  have : (ch + 1) * refl ≤ n * refl := Nat.mul_le_mul_right _ hch
  rw [Nat.add_mul, Nat.one_mul] at this
  omega

theorem processSingleObject_ok {cfg : Cfg} (h0 : 0 ≤ cfg.limit) {o : Obj} {ch : ℕ} (hch : ch < cfg.n) (s : State) :
    ((processSingleObject cfg o ch s).2 = .ok () ↔ Fits cfg o) ∧
    (Fits cfg o → ∃ s', processSingleObject cfg o ch s = (s', .ok ()) ∧ s'.work.lateGains ch = 1 ∧ s'.work.lateDelays ch = 0 ∧
      Close cfg.limit (s'.prev ch) o.late ∧ s'.work.routing = s.work.routing ∧
      ∀ i < cfg.n * cfg.refl, slotAt cfg s'.work s'.pan i =
        if ch * cfg.refl ≤ i ∧ i < ch * cfg.refl + cfg.refl then
          match o.reflections[i - ch * cfg.refl]? with
          | some r => slotOf cfg r
          | none => slotMute
        else slotAt cfg s.work s.pan i) := by
  have hall := slots_le (refl := cfg.refl) hch
  have key : Fits cfg o → ∃ s', processSingleObject cfg o ch s = (s', .ok ()) ∧ s'.work.lateGains ch = 1 ∧
      s'.work.lateDelays ch = 0 ∧
      Close cfg.limit (s'.prev ch) o.late ∧ s'.work.routing = s.work.routing ∧
      ∀ i < cfg.n * cfg.refl, slotAt cfg s'.work s'.pan i =
        if ch * cfg.refl ≤ i ∧ i < ch * cfg.refl + cfg.refl then
          match o.reflections[i - ch * cfg.refl]? with
          | some r => slotOf cfg r
          | none => slotMute
        else slotAt cfg s.work s.pan i := by
    rintro ⟨hl, hp⟩
    unfold processSingleObject
    rw [if_neg (by omega)]
    have e1 := reflectionLoop_ok (cfg := cfg) (start := ch * cfg.refl) o.reflections 0 s hp (by omega)
    have f1 := reflectionLoop_frame cfg (ch * cfg.refl) o.reflections 0 s
    have k1 := reflectionLoop_slots (cfg := cfg) (start := ch * cfg.refl) o.reflections 0 s e1
    generalize reflectionLoop cfg (ch * cfg.refl) o.reflections 0 s = x at e1 f1 k1
    obtain ⟨s1, r1⟩ := x
    simp only at e1
    subst e1
    simp only at f1 k1 ⊢
    have e2 := unusedLoop_ok (cfg := cfg) (start := ch * cfg.refl) (cfg.refl - o.reflections.length) o.reflections.length s1
      (by omega)
    have f2 := unusedLoop_frame cfg (ch * cfg.refl) (cfg.refl - o.reflections.length) o.reflections.length s1
    have k2 := unusedLoop_slots (cfg := cfg) (start := ch * cfg.refl) (cfg.refl - o.reflections.length)
      o.reflections.length s1 e2
    generalize unusedLoop cfg (ch * cfg.refl) (cfg.refl - o.reflections.length) o.reflections.length s1 = y at e2 f2 k2
    obtain ⟨s2, r2⟩ := y
    simp only at e2
    subst e2
    simp only at f2 k2 ⊢
    obtain ⟨a1, a2, a3, a4, a5, a6⟩ := setLate_done h0 hch 1 o.late s2
    refine ⟨(setLate cfg ch 1 o.late s2).1, ?_, a2, a3, a4, ?_, ?_⟩
    · rw [← a1]
    · rw [a5, f2.routing, f1.routing]
    · intro i hi
      rw [a6, k2 i hi, k1 i hi]
      simp only [Nat.add_zero]
      by_cases hin : ch * cfg.refl ≤ i ∧ i < ch * cfg.refl + cfg.refl
      · rw [if_pos hin]
        by_cases hlt : i - ch * cfg.refl < o.reflections.length
        · rw [if_neg (by omega), if_pos hin.1, List.getElem?_eq_getElem hlt]
        · rw [if_pos (by omega), List.getElem?_eq_none (by omega)]
      · rw [if_neg hin, if_neg (by omega)]
        by_cases hle : ch * cfg.refl ≤ i
        · rw [if_pos hle, List.getElem?_eq_none (by omega)]
        · rw [if_neg hle]
  refine ⟨⟨?_, ?_⟩, key⟩
  · intro h
    unfold processSingleObject at h
    by_cases hl : o.reflections.length > cfg.refl
    · rw [if_pos hl] at h; cases h
    · rw [if_neg hl] at h
      refine ⟨by omega, ?_⟩
      apply reflectionLoop_pans (start := ch * cfg.refl) o.reflections 0 s
      generalize reflectionLoop cfg (ch * cfg.refl) o.reflections 0 s = x at h
      obtain ⟨s1, r1⟩ := x
      rcases r1 with ⟨⟩ | e | _
      · rfl
      · cases h
      · cases h
  · intro h
    obtain ⟨s', e, -⟩ := key h
    rw [e]

theorem clearSingleObject_ok {cfg : Cfg} (h0 : 0 ≤ cfg.limit) {ch : ℕ} (hch : ch < cfg.n) (s : State) :
    ∃ s', clearSingleObject cfg ch s = (s', .ok ()) ∧ s'.work.lateGains ch = 0 ∧ s'.work.lateDelays ch = 0 ∧
      Close cfg.limit (s'.prev ch) Late.silent ∧ s'.work.routing = s.work.routing ∧
      ∀ i < cfg.n * cfg.refl, slotAt cfg s'.work s'.pan i =
        if ch * cfg.refl ≤ i ∧ i < ch * cfg.refl + cfg.refl then slotMute else slotAt cfg s.work s.pan i := by
  have hall := slots_le (refl := cfg.refl) hch
  unfold clearSingleObject
  rw [clearLoop_eq]
  have e2 := unusedLoop_ok (cfg := cfg) (start := ch * cfg.refl) cfg.refl 0 s (by omega)
  have f2 := unusedLoop_frame cfg (ch * cfg.refl) cfg.refl 0 s
  have k2 := unusedLoop_slots (cfg := cfg) (start := ch * cfg.refl) cfg.refl 0 s e2
  generalize unusedLoop cfg (ch * cfg.refl) cfg.refl 0 s = y at e2 f2 k2
  obtain ⟨s2, r2⟩ := y
  simp only at e2
  subst e2
  simp only at f2 k2 ⊢
  obtain ⟨a1, a2, a3, a4, a5, a6⟩ := setLate_done h0 hch 0 Late.silent s2
  refine ⟨(setLate cfg ch 0 Late.silent s2).1, ?_, a2, a3, a4, ?_, ?_⟩
  · rw [← a1]
  · rw [a5, f2.routing]
  · intro i hi
    rw [a6, k2 i hi]
    simp only [Nat.add_zero]

/-- The parameters of the late reverb of a channel. -/
noncomputable def lateOf (w : Option Obj) : Late :=
  match w with
  | some o => o.late
  | none => Late.silent

/-- The contents of slot `j` of a channel. -/
noncomputable def slotFor (cfg : Cfg) (w : Option Obj) (j : ℕ) : Slot :=
  match w.bind fun o => o.reflections[j]? with
  | some r => slotOf cfg r
  | none => slotMute

/-- Channel `ch` of the new parameters shows the object `w`. -/
structure Done (cfg : Cfg) (w : Option Obj) (s : State) (ch : ℕ) : Prop where
  routing : RoutingParameter.find s.work.routing ch = w.bind fun o => o.channels.head?.map fun c => ⟨c, ch⟩
  lateGains : s.work.lateGains ch = if w.isSome then 1 else 0
  lateDelays : s.work.lateDelays ch = 0
  late : Close cfg.limit (s.prev ch) (lateOf w)
  slots : ∀ j < cfg.refl, slotAt cfg s.work s.pan (ch * cfg.refl + j) = slotFor cfg w j

/-- What the allocator says about channel `ch`. -/
def Assigned (scene : List Obj) (a : Allocator.State) (w : Option Obj) (ch : ℕ) : Prop :=
  match w with
  | none => Allocator.getObjectForChannel a ch = Allocator.cInvalidObjectId
  | some o => Allocator.getObjectForChannel a ch = o.id ∧ o.id ≠ Allocator.cInvalidObjectId ∧ find scene o.id = some o ∧
      o.reverb = true ∧ ∃ c, o.channels = [c]

theorem Step.of_routing {cfg : Cfg} {ch : ℕ} {late : Late} {s s' : State} {r : List RoutingParameter.Entry}
    (h1 : Routed cfg.n s.work.routing → Routed cfg.n r)
    (h2 : Routed cfg.n s.work.routing → ∀ o, o ≠ ch → RoutingParameter.find r o = RoutingParameter.find s.work.routing o)
    (h : Step cfg ch late { s with work := { s.work with routing := r } } s') : Step cfg ch late s s' :=
  ⟨h.alloc, h.shown, fun hr => h.routed (h1 hr), fun hr o ho => (h.routing (h1 hr) o ho).trans (h2 hr o ho),
    h.prev, h.lateGains, h.lateDelays, h.sent⟩

/-- The object of a channel. -/
def who (scene : List Obj) (a : Allocator.State) (ch : ℕ) : Option Obj :=
  if Allocator.getObjectForChannel a ch = Allocator.cInvalidObjectId then none
  else find scene (Allocator.getObjectForChannel a ch)

theorem channelStep_step (cfg : Cfg) (scene : List Obj) (s : State) {ch : ℕ} (hch : ch < cfg.n) :
    Step cfg ch (lateOf (who scene s.alloc ch)) s (channelStep cfg scene s ch).1 := by
  unfold channelStep who
  simp only
  split
  · refine Step.of_routing (fun hr => hr.remove ch) (fun hr o ho => ?_) (clearSingleObject_step cfg ch _)
    rw [find_remove hr.ordered, if_neg ho]
  · split
    · exact Step.refl cfg ch _ s
    · rename_i o hf
      split
      · split
        · exact Step.refl cfg ch _ s
        · rename_i c _ _
          rw [hf]
          refine Step.of_routing (fun hr => hr.add c hch) (fun hr o ho => ?_) (processSingleObject_step cfg _ ch _)
          rw [find_add hr.ordered, if_neg ho]
      · exact Step.refl cfg ch _ s

theorem channelStep_ok {cfg : Cfg} (h0 : 0 ≤ cfg.limit) {scene : List Obj} {s : State} {ch : ℕ} (hch : ch < cfg.n)
    (hr : Routed cfg.n s.work.routing) {w : Option Obj} (hw : Assigned scene s.alloc w ch) :
    ((channelStep cfg scene s ch).2 = .ok () ↔ ∀ o, w = some o → Fits cfg o) ∧
    ((∀ o, w = some o → Fits cfg o) → ∃ s', channelStep cfg scene s ch = (s', .ok ()) ∧ Done cfg w s' ch ∧
      ∀ i < cfg.n * cfg.refl, ¬ (ch * cfg.refl ≤ i ∧ i < ch * cfg.refl + cfg.refl) →
        slotAt cfg s'.work s'.pan i = slotAt cfg s.work s.pan i) := by
  cases w with
  | none =>
    have hw : Allocator.getObjectForChannel s.alloc ch = Allocator.cInvalidObjectId := hw
    have e : channelStep cfg scene s ch = clearSingleObject cfg ch
        { s with work := { s.work with routing := (RoutingParameter.removeOutput s.work.routing ch).1 } } := by
      unfold channelStep
      simp only
      rw [if_pos hw]
    obtain ⟨s', e', a1, a2, a3, a4, a5⟩ := clearSingleObject_ok h0 hch
      { s with work := { s.work with routing := (RoutingParameter.removeOutput s.work.routing ch).1 } }
    rw [e, e']
    refine ⟨by simp, fun _ => ⟨s', rfl, ⟨?_, by simpa using a1, a2, a3, ?_⟩, ?_⟩⟩
    · rw [a4]
      show RoutingParameter.find (RoutingParameter.removeOutput s.work.routing ch).1 ch = _
      rw [find_remove hr.ordered]
      simp
    · intro j hj
      rw [a5 _ (slot_lt hch hj), if_pos (by omega)]
      rfl
    · intro i hi hn
      rw [a5 i hi, if_neg hn]
      rfl
  | some o =>
    obtain ⟨h1, h2, h3, h4, c, h5⟩ : Allocator.getObjectForChannel s.alloc ch = o.id ∧ o.id ≠ Allocator.cInvalidObjectId ∧
      find scene o.id = some o ∧ o.reverb = true ∧ ∃ c, o.channels = [c] := hw
    have e : channelStep cfg scene s ch = processSingleObject cfg o ch
        { s with work := { s.work with routing := RoutingParameter.addRouting s.work.routing ⟨c, ch⟩ } } := by
      unfold channelStep
      simp only
      rw [h1, if_neg h2, h3]
      simp only [h4, h5, if_true]
    obtain ⟨k1, k2⟩ := processSingleObject_ok h0 (o := o) hch
      { s with work := { s.work with routing := RoutingParameter.addRouting s.work.routing ⟨c, ch⟩ } }
    rw [e, k1]
    refine ⟨by simp, fun hf => ?_⟩
    obtain ⟨s', e', a1, a2, a3, a4, a5⟩ := k2 (hf o rfl)
    refine ⟨s', e', ⟨?_, by simpa using a1, a2, a3, ?_⟩, ?_⟩
    · rw [a4]
      show RoutingParameter.find (RoutingParameter.addRouting s.work.routing ⟨c, ch⟩) ch = _
      rw [find_add hr.ordered, if_pos rfl]
      simp [h5]
    · intro j hj
      rw [a5 _ (slot_lt hch hj), if_pos (by omega)]
      simp [slotFor]
    · intro i hi hn
      rw [a5 i hi, if_neg hn]
      rfl

/-- The channels done before are not touched. -/
theorem Done.step {cfg : Cfg} {ch c : ℕ} {late : Late} (hc : c < ch) (hch : ch < cfg.n) {w : Option Obj} {s s' : State}
    (hr : Routed cfg.n s.work.routing) (h : Done cfg w s c)
    (hs : Step cfg ch late s s') (hsl : ∀ i < cfg.n * cfg.refl, ¬ (ch * cfg.refl ≤ i ∧ i < ch * cfg.refl + cfg.refl) →
        slotAt cfg s'.work s'.pan i = slotAt cfg s.work s.pan i) : Done cfg w s' c := by
  have hne : c ≠ ch := by omega
  refine ⟨(hs.routing hr c hne).trans h.routing, (hs.lateGains c hne).trans h.lateGains,
    (hs.lateDelays c hne).trans h.lateDelays, (hs.prev c hne).symm ▸ h.late, fun j hj => ?_⟩
  rw [hsl _ (slot_lt (by omega) hj), h.slots j hj]
  have : (c + 1) * cfg.refl ≤ ch * cfg.refl := Nat.mul_le_mul_right _ hc
  rw [Nat.add_mul, Nat.one_mul] at this
  omega

/-! ### Messages -/

theorem lastFor_append (a b : List (ℕ × Late)) (ch : ℕ) : lastFor (a ++ b) ch = (lastFor b ch).or (lastFor a ch) := by
  unfold lastFor
  rw [List.reverse_append, List.find?_append]
  cases List.find? (fun m => m.1 == ch) b.reverse <;> simp

theorem lastFor_single (ch c : ℕ) (p : Late) : lastFor [(ch, p)] c = if c = ch then some p else none := by
  unfold lastFor
  by_cases h : c = ch
  · simp [h]
  · simp [h, Ne.symm h]

/-- The effect of the iterations for the channels from `ch` on. -/
structure Steps (cfg : Cfg) (late : ℕ → Late) (ch m : ℕ) (s s' : State) : Prop where
  alloc : s'.alloc = s.alloc
  shown : s'.shown = s.shown
  routed : Routed cfg.n s.work.routing → Routed cfg.n s'.work.routing
  sent : ∃ new : List (ℕ × Late), s'.sent = s.sent ++ new ∧ (new.map Prod.fst).Pairwise (· < ·) ∧
    (∀ x ∈ new, ch ≤ x.1 ∧ x.1 < ch + m ∧ equal cfg.limit (s.prev x.1) x.2 = false ∧ x.2 = late x.1) ∧
    ∀ c, s'.prev c = (lastFor new c).getD (s.prev c)

theorem Step.prev_all {cfg : Cfg} {ch : ℕ} {late : Late} {s s' : State} (h : Step cfg ch late s s') :
    ∃ new : List (ℕ × Late), s'.sent = s.sent ++ new ∧ (new = [] ∨ (new = [(ch, late)] ∧ equal cfg.limit (s.prev ch) late = false)) ∧
    ∀ c, s'.prev c = (lastFor new c).getD (s.prev c) := by
  rcases h.sent with ⟨h1, h2⟩ | ⟨h1, h2, h3⟩
  · refine ⟨[], by simp [h1], .inl rfl, fun c => ?_⟩
    by_cases hc : c = ch
    · subst hc; simpa [lastFor] using h2
    · simpa [lastFor] using h.prev c hc
  · refine ⟨[(ch, late)], h3, .inr ⟨rfl, h1⟩, fun c => ?_⟩
    rw [lastFor_single]
    by_cases hc : c = ch
    · subst hc; simpa using h2
    · simpa [hc] using h.prev c hc

theorem Step.steps {cfg : Cfg} {late : ℕ → Late} {ch : ℕ} {s s' : State} (h : Step cfg ch (late ch) s s') (m : ℕ) :
    Steps cfg late ch (m + 1) s s' := by
  obtain ⟨new, h1, h2, h3⟩ := h.prev_all
  refine ⟨h.alloc, h.shown, h.routed, new, h1, ?_, ?_, h3⟩
  · rcases h2 with rfl | ⟨rfl, -⟩ <;> simp
  · rcases h2 with rfl | ⟨rfl, he⟩
    · simp
    · intro x hx
      rw [List.mem_singleton] at hx
      subst hx
      exact ⟨le_refl _, by simp, he, rfl⟩

theorem Step.cons {cfg : Cfg} {late : ℕ → Late} {ch m : ℕ} {s s' s'' : State} (h : Step cfg ch (late ch) s s')
    (h' : Steps cfg late (ch + 1) m s' s'') : Steps cfg late ch (m + 1) s s'' := by
  obtain ⟨a, a1, a2, a3⟩ := h.prev_all
  obtain ⟨b, b1, b2, b3, b4⟩ := h'.sent
  refine ⟨h'.alloc.trans h.alloc, h'.shown.trans h.shown, fun hr => h'.routed (h.routed hr), a ++ b, ?_, ?_, ?_, ?_⟩
  · rw [b1, a1, List.append_assoc]
  · rcases a2 with rfl | ⟨rfl, -⟩
    · simpa using b2
    · rw [List.singleton_append, List.map_cons, List.pairwise_cons]
      refine ⟨fun x hx => ?_, b2⟩
      obtain ⟨y, hy, rfl⟩ := List.mem_map.1 hx
      have := (b3 y hy).1
      omega
  · intro x hx
    rcases List.mem_append.1 hx with hx | hx
    · rcases a2 with rfl | ⟨rfl, he⟩
      · simp at hx
      · rw [List.mem_singleton] at hx
        subst hx
        exact ⟨le_refl _, by simp, he, rfl⟩
    · obtain ⟨c1, c2, c3, c4⟩ := b3 x hx
      refine ⟨by omega, by omega, ?_, c4⟩
      rw [← h.prev x.1 (by omega)]
      exact c3
  · intro c
    rw [b4, a3, lastFor_append]
    cases lastFor b c <;> simp

theorem channelLoop_steps (cfg : Cfg) (scene : List Obj) (m : ℕ) : ∀ (ch : ℕ) (s : State), ch + m ≤ cfg.n →
    Steps cfg (fun c => lateOf (who scene s.alloc c)) ch m s (channelLoop cfg scene m ch s).1 := by
  induction m with
  | zero =>
    intro ch s _
    exact ⟨rfl, rfl, id, [], by simp [channelLoop], by simp, by simp, fun c => by simp [lastFor, channelLoop]⟩
  | succ m ih =>
    intro ch s h
    have h1 := channelStep_step cfg scene s (ch := ch) (by omega)
    unfold channelLoop
    generalize channelStep cfg scene s ch = x at h1
    obtain ⟨s1, r1⟩ := x
    rcases r1 with ⟨⟩ | e | _
    · have := ih (ch + 1) s1 (by omega)
      rw [h1.alloc] at this
      exact Step.cons h1 this
    · exact Step.steps h1 m
    · exact Step.steps h1 m

theorem channelLoop_ok {cfg : Cfg} (h0 : 0 ≤ cfg.limit) {scene : List Obj} {who : ℕ → Option Obj} (m : ℕ) :
    ∀ (ch : ℕ) (s : State), ch + m = cfg.n → Routed cfg.n s.work.routing → (∀ c < cfg.n, Assigned scene s.alloc (who c) c) →
    (∀ c < ch, Done cfg (who c) s c) →
    ((channelLoop cfg scene m ch s).2 = .ok () ↔ ∀ c, ch ≤ c → c < cfg.n → ∀ o, who c = some o → Fits cfg o) ∧
    ((channelLoop cfg scene m ch s).2 = .ok () → ∀ c < cfg.n, Done cfg (who c) (channelLoop cfg scene m ch s).1 c) := by
  induction m with
  | zero =>
    intro ch s h hr ha hd
    refine ⟨⟨fun _ c h1 h2 => ?_, fun _ => rfl⟩, fun _ c hc => ?_⟩
    · omega
    · exact hd c (by omega)
  | succ m ih =>
    intro ch s h hr ha hd
    have hch : ch < cfg.n := by omega
    have h1 := channelStep_step cfg scene s hch
    obtain ⟨k1, k2⟩ := channelStep_ok h0 hch hr (ha ch hch)
    by_cases hf : ∀ o, who ch = some o → Fits cfg o
    · obtain ⟨s', e, d, sl⟩ := k2 hf
      have e' : channelLoop cfg scene (m + 1) ch s = channelLoop cfg scene m (ch + 1) s' := by
        rw [channelLoop, e]
      rw [e] at h1
      obtain ⟨i1, i2⟩ := ih (ch + 1) s' (by omega) (h1.routed hr) (fun c hc => by rw [h1.alloc]; exact ha c hc) (fun c hc => by
        by_cases hcc : c = ch
        · exact hcc ▸ d
        · exact (hd c (by omega)).step (by omega) hch hr h1 sl)
      rw [e', i1]
      refine ⟨⟨fun hh c c1 c2 => ?_, fun hh c c1 c2 => hh c (by omega) c2⟩, fun hh => i2 (i1.2 hh)⟩
      by_cases hcc : c = ch
      · exact hcc ▸ hf
      · exact hh c (by omega) c2
    · have hno : (channelStep cfg scene s ch).2 ≠ .ok () := fun hh => hf (k1.1 hh)
      have e' : (channelLoop cfg scene (m + 1) ch s).2 ≠ .ok () := by
        unfold channelLoop
        generalize channelStep cfg scene s ch = x at hno
        obtain ⟨s1, r1⟩ := x
        rcases r1 with ⟨⟩ | e | _
        · exact absurd rfl hno
        · simp
        · simp
      refine ⟨⟨fun hh => absurd hh e', fun hh => absurd (hh ch (le_refl _) hch) hf⟩, fun hh => absurd hh e'⟩

end Visr.Reverb
