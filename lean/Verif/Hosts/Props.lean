import Verif.Hosts.Lemmas

/-!
# Signal flows in Matlab and Max/MSP (C82)
-/

namespace Visr.Hosts

/-! ### Matlab -/

/-- **C82**: which Matlab matrices are accepted: real-valued numbers, one row per capture channel, and a whole number of
periods. The output has one row per playback channel and the same length and class. -/
theorem mex_accepted_iff [Zero β] (F : Flow σ α) (hp : F.period ≠ 0) (input : MxArray β) :
    (∃ o, create F input = .ok o) ↔
      (input.cls = .single ∨ input.cls = .double) ∧ input.rows = F.captures ∧ F.period ∣ input.cols := by
  unfold create
  constructor
  · rintro ⟨o, h⟩
    split at h
    · cases h
    split at h
    · cases h
    split at h
    · cases h
    rename_i h1 h2 h3
    refine ⟨?_, by simpa using h2, Nat.dvd_of_mod_eq_zero (by simpa using h3)⟩
    cases hc : input.cls with
    | single => exact .inl rfl
    | double => exact .inr rfl
    | other => exact absurd (by rw [hc]; decide) h1
  · rintro ⟨h1, h2, h3⟩
    rw [if_neg (by rcases h1 with h | h <;> rw [h] <;> decide), if_neg (by simpa using h2), if_neg hp,
      if_neg (by simpa using Nat.mod_eq_zero_of_dvd h3)]
    exact ⟨_, rfl⟩

theorem mex_output_shape [Zero β] (F : Flow σ α) (input o : MxArray β) (h : create F input = .ok o) :
    o.cls = input.cls ∧ o.rows = F.playbacks ∧ o.cols = input.cols ∧ o.data = List.replicate (F.playbacks * input.cols) 0 := by
  unfold create at h
  split at h
  · cases h
  split at h
  · cases h
  split at h
  · cases h
  split at h
  · cases h
  injection h with h
  subst h
  exact ⟨rfl, rfl, rfl, rfl⟩

/-- **C82** (partial: for flows that return `false`; `AudioSignalFlow` returns `true`, see `mex_always_fails`): the columns of the
input matrix are passed to the flow period by period and in order, and its outputs become the columns of the output matrix. -/
theorem mex_output_partial [Zero α] [Zero β] (F : Flow σ α) (toSample : β → α) (fromSample : α → β) (s s' : σ)
    (input : MxArray β) (x : Nat → Nat → β) (ys : List (Nat → Nat → α)) (hcls : input.cls = .single ∨ input.cls = .double)
    (hrows : input.rows = F.captures) (hx : Holds input.data F.captures input.cols x) (hp : F.period ≠ 0)
    (hlen : F.period ∣ input.cols) (hcap : F.captures ≠ 0) (hplay : F.playbacks ≠ 0)
    (hstatus : ∀ s x s' y r, F.proc s x = .ok (s', y, r) → r = false)
    (he : Executed F (fun ch t => toSample (x ch t)) (input.cols / F.period) 0 s s' ys) :
    ∃ o, runMex F toSample fromSample s input = .ok (s', o) ∧ o.rows = F.playbacks ∧ o.cols = input.cols ∧
      Holds o.data F.playbacks input.cols
        (fun ch t => match ys[t / F.period]? with | some y => fromSample (y ch (t % F.period)) | none => 0) := by
  obtain ⟨o, ho⟩ := (mex_accepted_iff F hp input).2 ⟨hcls, hrows, hlen⟩
  obtain ⟨_, h2, h3, h4⟩ := mex_output_shape F input o ho
  have hpos : 0 < F.period := Nat.pos_of_ne_zero hp
  have hyl : ys.length = input.cols / F.period := by
    clear hlen hx ho
    generalize input.cols / F.period = n at he
    generalize 0 = b at he
    induction he with
    | done => rfl
    | step _ _ _ _ _ _ _ _ _ _ ih => simp [ih]
  have hcols : input.cols / F.period * F.period = input.cols := Nat.div_mul_cancel hlen
  obtain ⟨out, b1, b2, _, b4⟩ := blocks_spec F toSample fromSample input.data input.cols x hx hcap hplay hstatus _ 0 s s' ys he
    (by rw [Nat.zero_add, hcols]) o.data (by rw [h4, List.length_replicate])
  refine ⟨{ o with data := out }, ?_, h2, h3, ?_, ?_⟩
  · rw [runMex, ho, Outcome.ok_bind, b1]; rfl
  · rw [b2, h4, List.length_replicate]
  · intro ch hch t ht
    have hlt : t / F.period < ys.length := by rw [hyl]; exact Nat.div_lt_div_of_lt_of_dvd hlen ht
    have := b4 (t / F.period) ys[t / F.period] (List.getElem?_eq_getElem hlt) ch hch (t % F.period) (Nat.mod_lt _ hpos)
    rw [Nat.zero_add, Nat.mul_comm (t / F.period), Nat.div_add_mod] at this
    simp only []
    rw [this, List.getElem?_eq_getElem hlt]

/-- Whatever the signal flow and however well it processes the first period, a Matlab function never succeeds for a signal that
is not empty: the returned `true`, which stands for success, is taken for an error. -/
theorem mex_always_fails [Zero α] [Zero β] (captures playbacks period : Nat)
    (compute : σ → List (List α) → Outcome (σ × (Nat → Nat → α))) (toSample : β → α) (fromSample : α → β) (s : σ)
    (input : MxArray β) (x : Nat → Nat → β) (hcls : input.cls = .single ∨ input.cls = .double) (hrows : input.rows = captures)
    (hx : Holds input.data captures input.cols x) (hp : period ≠ 0) (hlen : period ∣ input.cols) (hne : input.cols ≠ 0)
    (hcap : captures ≠ 0) (hplay : playbacks ≠ 0) (s' : σ) (y : Nat → Nat → α)
    (hc : compute s (block captures period (fun ch t => toSample (x ch t)) 0) = .ok (s', y)) :
    runMex (audioSignalFlow captures playbacks period compute) toSample fromSample s input = .throw .runtimeError := by
  have hF : (audioSignalFlow captures playbacks period compute).captures = captures ∧
    (audioSignalFlow captures playbacks period compute).playbacks = playbacks ∧
    (audioSignalFlow captures playbacks period compute).period = period := ⟨rfl, rfl, rfl⟩
  obtain ⟨o, ho⟩ := (mex_accepted_iff (audioSignalFlow captures playbacks period compute) hp input).2 ⟨hcls, hrows, hlen⟩
  obtain ⟨k, hk⟩ := hlen
  have hk0 : k ≠ 0 := by rintro rfl; exact hne (by simpa using hk)
  have hdiv : input.cols / period = k := by rw [hk]; exact Nat.mul_div_cancel_left k (Nat.pos_of_ne_zero hp)
  obtain ⟨n, rfl⟩ : ∃ n, k = n + 1 := ⟨k - 1, by omega⟩
  have ht := transferInput_spec (audioSignalFlow captures playbacks period compute) toSample input.data 0 input.cols x hx
    (by rw [hF.2.2, hk, Nat.zero_add, Nat.one_mul]; exact Nat.le_mul_of_pos_right _ (by omega)) (List.range captures) (by simp [hF])
  have hc' : (audioSignalFlow captures playbacks period compute).proc s ((List.range captures).map fun ch =>
      (List.range (audioSignalFlow captures playbacks period compute).period).map fun i =>
        toSample (x ch (0 * (audioSignalFlow captures playbacks period compute).period + i))) = .ok (s', y, true) := by
    show (do let (s', y) ← compute s (block captures period (fun ch t => toSample (x ch t)) 0); _) = _
    rw [hc]; rfl
  rw [runMex, ho, Outcome.ok_bind, hF.2.2, hdiv, blocks, hF.1, ht, Outcome.ok_bind, if_neg (by rw [hF.2.1]; simp [hcap, hplay]), hc']
  rfl

/-- The flow's exceptions are passed on. -/
theorem mex_exception_passed [Zero α] [Zero β] (F : Flow σ α) (toSample : β → α) (fromSample : α → β) (s : σ)
    (input : MxArray β) (x : Nat → Nat → β) (hcls : input.cls = .single ∨ input.cls = .double) (hrows : input.rows = F.captures)
    (hx : Holds input.data F.captures input.cols x) (hp : F.period ≠ 0) (hlen : F.period ∣ input.cols) (hne : input.cols ≠ 0)
    (hcap : F.captures ≠ 0) (hplay : F.playbacks ≠ 0) (e : Exn)
    (hc : F.proc s (block F.captures F.period (fun ch t => toSample (x ch t)) 0) = .throw e) :
    runMex F toSample fromSample s input = .throw e := by
  obtain ⟨o, ho⟩ := (mex_accepted_iff F hp input).2 ⟨hcls, hrows, hlen⟩
  obtain ⟨k, hk⟩ := hlen
  have hk0 : k ≠ 0 := by rintro rfl; exact hne (by simpa using hk)
  have hdiv : input.cols / F.period = k := by rw [hk]; exact Nat.mul_div_cancel_left k (Nat.pos_of_ne_zero hp)
  obtain ⟨n, rfl⟩ : ∃ n, k = n + 1 := ⟨k - 1, by omega⟩
  have ht := transferInput_spec F toSample input.data 0 input.cols x hx
    (by rw [hk, Nat.zero_add, Nat.one_mul]; exact Nat.le_mul_of_pos_right _ (by omega)) (List.range F.captures) (by simp)
  have hc' : F.proc s ((List.range F.captures).map fun ch =>
      (List.range F.period).map fun i => toSample (x ch (0 * F.period + i))) = .throw e := hc
  rw [runMex, ho, Outcome.ok_bind, hdiv, blocks, ht, Outcome.ok_bind, if_neg (by simp [hcap, hplay]), hc']
  rfl

/-- An empty signal gives an empty output. -/
theorem mex_empty [Zero α] [Zero β] (F : Flow σ α) (toSample : β → α) (fromSample : α → β) (s : σ) (input : MxArray β)
    (hcls : input.cls = .single ∨ input.cls = .double) (hrows : input.rows = F.captures) (hp : F.period ≠ 0) (h0 : input.cols = 0) :
    ∃ o, runMex F toSample fromSample s input = .ok (s, o) ∧ o.data = [] := by
  obtain ⟨o, ho⟩ := (mex_accepted_iff F hp input).2 ⟨hcls, hrows, by simp [h0]⟩
  obtain ⟨_, _, _, h4⟩ := mex_output_shape F input o ho
  rw [h0, Nat.mul_zero, List.replicate_zero] at h4
  exact ⟨o, by rw [runMex, ho, Outcome.ok_bind, h0, Nat.zero_div]; rfl, h4⟩

/-! ### Max/MSP -/

/-- **C82** (partial: the external has been initialised, the host passes what the external expects, and the flow does not fail;
otherwise see the theorems below): the block is processed and every output channel holds the output of the flow. -/
theorem max_block_partial [Zero α] (e : External) (F : Flow σ α) (toSample : β → α) (fromSample : α → β) (s s' : σ)
    (x : Nat → Nat → β) (y : Nat → Nat → α) (r : Bool) (outs : List (List β)) (ho : outs.length = F.playbacks)
    (hr : ∀ o ∈ outs, o.length = F.period)
    (hp : F.proc s (block F.captures F.period (fun ch t => toSample (x ch t)) 0) = .ok (s', y, r)) :
    perform e F toSample fromSample s true true F.period (block F.captures F.period x 0) outs =
      .returned false s' (block F.playbacks F.period (fun ch t => fromSample (y ch t)) 0) := by
  have hi := maxTransferInput_spec F toSample (block F.captures F.period x 0) (fun ch i => x ch (0 * F.period + i)) (by
    intro ch hch
    refine ⟨(List.range F.period).map fun i => x ch (0 * F.period + i), ?_, ?_⟩
    · simp [block, hch]
    · intro i hi; simp [hi]) (List.range F.captures) (by simp)
  obtain ⟨outs', l1, l2, l3, _⟩ := maxTransferOutput_spec F fromSample y (List.range F.playbacks) List.nodup_range outs (by
    intro ch hch
    have hlt : ch < outs.length := by rw [ho]; simpa using hch
    exact ⟨outs[ch], List.getElem?_eq_getElem hlt, le_of_eq (hr _ (List.getElem_mem hlt)).symm⟩)
  have hp' : F.proc s ((List.range F.captures).map fun ch =>
      (List.range F.period).map fun i => toSample (x ch (0 * F.period + i))) = .ok (s', y, r) := hp
  have hout : outs' = block F.playbacks F.period (fun ch t => fromSample (y ch t)) 0 := by
    refine list_eq_map outs' F.playbacks _ (by rw [l2, ho]) ?_
    intro ch hch
    have hlt : ch < outs.length := by omega
    have := l3 ch (by simpa using hch) _ (List.getElem?_eq_getElem hlt)
    rw [this, List.drop_eq_nil_of_le (le_of_eq (hr _ (List.getElem_mem hlt)))]
    simp
  have hb : (block F.captures F.period x 0).length = F.captures := by simp [block]
  simp only [perform, processBlock, hb, ho]
  rw [hi]
  simp only [Outcome.ok_bind]
  rw [hp']
  simp only [Outcome.ok_bind, l1, hout]
  cases e <;> simp

/-- If the flow fails, the exception is not caught by the external: it leaves the function that Max calls. -/
theorem max_failure_escapes [Zero α] (e : External) (F : Flow σ α) (toSample : β → α) (fromSample : α → β) (s : σ)
    (x : Nat → Nat → β) (exn : Exn) (outs : List (List β))
    (hp : F.proc s (block F.captures F.period (fun ch t => toSample (x ch t)) 0) = .throw exn) :
    perform e F toSample fromSample s true true F.period (block F.captures F.period x 0) outs = .escaped := by
  have hi := maxTransferInput_spec F toSample (block F.captures F.period x 0) (fun ch i => x ch (0 * F.period + i)) (by
    intro ch hch
    refine ⟨(List.range F.period).map fun i => x ch (0 * F.period + i), ?_, ?_⟩
    · simp [block, hch]
    · intro i hi; simp [hi]) (List.range F.captures) (by simp)
  have hp' : F.proc s ((List.range F.captures).map fun ch =>
      (List.range F.period).map fun i => toSample (x ch (0 * F.period + i))) = .throw exn := hp
  simp only [perform, processBlock]
  rw [hi]
  simp only [Outcome.ok_bind]
  rw [hp']
  cases e <;> simp

/-- A wrong number of inputs or samples is reported, but the missing samples are read nevertheless. -/
theorem max_missing_samples_undefined [Zero α] (e : External) (F : Flow σ α) (toSample : β → α) (fromSample : α → β) (s : σ)
    (context : Bool) (frames : Nat) (ins outs : List (List β))
    (h : ∃ ch < F.captures, ∀ src, ins[ch]? = some src → src.length < F.period) :
    perform e F toSample fromSample s context true frames ins outs = .undefined := by
  have hm := maxTransferInput_missing F toSample ins (List.range F.captures) (by
    obtain ⟨ch, h1, h2⟩ := h; exact ⟨ch, by simpa using h1, h2⟩)
  simp only [perform, processBlock]
  rw [hm]
  split
  · rfl
  · simp

/-- If the initialisation failed, the next call is not defined, except for the convolver if its context was created. -/
theorem max_uninitialised [Zero α] (e : External) (F : Flow σ α) (toSample : β → α) (fromSample : α → β) (s : σ)
    (context : Bool) (frames : Nat) (ins outs : List (List β)) :
    perform e F toSample fromSample s context false frames ins outs =
      if e = .convolver ∧ context = true then .returned true s outs else .undefined := by
  cases e <;> cases context <;> simp [perform]

/-- Wrong numbers of inputs, outputs or samples are always reported if the block is processed at all, and a block that is
processed without any report had the right numbers. -/
theorem max_mismatch_reported [Zero α] (e : External) (F : Flow σ α) (toSample : β → α) (fromSample : α → β) (s s' : σ)
    (context wrapper : Bool) (frames : Nat) (ins outs outs' : List (List β)) (reported : Bool)
    (h : perform e F toSample fromSample s context wrapper frames ins outs = .returned reported s' outs')
    (hr : reported = false) : ins.length = F.captures ∧ outs.length = F.playbacks ∧ frames = F.period := by
  subst hr
  unfold perform at h
  dsimp only at h
  split at h
  · cases h
  · split at h
    · split at h <;> cases h
    · split at h
      · simp only [Result.returned.injEq, Bool.or_eq_false_iff, decide_eq_false_iff_not, not_or, not_not] at h
        exact h.1.2
      · cases h
      · cases h

/-- Without a context only the gain matrix processes its blocks, as with a context; the others access an invalid pointer. -/
theorem max_without_context [Zero α] (e : External) (F : Flow σ α) (toSample : β → α) (fromSample : α → β) (s : σ)
    (wrapper : Bool) (frames : Nat) (ins outs : List (List β)) :
    perform e F toSample fromSample s false wrapper frames ins outs =
      if e = .gainMatrix then perform e F toSample fromSample s true wrapper frames ins outs else .undefined := by
  cases e <;> simp [perform]

/-- The external for delays reports exactly the wrong numbers of inputs and samples. -/
theorem max_delay_vector_reports (channels period : Nat) (s s' : σ) (frames : Nat) (ins outs outs' : List (List β)) (reported : Bool)
    (h : performDelayVector channels period s frames ins outs = .returned reported s' outs') :
    reported = false ↔ ins.length = channels ∧ frames = period := by
  simp only [performDelayVector, Result.returned.injEq] at h
  rw [← h.1, decide_eq_false_iff_not]
  tauto

/-- The external for delays leaves its output as it was, whatever its input. -/
theorem max_delay_vector_does_nothing (channels period : Nat) (s : σ) (frames : Nat) (ins outs : List (List β)) :
    ∃ reported, performDelayVector channels period s frames ins outs = .returned reported s outs := ⟨_, rfl⟩

namespace Demo

/-- A flow with one capture and two playback channels and periods of two samples; the outputs are the input with the sum of
the previous inputs added, and the opposite of it. -/
def compute (s : Int) (x : List (List Int)) : Outcome (Int × (Nat → Nat → Int)) :=
  match x with
  | [[a, b]] => .ok (s + a + b, fun ch i => (if ch = 0 then 1 else -1) * (s + if i = 0 then a else b))
  | _ => .throw .logicError

/-- The same flow with the other status. -/
def quiet : Flow Int Int :=
  ⟨1, 2, 2, fun s x => do
    let (s', y) ← compute s x
    .ok (s', y, false)⟩

/-- 1, 2, 3, 4 -/
def input : MxArray Int := ⟨.double, 1, 4, [1, 2, 3, 4]⟩

theorem input_holds : Holds input.data 1 4 (fun _ t => t + 1) := by
  refine ⟨rfl, ?_⟩
  intro ch hch t ht
  have : ch = 0 := by omega
  subst this
  match t, ht with
  | 0, _ => rfl
  | 1, _ => rfl
  | 2, _ => rfl
  | 3, _ => rfl

theorem quiet_executed : ∃ ys, Executed quiet (fun _ t => id ((t : Int) + 1)) (input.cols / quiet.period) 0 0 10 ys :=
  ⟨_, .step 1 0 0 3 10 _ false _ rfl (.step 0 1 3 10 10 _ false _ rfl (.done 2 10))⟩

/-- The hypotheses of `mex_output_partial` are met. -/
example : ∃ o, runMex quiet id id 0 input = .ok (10, o) ∧ o.cols = 4 := by
  obtain ⟨ys, he⟩ := quiet_executed
  obtain ⟨o, h1, _, h3, _⟩ := mex_output_partial quiet id id 0 10 input (fun _ t => t + 1) ys (.inr rfl) rfl input_holds
    (by decide) (by decide) (by decide) (by decide)
    (by
      intro s x s' y r h
      simp only [quiet] at h
      cases hc : compute s x with
      | ok v => rw [hc] at h; simp at h; exact h.2.2
      | throw e => rw [hc] at h; simp at h
      | ub => rw [hc] at h; simp at h) he
  exact ⟨o, h1, h3⟩

/-- The flow of the example computes what it should, but the Matlab function fails. -/
theorem matlab_fails : runMex (audioSignalFlow 1 2 2 compute) id id 0 input = .throw .runtimeError :=
  mex_always_fails 1 2 2 compute id id 0 input (fun _ t => t + 1) (.inr rfl) rfl input_holds (by decide) (by decide) (by decide)
    (by decide) (by decide) 3 _ rfl

/-- In Max, the same flow works. -/
example : ∃ y, perform .renderer (audioSignalFlow 1 2 2 compute) id id 5 true true 2 [[1, 2]] [[0, 0], [0, 0]] =
    .returned false 8 y ∧ y = [[6, 7], [-6, -7]] := by
  have h := max_block_partial .renderer (audioSignalFlow 1 2 2 compute) id id 5 8 (fun _ t => (t : Int) + 1)
    (fun ch i => (if ch = 0 then 1 else -1) * (5 + if i = 0 then 1 else 2)) true [[0, 0], [0, 0]] rfl
    (by simp [audioSignalFlow]) rfl
  exact ⟨_, h, by decide⟩

/-- One block with too few samples. -/
theorem short_block : perform .gainMatrix (audioSignalFlow 1 2 2 compute) id id 5 true true 1 [[1]] [[0], [0]] = .undefined :=
  max_missing_samples_undefined _ _ _ _ _ _ _ _ _ ⟨0, by decide, by intro src h; simp at h; subst h; decide⟩

end Demo

end Visr.Hosts
