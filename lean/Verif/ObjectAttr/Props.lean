import Verif.ObjectAttr.Model
import Mathlib.Tactic.SplitIfs
import Mathlib.Data.List.Induction
import Mathlib.Algebra.Order.Ring.Int

/-!
# C105: audio objects keep what was set
-/

namespace Visr.ObjectAttr

variable {K : Type}

/-! ## Specification -/

/-- The value a call gives to a floating point attribute. -/
def Gives [Zero K] (a : NumAttr) : Call K → Option K
  | .num b v => if b = a then some v else none
  | .unsetLock => if a = .lock then some 0 else none
  | _ => none

/-- The value a call gives to an integer attribute. -/
def GivesInt (a : IntAttr) : Call K → Option Nat
  | .int b n => if b = a then some n else none
  | _ => none

/-- The values before the first call: all are zero, but four have none. -/
def initialNum [Zero K] (a : NumAttr) : Option K :=
  if a ∈ [NumAttr.level, .azimuth, .elevation, .refDist] then none else some 0

/-- As `initialNum`; the priority has no value. -/
def initialInt (a : IntAttr) : Option Nat := if a = .priority then none else some 0

/-- The number of channels a call asks for. -/
def Resets : Call K → Option Nat
  | .resetChannels n => some n
  | _ => none

/-- All that can be read from an object is the same. -/
structure SameObject (o o' : Obj K) : Prop where
  kind : o'.kind = o.kind
  id : o'.id = o.id
  num : ∀ a, getNum o' a = getNum o a
  int : ∀ a, getInt o' a = getInt o a
  count : numberOfChannels o' = numberOfChannels o
  channel : ∀ i, channelIndex o' i = channelIndex o i
  outputs : o'.outputs = o.outputs
  output : ∀ i, outputChannel o' i = outputChannel o i

/-! ## Proof -/

theorem attempt_num [Zero K] (o : Obj K) (c : Call K) (a : NumAttr) :
    getNum (attempt o c) a = (Gives a c).or (getNum o a) := by
  cases c with
  | num b v => cases b <;> cases a <;> rfl
  | int b n => cases b <;> cases a <;> rfl
  | unsetLock => cases a <;> rfl
  | resetChannels n => cases a <;> rfl
  | setChannel i c => simp only [attempt, perform, setChannelIndex]; split_ifs <;> cases a <;> rfl
  | outputs l => simp only [attempt, perform, setOutputChannels]; split_ifs <;> cases a <;> rfl
  | outputsArray l => simp only [attempt, perform, setOutputChannelsArray]; split_ifs <;> cases a <;> rfl
  | output i l => simp only [attempt, perform, setOutputChannel]; split_ifs <;> cases a <;> rfl
  | outputList i l => simp only [attempt, perform, setOutputChannelList]; split_ifs <;> cases a <;> rfl

theorem attempt_int [Zero K] (o : Obj K) (c : Call K) (a : IntAttr) :
    getInt (attempt o c) a = (GivesInt a c).or (getInt o a) := by
  cases c with
  | num b v => cases b <;> cases a <;> rfl
  | int b n => cases b <;> cases a <;> rfl
  | unsetLock => cases a <;> rfl
  | resetChannels n => cases a <;> rfl
  | setChannel i c => simp only [attempt, perform, setChannelIndex]; split_ifs <;> cases a <;> rfl
  | outputs l => simp only [attempt, perform, setOutputChannels]; split_ifs <;> cases a <;> rfl
  | outputsArray l => simp only [attempt, perform, setOutputChannelsArray]; split_ifs <;> cases a <;> rfl
  | output i l => simp only [attempt, perform, setOutputChannel]; split_ifs <;> cases a <;> rfl
  | outputList i l => simp only [attempt, perform, setOutputChannelList]; split_ifs <;> cases a <;> rfl

theorem attempt_count [Zero K] (o : Obj K) (c : Call K) :
    numberOfChannels (attempt o c) = (Resets c).getD (numberOfChannels o) := by
  cases c with
  | num b v => cases b <;> rfl
  | int b n => cases b <;> rfl
  | unsetLock => rfl
  | resetChannels n => simp [attempt, perform, resetNumberOfChannels, numberOfChannels, Resets]
  | setChannel i c =>
    simp only [attempt, perform, setChannelIndex]; split_ifs <;> simp [numberOfChannels, Resets]
  | outputs l => simp only [attempt, perform, setOutputChannels]; split_ifs <;> rfl
  | outputsArray l => simp only [attempt, perform, setOutputChannelsArray]; split_ifs <;> rfl
  | output i l => simp only [attempt, perform, setOutputChannel]; split_ifs <;> rfl
  | outputList i l => simp only [attempt, perform, setOutputChannelList]; split_ifs <;> rfl

theorem run_append [Zero K] (o : Obj K) (h : List (Call K)) (c : Call K) :
    run o (h ++ [c]) = attempt (run o h) c := by simp [run, List.foldl_append]

/-- What the last call that gives a value leaves. -/
theorem last_concat {α β : Type} (f : α → Option β) (l : List α) (a : α) :
    ((l ++ [a]).filterMap f).getLast? = (f a).or (l.filterMap f).getLast? := by
  rw [List.filterMap_append]
  cases h : f a with
  | none => simp [h]
  | some b => simp [h]

/-! ## Theorems -/

/-- C105, attributes: after every sequence of calls, each attribute of an object of each type reads as the last value
given to it. Before, it is zero, except for the level and the three attributes of a plane wave: they are indeterminate.
Partial: the attributes are not defined until they are set. -/
theorem attributes_partial [Zero K] (kind : Kind) (id : Nat) (calls : List (Call K)) (a : NumAttr) :
    getNum (run (new kind id) calls) a = ((calls.filterMap (Gives a)).getLast?).or (initialNum a) := by
  induction calls using List.reverseRecOn with
  | nil => cases a <;> rfl
  | append_singleton h c ih => rw [run_append, attempt_num, ih, last_concat, Option.or_assoc]

/-- C105, integer attributes: as `attributes_partial`; the priority is indeterminate until it is set. -/
theorem int_attributes_partial [Zero K] (kind : Kind) (id : Nat) (calls : List (Call K)) (a : IntAttr) :
    getInt (run (new kind id) calls) a = ((calls.filterMap (GivesInt a)).getLast?).or (initialInt a) := by
  induction calls using List.reverseRecOn with
  | nil => cases a <;> rfl
  | append_singleton h c ih => rw [run_append, attempt_int, ih, last_concat, Option.or_assoc]

/-- C105, indeterminate level: false of the code is that objects are silent, or at full level, until their level is set. The
level of an object of any type is indeterminate as long as no call sets it, whatever else is set. -/
theorem level_indeterminate [Zero K] (kind : Kind) (id : Nat) (calls : List (Call K))
    (h : ∀ c ∈ calls, ∀ v, c ≠ .num .level v) : getNum (run (new kind id) calls) .level = none := by
  rw [attributes_partial]
  have : calls.filterMap (Gives NumAttr.level) = [] := by
    rw [List.filterMap_eq_nil_iff]
    intro c hc
    cases c with
    | num b v =>
      have := h _ hc v
      cases b <;> first | rfl | exact absurd rfl this
    | _ => rfl
  rw [this]
  rfl

/-- C105, type and id of an object never change. -/
theorem identity_kept [Zero K] (kind : Kind) (id : Nat) (calls : List (Call K)) :
    (run (new kind id) calls).kind = kind ∧ (run (new kind id) calls).id = id := by
  induction calls using List.reverseRecOn with
  | nil => exact ⟨rfl, rfl⟩
  | append_singleton h c ih =>
    rw [run_append]
    have hk : ∀ o : Obj K, (attempt o c).kind = o.kind ∧ (attempt o c).id = o.id := by
      intro o
      cases c with
      | num b v => cases b <;> exact ⟨rfl, rfl⟩
      | int b n => cases b <;> exact ⟨rfl, rfl⟩
      | unsetLock => exact ⟨rfl, rfl⟩
      | resetChannels n => exact ⟨rfl, rfl⟩
      | setChannel i c => simp only [attempt, perform, setChannelIndex]; split_ifs <;> exact ⟨rfl, rfl⟩
      | outputs l => simp only [attempt, perform, setOutputChannels]; split_ifs <;> exact ⟨rfl, rfl⟩
      | outputsArray l => simp only [attempt, perform, setOutputChannelsArray]; split_ifs <;> exact ⟨rfl, rfl⟩
      | output i l => simp only [attempt, perform, setOutputChannel]; split_ifs <;> exact ⟨rfl, rfl⟩
      | outputList i l => simp only [attempt, perform, setOutputChannelList]; split_ifs <;> exact ⟨rfl, rfl⟩
    rw [(hk _).1, (hk _).2]
    exact ih

/-- C105, number of channels: the last number asked for, none before. -/
theorem channel_count [Zero K] (kind : Kind) (id : Nat) (calls : List (Call K)) :
    numberOfChannels (run (new kind id) calls) = ((calls.filterMap Resets).getLast?).getD 0 := by
  induction calls using List.reverseRecOn with
  | nil => rfl
  | append_singleton h c ih =>
    rw [run_append, attempt_count, ih, last_concat]
    cases Resets c <;> rfl

/-- C105, channels: a new number of channels makes all of them invalid. -/
theorem reset_invalidates (o : Obj K) (n i : Nat) :
    channelIndex (resetNumberOfChannels o n) i = if i < n then .ok (2 ^ 32 - 1) else .error .invalidArgument := by
  unfold channelIndex resetNumberOfChannels numberOfChannels
  by_cases h : i < n
  · simp [h, Nat.not_le.mpr h, invalidChannel]
  · simp [h, Nat.not_lt.mp h]

/-- C105, channels: an index is set if it exists, and nothing else changes. Otherwise the call is refused. -/
theorem channel_set (o : Obj K) (i c : Nat) :
    (numberOfChannels o ≤ i → setChannelIndex o i c = .error .invalidArgument) ∧
    (i < numberOfChannels o → ∃ o', setChannelIndex o i c = .ok o' ∧
      numberOfChannels o' = numberOfChannels o ∧ channelIndex o' i = .ok c ∧
      (∀ j, j ≠ i → channelIndex o' j = channelIndex o j) ∧
      (∀ a, getNum o' a = getNum o a) ∧ (∀ a, getInt o' a = getInt o a) ∧ o'.outputs = o.outputs) := by
  constructor
  · intro h
    simp [setChannelIndex, h]
  · intro h
    refine ⟨{ o with channels := o.channels.set i c }, ?_, ?_, ?_, ?_, ?_, ?_, rfl⟩
    · simp [setChannelIndex, Nat.not_le.mpr h]
    · simp [numberOfChannels]
    · have h' : i < o.channels.length := h
      simp [channelIndex, numberOfChannels, h']
    · intro j hj
      simp [channelIndex, numberOfChannels, List.getElem?_set_ne (Ne.symm hj)]
    · intro a; cases a <;> rfl
    · intro a; cases a <;> rfl

/-- C105, refused calls change nothing. -/
theorem refused_changes_nothing [Zero K] (o : Obj K) (c : Call K) (e : Err) (h : perform o c = .error e) :
    run o [c] = o := by
  simp [run, attempt, h]

theorem setFrom_ok : ∀ (l done rest : List Nat) (o : Obj K), o.channels = done ++ rest → rest.length = l.length →
    setFrom o done.length l = .ok { o with channels := done ++ l }
  | [], done, rest, o, ho, hl => by
    have : rest = [] := List.length_eq_zero_iff.mp hl
    subst this
    simp only [setFrom, ← ho]
  | c :: l, done, rest, o, ho, hl => by
    cases rest with
    | nil => simp at hl
    | cons r rest =>
      have hlt : ¬ done.length ≥ numberOfChannels o := by simp [numberOfChannels, ho]
      simp only [setFrom, setChannelIndex, hlt, if_false]
      have hset : o.channels.set done.length c = (done ++ [c]) ++ rest := by
        rw [ho, List.set_append_right _ _ (Nat.le_refl _)]
        simp
      have := setFrom_ok l (done ++ [c]) rest { o with channels := o.channels.set done.length c } hset
        (by simpa using hl)
      simpa using this

theorem mapM_channels (o : Obj K) : ∀ l : List Nat, (∀ i ∈ l, i < o.channels.length) →
    l.mapM (channelIndex o) = .ok (l.map fun i => o.channels.getD i 0)
  | [], _ => rfl
  | i :: l, h => by
    have hi : ¬ i ≥ numberOfChannels o := Nat.not_le.mpr (h i (by simp))
    rw [List.mapM_cons, mapM_channels o l fun j hj => h j (by simp [hj])]
    simp only [channelIndex, hi, if_false]
    rfl

/-- C105, Python: the list of channels that is assigned is accepted, reads back, and nothing else changes. -/
theorem python_channels [Zero K] (o : Obj K) (l : List Nat) :
    ∃ o', setChannels o l = .ok o' ∧ getChannels o' = .ok l ∧ o'.kind = o.kind ∧ o'.id = o.id ∧
      (∀ a, getNum o' a = getNum o a) ∧ (∀ a, getInt o' a = getInt o a) ∧ o'.outputs = o.outputs := by
  refine ⟨{ o with channels := l }, ?_, ?_, rfl, rfl, fun a => by cases a <;> rfl, fun a => by cases a <;> rfl, rfl⟩
  · have := setFrom_ok l [] (List.replicate l.length invalidChannel) (resetNumberOfChannels o l.length) rfl (by simp)
    simpa [setChannels, resetNumberOfChannels] using this
  · unfold getChannels
    rw [mapM_channels]
    · congr 1
      apply List.ext_getElem
      · simp [numberOfChannels]
      · intro i h1 h2
        simp [h2]
    · intro i hi
      simpa [numberOfChannels] using hi

/-- C105, Python: positions with two or three coordinates are accepted and read back, a missing height is zero. Others
are refused. -/
theorem python_position [Zero K] (o : Obj K) :
    (∀ x y z : K, ∃ o', setPosition o [x, y, z] = .ok o' ∧ getPosition o' = [x, y, z] ∧
      getNum o' .x = some x ∧ getNum o' .y = some y ∧ getNum o' .z = some z) ∧
    (∀ x y : K, ∃ o', setPosition o [x, y] = .ok o' ∧ getPosition o' = [x, y, 0]) ∧
    (∀ pos : List K, pos.length ≠ 2 → pos.length ≠ 3 → setPosition o pos = .error .invalidArgument) := by
  refine ⟨fun x y z => ⟨_, rfl, rfl, rfl, rfl, rfl⟩, fun x y => ⟨_, rfl, rfl⟩, fun pos h2 h3 => ?_⟩
  have : pos.length < 2 ∨ pos.length > 3 := by omega
  simp [setPosition, this]

/-- C105, outputs: lists of loudspeakers are accepted if there is one for each channel, and read back. -/
theorem outputs_set (o : Obj K) (l : List (List String)) :
    (l.length ≠ numberOfChannels o → setOutputChannels o l = .error .invalidArgument) ∧
    (l.length = numberOfChannels o → ∃ o', setOutputChannels o l = .ok o' ∧ o'.outputs = l ∧
      (∀ i (h : i < l.length), outputChannel o' i = .ok l[i]) ∧
      (∀ i, l.length ≤ i → outputChannel o' i = .error .outOfRange)) := by
  constructor
  · intro h
    simp [setOutputChannels, h]
  · intro h
    refine ⟨{ o with outputs := l }, by simp [setOutputChannels, h], rfl, ?_, ?_⟩
    · intro i hi
      simp [outputChannel, hi, Nat.not_le.mpr hi]
    · intro i hi
      simp [outputChannel, hi]

/-- C105, outputs of one channel: the list is replaced if the channel has one, and no other changes. A single loudspeaker
is a list of one. -/
theorem output_set [Zero K] (o : Obj K) (i : Nat) (l : List String) :
    (o.outputs.length ≤ i → perform o (.outputList i l) = .error .outOfRange) ∧
    (i < o.outputs.length → ∃ o', perform o (.outputList i l) = .ok o' ∧ outputChannel o' i = .ok l ∧
      o'.outputs.length = o.outputs.length ∧ ∀ j, j ≠ i → outputChannel o' j = outputChannel o j) ∧
    ∀ s, perform o (.output i s) = perform o (.outputList i [s]) := by
  refine ⟨fun h => by simp [perform, setOutputChannelList, h], fun h => ?_, fun s => rfl⟩
  refine ⟨{ o with outputs := o.outputs.set i l }, ?_, ?_, by simp, ?_⟩
  · simp [perform, setOutputChannelList, Nat.not_le.mpr h]
  · simp [outputChannel, h]
  · intro j hj
    simp [outputChannel, List.getElem?_set_ne (Ne.symm hj)]

/-- C105, one list of outputs for each channel: this remains so after all calls but those which change the number of
channels. Partial: see `outputs_mismatch`. -/
theorem outputs_match_partial [Zero K] (o : Obj K) (calls : List (Call K))
    (h : o.outputs.length = numberOfChannels o) (hr : ∀ c ∈ calls, ∀ n, c ≠ .resetChannels n) :
    (run o calls).outputs.length = numberOfChannels (run o calls) := by
  induction calls using List.reverseRecOn with
  | nil => exact h
  | append_singleton cs c ih =>
    have ih := ih fun d hd => hr d (by simp [hd])
    rw [run_append]
    generalize run o cs = p at ih
    cases c with
    | num b v => cases b <;> exact ih
    | int b n => cases b <;> exact ih
    | unsetLock => exact ih
    | resetChannels n => exact absurd rfl (hr (.resetChannels n) (by simp) n)
    | setChannel i c =>
      simp only [attempt, perform, setChannelIndex]; split_ifs
      · exact ih
      · simpa [numberOfChannels] using ih
    | outputs l =>
      simp only [attempt, perform, setOutputChannels]; split_ifs with hl
      · exact ih
      · exact not_not.mp hl
    | outputsArray l =>
      simp only [attempt, perform, setOutputChannelsArray]; split_ifs with hl
      · exact ih
      · have hl : l.length = numberOfChannels p := not_not.mp hl
        simp only [numberOfChannels] at ih hl ⊢
        simp [resize, hl, ih]
    | output i l =>
      simp only [attempt, perform, setOutputChannel]; split_ifs
      · exact ih
      · simpa [numberOfChannels] using ih
    | outputList i l =>
      simp only [attempt, perform, setOutputChannelList]; split_ifs
      · exact ih
      · simpa [numberOfChannels] using ih

/-- C105, one list of outputs for each channel, false of the code: a change of the number of channels leaves the lists as
they are, so each change to another number violates what is documented for `outputChannels()`. -/
theorem outputs_mismatch [Zero K] (o : Obj K) (n : Nat) (h : o.outputs.length = numberOfChannels o)
    (hn : n ≠ numberOfChannels o) :
    (run o [.resetChannels n]).outputs = o.outputs ∧
    (run o [.resetChannels n]).outputs.length ≠ numberOfChannels (run o [.resetChannels n]) := by
  refine ⟨rfl, ?_⟩
  change o.outputs.length ≠ (List.replicate n invalidChannel).length
  rw [List.length_replicate, h]
  exact Ne.symm hn

/-- C105, array of labels, false of the code: the labels have no effect, only their number is used. For an object
without outputs, all channels are left without loudspeakers. -/
theorem array_labels_lost [Zero K] (o : Obj K) (l l' : List String) (h : l.length = l'.length) :
    perform o (.outputsArray l) = perform o (.outputsArray l') ∧
    (l.length = numberOfChannels o → o.outputs = [] →
      ∃ o', perform o (.outputsArray l) = .ok o' ∧ o'.outputs = List.replicate l.length []) := by
  refine ⟨by simp [perform, setOutputChannelsArray, h], fun hl ho => ?_⟩
  refine ⟨{ o with outputs := resize o.outputs l.length }, by simp [perform, setOutputChannelsArray, hl], ?_⟩
  simp [resize, ho]

/-- C105, channel lock, false of the code: each point source is reported as locked, also if it was never locked or was
unlocked, as long as no negative distance was set. -/
theorem always_reported_locked [Zero K] [LinearOrder K] (kind : Kind) (id : Nat) (calls : List (Call K))
    (h : ∀ v, Call.num .lock v ∈ calls → 0 ≤ v) : channelLock (run (new kind id) calls) = true := by
  have := attributes_partial kind id calls .lock
  have hlock : (run (new kind id) calls).lock = ((calls.filterMap (Gives NumAttr.lock)).getLast?).getD 0 := by
    have e : getNum (run (new kind id) calls) .lock = some (run (new kind id) calls).lock := rfl
    rw [e] at this
    cases hl : (calls.filterMap (Gives NumAttr.lock)).getLast? with
    | none =>
      rw [hl] at this
      simpa [initialNum] using this
    | some v =>
      rw [hl] at this
      simpa using this
  simp only [channelLock, decide_eq_true_eq, hlock]
  cases hl : (calls.filterMap (Gives NumAttr.lock)).getLast? with
  | none => exact le_refl _
  | some v =>
    have hv := List.mem_of_getLast? hl
    rw [List.mem_filterMap] at hv
    obtain ⟨c, hc, hg⟩ := hv
    cases c with
    | num b w =>
      by_cases hb : b = .lock
      · subst hb
        simp [Gives] at hg
        exact hg ▸ h w hc
      · simp [Gives, hb] at hg
    | unsetLock =>
      simp [Gives] at hg
      exact hg ▸ le_refl _
    | _ => simp [Gives] at hg

/-- C105, channel lock: only negative distances are reported as not locked. -/
theorem not_locked_iff [Zero K] [LinearOrder K] (o : Obj K) (v : K) :
    channelLock (run o [.num .lock v]) = false ↔ v < 0 := by
  change decide ((0 : K) ≤ v) = false ↔ v < 0
  exact decide_eq_false_iff_not.trans not_le

/-- C105, clones: the clone of an object of each type has the same type and reads the same. -/
theorem clone_same (o : Obj K) : SameObject o (clone o) where
  kind := by cases h : o.kind <;> simp [clone, cloneKind, h]
  id := rfl
  num a := by cases a <;> rfl
  int a := by cases a <;> rfl
  count := rfl
  channel _ := rfl
  outputs := rfl
  output _ := rfl

/-- C105, clones: are independent. An operation of a program that is no call for an object does not change it, in
particular calls for its clones. -/
theorem others_unchanged [Zero K] (objs : List (Obj K)) (ops : List (Op K)) (i : Nat) (o : Obj K) (hi : objs[i]? = some o)
    (h : ∀ op ∈ ops, ∀ c, op ≠ .call i c) : (ops.foldl opStep objs)[i]? = some o := by
  induction ops generalizing objs with
  | nil => exact hi
  | cons op ops ih =>
    refine ih (opStep objs op) ?_ fun p hp => h p (by simp [hp])
    cases op with
    | call j c =>
      have : j ≠ i := fun e => h (.call j c) (by simp) c (by rw [e])
      simp [opStep, this, hi]
    | clone j =>
      have hlt : i < objs.length := (List.getElem?_eq_some_iff.mp hi).1
      simp only [opStep]
      split
      · rw [List.getElem?_append_left hlt]; exact hi
      · exact hi

/-- C105, clones: a clone is a new object with the values of the original at that time. -/
theorem clone_appended [Zero K] (objs : List (Obj K)) (i : Nat) (o : Obj K) (hi : objs[i]? = some o) :
    ∃ o', opStep objs (.clone i) = objs ++ [o'] ∧ SameObject o o' := by
  refine ⟨clone o, ?_, clone_same o⟩
  simp only [opStep, hi]

/-! ## Examples -/

/-- A history of a plane wave. -/
def history : List (Call Int) :=
  [.num .azimuth 30, .int .priority 1, .resetChannels 2, .setChannel 1 7, .setChannel 2 9, .num .azimuth 45, .num .level 2]

example : getNum (run (new .planeWave 3) history) .azimuth = some 45 := by decide
example : getNum (run (new .planeWave 3) history) .elevation = none := by decide
example : getInt (run (new (K := Int) .planeWave 3) history) .priority = some 1 := by decide
example : channelIndex (run (new (K := Int) .planeWave 3) history) 1 = .ok 7 := by rfl
example : channelIndex (run (new (K := Int) .planeWave 3) history) 0 = .ok (2 ^ 32 - 1) := by rfl
example : channelIndex (run (new (K := Int) .planeWave 3) history) 2 = .error .invalidArgument := by rfl

/-- A channel object with outputs for both channels, and then another number of channels. -/
example :
    let o : Obj Int := run (new .channelObject 1) [.resetChannels 2, .outputs [["M-30"], ["M+30", "M+110"]]]
    o.outputs.length = numberOfChannels o ∧ (run o [.resetChannels 1]).outputs.length = 2 := by decide

/-- A history without a level: hypotheses of `level_indeterminate`. -/
example : getNum (run (new (K := Int) .pointSource 1) [.num .x 1, .resetChannels 1]) .level = none :=
  level_indeterminate _ _ _ (by simp)

/-- An unlocked source is reported as locked: hypotheses of `always_reported_locked`. -/
example : channelLock (run (new (K := Int) .pointSource 1) [.num .lock 5, .unsetLock]) = true :=
  always_reported_locked _ _ _ (by simp)

/-- The original is changed after it was cloned. -/
example : (([.clone 0, .call 0 (.num .x 5)] : List (Op Int)).foldl opStep [new .pointSource 1]).map (·.x) = [5, 0] := by
  decide

end Visr.ObjectAttr
