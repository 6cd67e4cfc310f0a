import Verif.PortAudio.History

/-!
# C74: samples are exchanged with the audio device, channel by channel

The theorems about the PortAudio interface and the cases in which the property does not
hold of the code.
-/

namespace Visr.PortAudio
open Visr

variable {α F U σ : Type}

/-- For every configuration, every history of operations and every block: the device's samples
reach the function that was registered last, and the device gets the samples this function
produced, in the order of the channels and for both buffer layouts.  Without a function nothing
is called and the buffer is left as it was.  Partial: only for the sample format `float32Bit`
(see `other_format_escapes`), and without a function the output is not silence
(see `output_without_function_is_not_silence`). -/
theorem blocks_are_exchanged_partial [Zero α] [DecidableEq F] {lib : Lib} {align nCap nPlay period n : Nat}
    {conf : Option Options} {x : Iface α F U} {p : StreamParams}
    (hc : construct lib align nCap nPlay period conf = (n, .ok (x, p))) (hf : p.format.sample = .float32)
    {proc : Proc α F U σ} (hp : Proper nCap nPlay period proc) (w : σ) (h : List (Op α F U))
    (hb : BlocksFit nCap nPlay period (!p.format.nonInterleaved) h) {i o : Buf α}
    (hi : Fits nCap period (!p.format.nonInterleaved) i) (ho : Fits nPlay period (!p.format.nonInterleaved) o)
    {s s' : State α F U σ} {r : Ret α} (hs : s = final (step proc) ⟨x, .stopped, w⟩ h)
    (hr : step proc s (.block i o) = (s', .block r)) :
    (∀ f u, Registered h f u →
      Exchanged proc f u nCap nPlay period (!p.format.nonInterleaved) s.world i o s'.world r) ∧
    ((¬ ∃ f u, Registered h f u) → r = .continue o ∧ s'.world = s.world) := by
  obtain ⟨g, h0⟩ := construct_fixed hc hf
  obtain ⟨i1, i2⟩ := history_inv g h0 hp w h hb
  rw [← hs] at i1 i2
  obtain ⟨y, st, v⟩ := s
  cases st with
  | running =>
    simp only [step, Prod.mk.injEq, Result.block.injEq] at hr
    obtain ⟨rfl, rfl⟩ := hr
    refine ⟨fun f u hreg => ?_, fun hno => ?_⟩
    · exact (engine_some i1 hp ((i2 f u).2 hreg) v hi ho).2.2
    · have hn : y.callback = none := by
        cases hcb : y.callback with
        | none => rfl
        | some q => exact absurd ⟨q.1, q.2, (i2 q.1 q.2).1 hcb⟩ hno
      rw [engine_none proc hn]; exact ⟨rfl, rfl⟩
  | _ => simp [step] at hr

/-- The processing functions are executed for blocks only. -/
theorem only_blocks_are_processed [DecidableEq F] (proc : Proc α F U σ) (s : State α F U σ) (op : Op α F U)
    (h : ∀ i o, op ≠ .block i o) : (step proc s op).1.world = s.world := by
  cases op with
  | block i o => exact absurd rfl (h i o)
  | _ => rfl

/-- Blocks are processed from a successful `start()` to the next successful `stop()` or the
first failure of the function. -/
theorem blocks_while_running [DecidableEq F] (proc : Proc α F U σ) (s : State α F U σ) (i o : Buf α) :
    ((step proc s (.start true)).2 = .done →
      (step proc (step proc s (.start true)).1 (.block i o)).2 ≠ .silent) ∧
    ((∃ a b, (step proc s (.stop a b)).2 = .done ∧
      (step proc (step proc s (.stop a b)).1 (.block i o)).2 ≠ .silent) → False) ∧
    (∀ i' o' o'', (step proc s (.block i' o')).2 = .block (.abort o'') →
      (step proc (step proc s (.block i' o')).1 (.block i o)).2 = .silent) := by
  obtain ⟨x, st, w⟩ := s
  refine ⟨?_, ?_, ?_⟩
  · cases st <;> simp [step, startStep]
  · rintro ⟨a, b, h⟩
    cases st <;> cases a <;> cases b <;> simp [step, stopStep] at h
  · intro i' o' o'' h
    cases st <;> simp only [step, reduceCtorEq, Result.block.injEq] at h
    simp only [step, h, afterCallback]

/-- `start()` and `stop()` report failures of the library with an exception.  A failed `start()`
leaves the stream as it was: no blocks are processed if none were processed before. -/
theorem failures_are_reported [DecidableEq F] (proc : Proc α F U σ) (s : State α F U σ) :
    (step proc s (.start false)).2 ≠ .done ∧ (step proc s (.start false)).1 = s ∧
      (∀ b, (step proc s (.stop false b)).2 ≠ .done ∧ (step proc s (.stop false b)).1 = s) ∧
      (step proc s (.stop true false)).2 ≠ .done := by
  obtain ⟨x, st, w⟩ := s
  refine ⟨?_, ?_, fun b => ⟨?_, ?_⟩, ?_⟩ <;> cases st <;> simp [step, startStep, stopStep]

/-- The channel buffers passed to the processing function lie in the buffer area and do not
overlap: neither two capture channels, nor two playback channels, nor one of each. -/
theorem buffers_are_disjoint [Zero α] {align nCap nPlay period : Nat} {c : Config} {x : Iface α F U}
    (h : prepare align nCap nPlay period c = .ok x) :
    (x.capPtr ++ x.playPtr).length = nCap + nPlay ∧
      (∀ p ∈ x.capPtr ++ x.playPtr, ∀ t < period, p + t < x.mem.length) ∧
      (x.capPtr ++ x.playPtr).Pairwise fun p q => ∀ t < period, ∀ t' < period, p + t ≠ q + t' := by
  obtain ⟨y, e, g, rfl, rfl, rfl, _⟩ := prepare_ok (α := α) (F := F) (U := U) align nCap nPlay period c
  rw [e] at h
  simp only [Outcome.ok.injEq] at h
  subst h
  have hall : y.capPtr ++ y.playPtr = (List.range (y.nCap + y.nPlay)).map fun i => stride y.period align * i := by
    rw [g.cap, g.play, List.range_add, List.map_append, List.map_map]; rfl
  rw [hall]
  refine ⟨by simp, ?_, ?_⟩
  · intro p hp t ht
    simp only [List.mem_map, List.mem_range] at hp
    obtain ⟨k, hk, rfl⟩ := hp
    rw [g.len]; exact offset_lt g.str_le ht hk
  · rw [List.pairwise_map]
    refine List.Pairwise.imp ?_ List.nodup_range
    intro a b hab t ht t' ht'
    exact offset_ne g.str_le ht ht' hab

/-- Until the interface has been stopped no operation has undefined behaviour, and only
exceptions that are not derived from `std::exception` leave the callback.  Partial: see
`restart_is_undefined`, `c_string_escapes` and `other_format_escapes`. -/
theorem no_undefined_behaviour_partial [Zero α] [DecidableEq F] {lib : Lib} {align nCap nPlay period n : Nat}
    {conf : Option Options} {x : Iface α F U} {p : StreamParams}
    (hc : construct lib align nCap nPlay period conf = (n, .ok (x, p))) (hf : p.format.sample = .float32)
    {proc : Proc α F U σ} (hp : Proper nCap nPlay period proc) (w : σ) (h : List (Op α F U)) (op : Op α F U)
    (hb : BlocksFit nCap nPlay period (!p.format.nonInterleaved) (h ++ [op]))
    (hs : ¬ Stopped h (run (step proc) ⟨x, .stopped, w⟩ h).2) :
    let r := (step proc (final (step proc) ⟨x, .stopped, w⟩ h) op).2
    r ≠ .ub ∧ r ≠ .block .ub ∧ ∀ e, r = .block (.escapes e) → e = .cString := by
  obtain ⟨g, h0⟩ := construct_fixed hc hf
  obtain ⟨i1, i2⟩ := history_inv g h0 hp w h (fun i o hm => hb i o (by simp [hm]))
  have hcl : (final (step proc) ⟨x, .stopped, w⟩ h).stream ≠ .closed := by
    intro hcl
    rcases (closed_iff proc h _).1 hcl with h1 | h1
    · simp at h1
    · exact hs h1
  generalize final (step proc) ⟨x, .stopped, w⟩ h = s at i1 i2 hcl
  obtain ⟨y, st, v⟩ := s
  cases op with
  | register f u => simp [step]
  | unregister f => simp [step]
  | start ok => cases st <;> cases ok <;> simp [step, startStep] at hcl ⊢
  | stop a b => cases st <;> cases a <;> cases b <;> simp [step, stopStep] at hcl ⊢
  | block i o =>
    obtain ⟨hi, ho⟩ := hb i o (by simp)
    cases st with
    | running =>
      cases hcb : y.callback with
      | none => simp [step, engine_none proc hcb]
      | some q =>
        obtain ⟨f, u⟩ := q
        obtain ⟨_, _, caps, plays, _, _, _, hm⟩ := engine_some i1 hp hcb v hi ho
        simp only [step, ne_eq, reduceCtorEq, not_false_eq_true, Result.block.injEq, true_and]
        split at hm
        · obtain ⟨o', e, _⟩ := hm; rw [e]; simp
        · rw [hm]; simp
        · rw [hm]; simp
    | _ => simp [step]

/-- A device that has the requested name is used, if no other device's name is the beginning
of the requested name.  Partial: see `shorter_name_is_preferred`. -/
theorem named_device_is_used_partial {lib : Lib} {api : HostApi} {name : List Char} (hn : name ≠ []) {i : Nat}
    {d : Device} (hd : Named api.devices name i) (hu : ∀ j d', (j, d') ∈ api.devices → d'.name <+: name → j = i)
    (hi : lib.info i = some d) {need : Nat} (isInput : Bool)
    (hch : need ≤ if isInput then d.maxIn else d.maxOut) : findDevice lib api name need isInput = .ok i := by
  have key : ∀ l : List (Nat × Device), Named l name i → (∀ j d', (j, d') ∈ l → d'.name <+: name → j = i) →
      searchDevice name l = some i := by
    intro l
    induction l with
    | nil => rintro ⟨d, h, _⟩; simp at h
    | cons a l ih =>
      rintro ⟨d', hm, he⟩ hu
      obtain ⟨j, a⟩ := a
      rw [searchDevice]
      by_cases hp : a.name <+: name
      · have hm' : nameMatches name a.name = true := by
          rw [nameMatches, beq_iff_eq]; exact (List.prefix_iff_eq_take.1 hp).symm
        rw [if_pos hm', hu j a (by simp) hp]
      · have hm' : ¬ nameMatches name a.name = true := by
          rw [nameMatches, beq_iff_eq]; intro h; exact hp (List.prefix_iff_eq_take.2 h.symm)
        rw [if_neg hm']
        refine ih ⟨d', ?_, he⟩ (fun j d'' h => hu j d'' (by simp [h]))
        rcases List.mem_cons.1 hm with h | h
        · simp only [Prod.mk.injEq] at h
          exact absurd (by rw [← h.2, he]; exact List.prefix_refl _) hp
        · exact h
  unfold findDevice
  simp only [if_neg hn, key _ hd hu, hi]
  rw [if_neg (by omega)]

/-- The device used for a name: the beginning of the name is the name of the device (PortAudio
shortens names), it belongs to the host API, and it has enough channels. -/
theorem used_device {lib : Lib} {api : HostApi} {name : List Char} (hn : name ≠ []) {need i : Nat} {isInput : Bool}
    (h : findDevice lib api name need isInput = .ok i) :
    (∃ d, (i, d) ∈ api.devices ∧ d.name <+: name) ∧
      ∃ d, lib.info i = some d ∧ need ≤ if isInput then d.maxIn else d.maxOut := by
  have key : ∀ l : List (Nat × Device), ∀ i, searchDevice name l = some i → ∃ d, (i, d) ∈ l ∧ d.name <+: name := by
    intro l
    induction l with
    | nil => intro i h; simp [searchDevice] at h
    | cons a l ih =>
      intro i h
      obtain ⟨j, a⟩ := a
      rw [searchDevice] at h
      split_ifs at h with hm
      · simp only [Option.some.injEq] at h
        subst h
        rw [nameMatches, beq_iff_eq] at hm
        exact ⟨a, by simp, List.prefix_iff_eq_take.2 hm.symm⟩
      · obtain ⟨d, h1, h2⟩ := ih i h
        exact ⟨d, by simp [h1], h2⟩
  unfold findDevice at h
  simp only [if_neg hn] at h
  split at h
  · simp at h
  · rename_i k hk
    split at h
    · simp at h
    · rename_i d hd
      by_cases hlt : (if isInput = true then d.maxIn else d.maxOut) < need
      · rw [if_pos hlt] at h; simp at h
      · rw [if_neg hlt] at h
        simp only [Outcome.ok.injEq] at h
        subst h
        exact ⟨key _ _ hk, d, hd, by omega⟩

/-- Without a name the default device of the direction is used, if it has enough channels. -/
theorem default_device (lib : Lib) (api : HostApi) (need i : Nat) (isInput : Bool) :
    findDevice lib api [] need isInput = .ok i ↔
      (if isInput then api.defaultIn else api.defaultOut) = some i ∧
        ∃ d, lib.info i = some d ∧ need ≤ if isInput then d.maxIn else d.maxOut := by
  unfold findDevice
  simp only [if_true]
  constructor
  · intro h
    split at h
    · simp at h
    · rename_i k hk
      split at h
      · simp at h
      · rename_i d hd
        by_cases hlt : (if isInput = true then d.maxIn else d.maxOut) < need
        · rw [if_pos hlt] at h; simp at h
        · rw [if_neg hlt] at h
          simp only [Outcome.ok.injEq] at h
          subst h
          exact ⟨hk, d, hd, by omega⟩
  · rintro ⟨h1, d, h2, h3⟩
    rw [h1]
    simp only [h2]
    rw [if_neg (by omega)]

/-- The stream that is opened has the requested numbers of channels, block size and layout. -/
theorem opened_stream [Zero α] {lib : Lib} {align nCap nPlay period n : Nat} {o : Options} {x : Iface α F U}
    {p : StreamParams} (h : construct lib align nCap nPlay period (some o) = (n, .ok (x, p))) :
    p.inChannels = nCap ∧ p.outChannels = nPlay ∧ p.frames = period ∧
      (p.format.nonInterleaved = true ↔ o.interleaved ≠ .val true) ∧
      (p.format.sample = .float32 ↔ o.sampleformat = .val "float32Bit" ∨ ∀ t, o.sampleformat ≠ .val t) ∧
      ∃ api, lib.hostApi (o.hostapi.getD "default") = some api ∧
        findDevice lib api (o.inputDevice.getD []) nCap true = .ok p.inDevice ∧
        findDevice lib api (o.outputDevice.getD []) nPlay false = .ok p.outDevice := by
  obtain ⟨c, h1, _, h3, _⟩ := construct_ok h
  obtain ⟨api, _, ha, hi, ho, ht, _, k1, k2, k3⟩ := openStream_ok h3
  obtain ⟨t1, t2⟩ := translate_f32 ht
  rw [parseSpecificConf] at h1
  cases hfm : formatOfName (o.sampleformat.getD "float32Bit") with
  | throw e => simp [hfm] at h1
  | ub => simp [hfm] at h1
  | ok f =>
  simp only [hfm, Outcome.ok_bind, Outcome.ok.injEq] at h1
  subst h1
  refine ⟨k1, k2, k3, ?_, ?_, api, ha, hi, ho⟩
  · rw [t1]
    cases o.interleaved with
    | val b => cases b <;> simp [Entry.getD]
    | _ => simp [Entry.getD]
  · rw [t2]
    have hname : ∀ t, formatOfName t = .ok f → (f = .f32 ↔ t = "float32Bit") := by
      intro t ht
      unfold formatOfName at ht
      split_ifs at ht with a1 a2 a3 a4 a5 a6 a7 a8 a9 <;>
        (simp only [Outcome.ok.injEq] at ht; subst ht; simp_all)
    rw [hname _ hfm]
    cases o.sampleformat <;> simp [Entry.getD]

/-! ## A concrete interface -/

namespace Demo

def dev (n : String) (i o : Nat) : Device := ⟨n.toList, i, o⟩

def api : HostApi := ⟨[(3, dev "USB" 1 2), (4, dev "USB Pro" 8 8)], some 3, some 4⟩

def lib : Lib := ⟨0, true, fun n => if n = "default" ∨ n = "ALSA" then some api else none,
  fun i => if i = 3 then some (dev "USB" 1 2) else if i = 4 then some (dev "USB Pro" 8 8) else none,
  fun _ _ _ => true, true⟩

def opts (inter : Bool) : Options := { interleaved := .val inter }

/-- Function 7 plays the captured channel on the second, its negative on the first channel, and
counts its calls; function 8 fails with a standard exception, function 9 with a C string. -/
def proc : Proc Int Nat Nat Nat := fun f _ w caps plays =>
  if f = 7 then (w + 1, [(caps.headD []).map Neg.neg, caps.headD []], none)
  else (w + 1, plays, some (if f = 8 then .runtimeError else .cString))

def made (o : Options) : Nat × Outcome (Iface Int Nat Nat × StreamParams) := construct lib 4 1 2 3 (some o)

/-- The interface with the given layout. -/
def iface (inter : Bool) : Iface Int Nat Nat :=
  ⟨1, 2, 3, .f32, inter, none, List.replicate 12 0, [0], [4, 8]⟩

def init (inter : Bool) : State Int Nat Nat Nat := ⟨iface inter, .stopped, 0⟩

end Demo

example : Demo.made (Demo.opts true) = (1, .ok (Demo.iface true, ⟨3, 4, 1, 2, ⟨.float32, false⟩, 3⟩)) := by
  decide +kernel

example : Demo.made {} = (1, .ok (Demo.iface false, ⟨3, 4, 1, 2, ⟨.float32, true⟩, 3⟩)) := by
  decide +kernel

example : prepare (α := Int) (F := Nat) (U := Nat) 4 1 2 3 ⟨.f32, true, "default", [], []⟩ =
    .ok (Demo.iface true) := by decide +kernel

theorem demo_proper : Proper 1 2 3 Demo.proc := by
  intro f u w caps plays hc hp
  unfold Demo.proc
  by_cases h : f = 7
  · rw [if_pos h]
    obtain ⟨c, rfl⟩ := List.length_eq_one_iff.1 hc.1
    have := hc.2 c (by simp)
    exact ⟨rfl, by simp [this]⟩
  · rw [if_neg h]; exact hp

example : (run (step Demo.proc) (Demo.init true)
      [.register 7 0, .start true, .block (.flat [1, 2, 3]) (.flat [9, 9, 9, 9, 9, 9]), .unregister 7,
       .block (.flat [4, 5, 6]) (.flat [9, 9, 9, 9, 9, 9]), .stop true true]).2 =
    [.bool true, .done, .block (.continue (.flat [-1, 1, -2, 2, -3, 3])), .bool true,
     .block (.continue (.flat [9, 9, 9, 9, 9, 9])), .done] := by
  decide +kernel

example : (run (step Demo.proc) (Demo.init false)
      [.start true, .register 7 0, .block (.planar [[1, 2, 3]]) (.planar [[9, 9, 9], [9, 9, 9]]), .register 8 0,
       .block (.planar [[1, 2, 3]]) (.planar [[9, 9, 9], [9, 9, 9]]),
       .block (.planar [[1, 2, 3]]) (.planar [[9, 9, 9], [9, 9, 9]])]).2 =
    [.done, .bool true, .block (.continue (.planar [[-1, -2, -3], [1, 2, 3]])), .bool true,
     .block (.abort (.planar [[9, 9, 9], [9, 9, 9]])), .silent] := by
  decide +kernel

example : Fits 1 3 true (.flat [1, 2, 3] : Buf Int) ∧ Fits 2 3 false (.planar [[9, 9, 9], [9, 9, 9]] : Buf Int) :=
  ⟨.flat _ rfl, .planar _ rfl (by simp)⟩

example : Registered ([.register 7 0, .start true, .unregister 8] : List (Op Int Nat Nat)) 7 0 :=
  ⟨[], [.start true, .unregister 8], rfl, by simp⟩

example : ¬ Stopped [.register 7 0, .start true]
    (run (step Demo.proc) (Demo.init true) [.register 7 0, .start true]).2 := by
  rintro ⟨k, a, b, h, _⟩
  rcases k with _ | _ | k <;> simp at h

example : Named Demo.api.devices "USB".toList 3 ∧
    ∀ j d', (j, d') ∈ Demo.api.devices → d'.name <+: "USB".toList → j = 3 :=
  ⟨⟨Demo.dev "USB" 1 2, by decide, rfl⟩, by
    intro j d' h hp
    simp only [Demo.api, List.mem_cons, Prod.mk.injEq, List.not_mem_nil, or_false] at h
    rcases h with ⟨rfl, _⟩ | ⟨rfl, rfl⟩
    · rfl
    · exact absurd hp (by decide)⟩

/-! ## Where the property does not hold of the code -/

/-- There are two devices, the requested one has enough channels, but a device whose name is the
beginning of the requested name is used instead, or rejected for having too few channels. -/
theorem shorter_name_is_preferred :
    Named Demo.api.devices "USB Pro".toList 4 ∧
      findDevice Demo.lib Demo.api "USB Pro".toList 1 true = .ok 3 ∧
      findDevice Demo.lib Demo.api "USB Pro".toList 8 true = .throw .runtimeError :=
  ⟨⟨Demo.dev "USB Pro" 8 8, by decide, rfl⟩, by decide +kernel, by decide +kernel⟩

/-- With every other sample format that PortAudio supports the construction succeeds, but each
block with a registered function makes a C++ exception leave the callback of the C library. -/
theorem other_format_escapes [Zero α] [DecidableEq F] {lib : Lib} {align nCap nPlay period n : Nat}
    {conf : Option Options} {x : Iface α F U} {p : StreamParams}
    (hc : construct lib align nCap nPlay period conf = (n, .ok (x, p))) (hf : p.format.sample ≠ .float32)
    (proc : Proc α F U σ) (w : σ) (f : F) (u : U) (i o : Buf α) :
    (run (step proc) ⟨x, .stopped, w⟩ [.register f u, .start true, .block i o]).2 =
      [.bool true, .done, .block (.escapes .invalidArgument)] := by
  obtain ⟨c, _, h2, h3, _⟩ := construct_ok hc
  obtain ⟨y, e, g, k1, k2, k3, k4, k5, k6⟩ := prepare_ok (α := α) (F := F) (U := U) align nCap nPlay period c
  rw [e] at h2
  simp only [Outcome.ok.injEq] at h2
  subst h2
  obtain ⟨_, _, _, _, _, ht, _⟩ := openStream_ok h3
  have hx : y.format ≠ .f32 := by rw [k4]; exact fun h => hf ((translate_f32 ht).2.2 h)
  simp [run, step, startStep, engineCallback, transferCapture, hx]

example : ∃ x p, Demo.made { sampleformat := .val "signedInt16Bit" } = (1, .ok (x, p)) ∧ p.format.sample = .int16 :=
  ⟨⟨1, 2, 3, .s16, false, none, List.replicate 12 0, [0], [4, 8]⟩, ⟨3, 4, 1, 2, ⟨.int16, true⟩, 3⟩,
    by decide +kernel, rfl⟩

/-- Exceptions that are C strings, such as those thrown for malformed index sequences, are not
caught and leave the callback of the C library. -/
theorem c_string_escapes :
    (run (step Demo.proc) (Demo.init true)
      [.register 9 0, .start true, .block (.flat [1, 2, 3]) (.flat [0, 0, 0, 0, 0, 0])]).2 =
    [.bool true, .done, .block (.escapes .cString)] := by
  decide +kernel

/-- `stop()` closes the stream: each later `start()` or `stop()` uses the closed stream. -/
theorem restart_is_undefined [DecidableEq F] (proc : Proc α F U σ) (s : State α F U σ) (h : List (Op α F U))
    (hs : Stopped h (run (step proc) s h).2) (ok a b : Bool) :
    (step proc (final (step proc) s h) (.start ok)).2 = .ub ∧
      (step proc (final (step proc) s h) (.stop a b)).2 = .ub := by
  have hcl := (closed_iff proc h s).2 (Or.inr hs)
  generalize final (step proc) s h = t at hcl
  obtain ⟨x, st, w⟩ := t
  simp only at hcl
  subst hcl
  exact ⟨rfl, rfl⟩

example : Stopped ([.start true, .stop true true] : List (Op Int Nat Nat))
    (run (step Demo.proc) (Demo.init true) [.start true, .stop true true]).2 :=
  ⟨1, true, true, rfl, rfl⟩

/-- While no function is registered the running device plays what is in its buffer. -/
theorem output_without_function_is_not_silence [DecidableEq F] (proc : Proc α F U σ) (x : Iface α F U)
    (hx : x.callback = none) (w : σ) (i o : Buf α) :
    (run (step proc) ⟨x, .stopped, w⟩ [.start true, .block i o]).2 = [.done, .block (.continue o)] := by
  simp [run, step, startStep, engine_none proc hx]

/-- A construction that fails after the initialisation of the library leaves it initialised. -/
theorem failed_construction_stays_initialised [Zero α] {lib : Lib} {align nCap nPlay period : Nat}
    {conf : Option Options} {c : Config} (hc : parseSpecificConf conf = .ok c) (hi : lib.initOk = true) {e : Exn}
    (he : openStream lib c nCap nPlay period = .throw e) :
    construct (α := α) (F := F) (U := U) lib align nCap nPlay period conf = (lib.initCount + 1, .throw e) := by
  obtain ⟨y, h, _⟩ := prepare_ok (α := α) (F := F) (U := U) align nCap nPlay period c
  simp [construct, hc, h, hi, he]

example : Demo.made { hostapi := .val "MME" } = (1, .throw .logicError) := by decide +kernel

/-- A stream that was not stopped keeps calling its destroyed owner, while another interface
exists. -/
theorem destroyed_owner_keeps_running (s : Streams) (h : 2 ≤ s.initCount) (k : Nat)
    (hk : (k, .running) ∈ s.streams) : (k, .running) ∈ (destroy s).streams := by
  unfold destroy
  rw [if_neg (by omega)]
  exact hk

example : (destroy ⟨1, [(0, .running)]⟩).streams = [(0, .closed)] := by decide

/-- With the default block size of the base configuration, zero, nothing is played: the device
chooses the number of frames and the interface transfers none. -/
theorem zero_period_plays_nothing (x : Iface α F U) (hp : x.period = 0) (hx : x.format = .f32)
    (hi : x.interleaved = true) (hl : x.playPtr.length = x.nPlay) (d : List α) :
    transferPlayback x (.flat d) = .ok (.flat d) := by
  obtain ⟨b, h, rfl⟩ := loop_ok (playbackChannel x) (fun _ b => b = .flat d) (.flat d) rfl x.nPlay (by
    rintro c hc _ rfl
    refine ⟨_, ?_, rfl⟩
    have hcl : c < x.playPtr.length := by omega
    simp [playbackChannel, List.getElem?_eq_getElem hcl, hi, hp, copyLoop])
  simp [transferPlayback, hx, h]

example : transferPlayback { Demo.iface true with period := 0 } (.flat [5, 6]) = .ok (.flat [5, 6]) := by decide

end Visr.PortAudio
