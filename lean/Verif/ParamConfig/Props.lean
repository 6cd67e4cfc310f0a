import Verif.ParamConfig.Spec
import Verif.TypeId.Props

/-!
# C97: parameters have the form stated by the configurations of their ports
-/

namespace Visr.ParamConfig
open Visr Visr.TypeId

attribute [local irreducible] Cls.id factory

/-- **C97.** Configurations are compatible if and only if they are equal; the comparison of configurations of different
classes is refused. (Partial: false for configurations of interpolation parameters, see `interpolation_any`.) -/
theorem compare_partial (a b : Config) (h : a.kind ≠ .interpolation) :
    compare a b = if a.kind = b.kind then .ok (decide (a = b)) else .throw .invalidArgument := by
  cases a <;> cases b <;> simp_all [compare, Config.kind] <;>
    first
    | exact ⟨Eq.symm, Eq.symm⟩
    | (rw [Bool.eq_iff_iff]; simp; constructor <;> (intro h; simp_all))

/-- **C97 (negation, interpolation).** A configuration of an interpolation parameter is compatible with every configuration,
of whatever number of interpolants and of whatever class; the opposite comparison is refused or false. -/
theorem interpolation_any (n : Nat) (b : Config) : compare (.interpolation n) b = .ok true ∧
    (b.kind ≠ .interpolation → compare b (.interpolation n) = .throw .invalidArgument) := by
  refine ⟨by cases b <;> rfl, fun h => ?_⟩
  cases b <;> first | rfl | exact absurd rfl h

theorem mem_grid {r c : Nat} {row : List (Option Nat)} (h : row ∈ grid r c) :
    row.length = c ∧ ∀ x ∈ row, x = none := by
  rw [(List.mem_replicate.1 h).2]
  exact ⟨List.length_replicate, fun x hx => (List.mem_replicate.1 hx).2⟩

theorem factory_create (signed : Bool) (c : Cls) : Registry.pcreate (factory signed) (c.id signed).toNat =
    if c ∈ [Cls.biquadFloat, .biquadDouble, .biquadListFloat, .biquadListDouble, .lateReverb] then
      .throw .invalidArgument
    else .ok c := by
  unfold factory
  exact initialised_partial signed c

theorem createFrom_eq {tab : Registry.PTable Cls} {t : Nat} {c : Cls} {P : Prop} [Decidable P]
    (h : Registry.pcreate tab t = if P then .throw .invalidArgument else .ok c) (cfg : Config) :
    createFrom tab t cfg = if P then .throw .invalidArgument else construct c cfg := by
  unfold createFrom
  rw [h]
  by_cases hP : P
  · rw [if_pos hP, if_pos hP]
  · rw [if_neg hP, if_neg hP]

theorem create_eq (signed : Bool) (c : Cls) (cfg : Config) :
    create signed (c.id signed).toNat cfg =
      if c ∈ [Cls.biquadFloat, .biquadDouble, .biquadListFloat, .biquadListDouble, .lateReverb] then
        .throw .invalidArgument
      else construct c cfg := createFrom_eq (factory_create signed c) cfg

theorem registered_iff (c : Cls) :
    Registered c ↔ c ∉ [Cls.biquadFloat, .biquadDouble, .biquadListFloat, .biquadListDouble, .lateReverb] := by
  unfold Registered
  cases c <;> decide

/-- **C97.** For a port of any registered class and any configuration such a port can have, a parameter of the stated size
with default elements is created. -/
theorem created_partial (signed : Bool) (c : Cls) (cfg : Config) (hr : Registered c) (hk : cfg.kind = declared c) :
    ∃ v, create signed (c.id signed).toNat cfg = .ok v ∧ Size cfg v ∧ Neutral v := by
  rw [create_eq, if_neg ((registered_iff c).1 hr)]
  have hrep : ∀ n, ∀ x ∈ List.replicate n (none : Option Nat), x = none := fun n x hx => (List.mem_replicate.1 hx).2
  have hl : ∀ r c, (grid r c).length = r := fun r c => List.length_replicate
  cases cfg <;> cases c <;> first
    | (cases hk; done)
    | exact absurd hr (by unfold Registered; decide)
    | exact ⟨_, rfl, trivial, trivial⟩
    | exact ⟨_, rfl, List.length_replicate, hrep _⟩
    | exact ⟨_, rfl, ⟨rfl, hl _ _, fun _ h => (mem_grid h).1⟩, fun _ h => (mem_grid h).2⟩
    | exact ⟨_, rfl, ⟨hl _ _, fun _ h => (mem_grid h).1⟩, fun _ h => (mem_grid h).2⟩
    | exact ⟨_, rfl, ⟨rfl, rfl, hl _ _, fun _ h => (mem_grid h).1⟩, fun _ h => (mem_grid h).2⟩

/-- **C97 (negation, biquads).** Ports for biquad coefficients and lists of them have configurations of a class from which
these parameters cannot be constructed: no port of these types can be used with a protocol that contains parameters. -/
theorem biquad_config (signed : Bool) (c : Cls) (hc : c ∈ [Cls.biquadFloat, .biquadDouble, .biquadListFloat, .biquadListDouble])
    (cfg : Config) (hk : cfg.kind = declared c) :
    construct c cfg = .throw .invalidArgument ∧ create signed (c.id signed).toNat cfg = .throw .invalidArgument := by
  constructor
  · cases cfg <;> cases c <;> first | rfl | (cases hk; done) | exact absurd hc (by decide)
  · rw [create_eq, if_pos]
    revert hc
    cases c <;> decide

/-- **C97.** A configuration of another class is refused. (Partial: routings accept every configuration, see
`routing_any`, and the exception is not always the documented `std::invalid_argument`, see `exception_differs`.) -/
theorem other_class_partial (signed : Bool) (c : Cls) (cfg : Config) (hc : c ≠ .signalRouting)
    (hk : cfg.kind ≠ declared c) :
    create signed (c.id signed).toNat cfg = .throw .invalidArgument ∨
      create signed (c.id signed).toNat cfg = .throw .badCast := by
  rw [create_eq]
  by_cases h : c ∈ [Cls.biquadFloat, .biquadDouble, .biquadListFloat, .biquadListDouble, .lateReverb]
  · exact Or.inl (if_pos h)
  · rw [if_neg h]
    cases c <;> cases cfg <;> first
      | exact absurd rfl hc
      | exact absurd rfl hk
      | exact Or.inl rfl
      | exact Or.inr rfl
      | exact absurd h (by decide)

/-- **C97 (negation, routings).** A signal routing is created from every configuration. -/
theorem routing_any (signed : Bool) (cfg : Config) :
    create signed (Cls.signalRouting.id signed).toNat cfg = .ok .plain := by
  rw [create_eq, if_neg (by decide)]
  rfl

/-- **C97 (negation, exceptions).** A time-frequency parameter throws `std::bad_cast` for a configuration of another class;
documented is `std::invalid_argument`. -/
theorem exception_differs (signed : Bool) (n : Nat) :
    create signed (Cls.timeFrequencyFloat.id signed).toNat (.vector n) = .throw .badCast := by
  rw [create_eq, if_neg (by decide)]
  rfl

theorem connect_ok {signed : Bool} {s r : Port} {vs : List Value} (h : connect signed s r = .ok vs) :
    s.protocol = r.protocol ∧ s.cls = r.cls ∧ compare s.config r.config = .ok true ∧
      protocolContent signed s.protocol (s.cls.id signed).toNat s.config = .ok vs := by
  unfold connect at h
  by_cases hc : compatible signed s r = true
  · rw [if_pos hc] at h
    unfold compatible at hc
    split at hc
    · cases hc
    · rename_i hn
      have hp : s.protocol = r.protocol := Decidable.byContradiction fun e => hn (Or.inl e)
      have hi : s.cls.id signed = r.cls.id signed := Decidable.byContradiction fun e => hn (Or.inr e)
      refine ⟨hp, (library_ids signed).1 _ _ hi, ?_, h⟩
      split at hc
      · rename_i b hb; rw [hb, hc]
      · cases hc
  · rw [if_neg hc] at h
    cases h

theorem mem_contentFrom {p : Proto} {one : Outcome Value} {vs : List Value} (h : contentFrom p one = .ok vs) :
    ∀ v ∈ vs, one = .ok v := by
  intro v hv
  cases one with
  | ok w =>
    cases p with
    | doubleBuffering =>
      cases h
      simp only [List.mem_cons, List.not_mem_nil, or_false, or_self] at hv
      rw [hv]
    | sharedData =>
      cases h
      rw [List.mem_singleton.1 hv]
    | messageQueue => cases h; cases hv
  | throw e => cases p <;> cases h; cases hv
  | ub => cases p <;> cases h; cases hv

theorem content_created {signed : Bool} {p : Proto} {t : Nat} {cfg : Config} {vs : List Value}
    (h : protocolContent signed p t cfg = .ok vs) : ∀ v ∈ vs, create signed t cfg = .ok v := mem_contentFrom h

/-- **C97.** If two ports are connected, then all parameters the connection contains have the sizes stated by the
configurations of both ports. (Partial: not for interpolation parameters, see `interpolation_mismatch`.) -/
theorem connection_partial {signed : Bool} {s r : Port} {vs : List Value} (h : connect signed s r = .ok vs)
    (hk : s.config.kind = declared s.cls) (hi : s.cls ≠ .interpolation) :
    ∀ v ∈ vs, Size s.config v ∧ Size r.config v ∧ Neutral v := by
  obtain ⟨_, _, hc, hp⟩ := connect_ok h
  have hne : s.config.kind ≠ .interpolation := by
    rw [hk]
    revert hi
    cases s.cls <;> decide
  rw [compare_partial _ _ hne] at hc
  have he : s.config = r.config := by
    split at hc
    · injection hc with hc; exact of_decide_eq_true hc
    · cases hc
  intro v hv
  have hcr := content_created hp v hv
  have hreg : Registered s.cls := by
    rw [registered_iff]
    intro hm
    rw [create_eq, if_pos hm] at hcr
    cases hcr
  obtain ⟨w, hw, h1, h2⟩ := created_partial signed s.cls s.config hreg hk
  rw [hw] at hcr
  cases hcr
  exact ⟨h1, he ▸ h1, h2⟩

theorem contentFrom_size (p : Proto) {one : Outcome Value} {v : Value} (h : one = .ok v) :
    ∃ vs, contentFrom p one = .ok vs ∧ (p = .doubleBuffering → vs.length = 2) ∧ (p = .sharedData → vs.length = 1) ∧
      (p = .messageQueue → vs.length = 0) := by
  subst h
  cases p with
  | doubleBuffering => exact ⟨_, rfl, fun _ => rfl, by simp, by simp⟩
  | sharedData => exact ⟨_, rfl, by simp, fun _ => rfl, by simp⟩
  | messageQueue => exact ⟨_, rfl, by simp, by simp, fun _ => rfl⟩

theorem content_size {signed : Bool} {p : Proto} {t : Nat} {cfg : Config} {v : Value} (h : create signed t cfg = .ok v) :
    ∃ vs, protocolContent signed p t cfg = .ok vs ∧ (p = .doubleBuffering → vs.length = 2) ∧
      (p = .sharedData → vs.length = 1) ∧ (p = .messageQueue → vs.length = 0) := contentFrom_size p h

/-- **C97.** Ports of the same registered class, the same protocol and equal configurations are connected. -/
theorem connection_accepted (signed : Bool) (s : Port) (hr : Registered s.cls) (hk : s.config.kind = declared s.cls) :
    ∃ vs, connect signed s s = .ok vs ∧ (s.protocol = .doubleBuffering → vs.length = 2) ∧
      (s.protocol = .sharedData → vs.length = 1) ∧ (s.protocol = .messageQueue → vs.length = 0) := by
  have hc : compare s.config s.config = .ok true := by cases s.config <;> simp [compare]
  obtain ⟨v, hv, _⟩ := created_partial signed s.cls s.config hr hk
  have hcomp : compatible signed s s = true := by
    unfold compatible
    rw [if_neg (by simp), hc]
  unfold connect
  rw [if_pos hcomp]
  exact content_size hv

theorem construct_created (signed : Bool) {c : Cls} {cfg : Config} {v : Value}
    (hn : c ∉ [Cls.biquadFloat, .biquadDouble, .biquadListFloat, .biquadListDouble, .lateReverb])
    (h : construct c cfg = .ok v) : create signed (c.id signed).toNat cfg = .ok v := by
  rw [create_eq, if_neg hn, h]

theorem contentFrom_shared {one : Outcome Value} {v : Value} (h : one = .ok v) : contentFrom .sharedData one = .ok [v] := by
  subst h; rfl

theorem content_shared {signed : Bool} {t : Nat} {cfg : Config} {v : Value} (h : create signed t cfg = .ok v) :
    protocolContent signed .sharedData t cfg = .ok [v] := contentFrom_shared h

theorem connect_shared {signed : Bool} {s r : Port} {v : Value} (hp : s.protocol = .sharedData) (hp' : s.protocol = r.protocol)
    (hc : s.cls = r.cls) (h : compare s.config r.config = .ok true)
    (hv : create signed (s.cls.id signed).toNat s.config = .ok v) : connect signed s r = .ok [v] := by
  have hcomp : compatible signed s r = true := by
    unfold compatible
    rw [if_neg (fun e => e.elim (fun e => e hp') (fun e => e (congrArg (Cls.id signed) hc))), h]
  unfold connect
  rw [if_pos hcomp, hp]
  exact content_shared hv

/-- **C97 (negation, interpolation).** Ports for different numbers of interpolants are connected; the receiver gets
parameters of a size that is not the one it stated. -/
theorem interpolation_mismatch (signed : Bool) {s r : Port} {n m : Nat} (hs : s.cls = .interpolation)
    (hr : r.cls = .interpolation) (hp : s.protocol = .sharedData) (hp' : r.protocol = .sharedData)
    (hn : s.config = .interpolation n) (hm : r.config = .interpolation m) (h : n ≠ m) :
    ∃ v, connect signed s r = .ok [v] ∧ ¬ Size r.config v := by
  refine ⟨.interpolation (List.replicate n none), ?_, ?_⟩
  · refine connect_shared hp (by rw [hp, hp']) (by rw [hs, hr]) (by rw [hn, hm]; rfl) ?_
    rw [hs, hn]
    exact construct_created signed (by decide) rfl
  · rw [hm]
    show ¬ (List.replicate n none).length = m
    rw [List.length_replicate]
    exact h

/-! ## Assignment -/

/-- **C97.** If an assignment of parameters succeeds, the destination equals the source; parameters of other classes are
refused. -/
theorem assigned (c d : Cls) (v w u : Value) (h : assign c d v w = .ok u) : c = d ∧ u = w := by
  unfold assign at h
  split at h
  · cases h
  · rename_i hcd
    refine ⟨Decidable.byContradiction hcd, ?_⟩
    have h1 : ∀ v w u, assignVector v w = .ok u → u = w := by
      intro v w u h
      unfold assignVector at h
      split at h
      · split at h <;> cases h; rfl
      · cases h; rfl
    have h2 : ∀ v w u, assignSame v w = .ok u → u = w := by
      intro v w u h
      unfold assignSame at h
      split at h
      · split at h <;> cases h; rfl
      · dsimp only at h
        split at h <;> cases h; rfl
      · cases h; rfl
    split at h <;> first | exact h1 _ _ _ h | exact h2 _ _ _ h

/-- **C97.** Parameters created from the same configuration can be assigned to each other, whatever their elements. (Partial:
panning matrices cannot, unless they are square, see C70.) -/
theorem assignable_partial (c : Cls) (cfg : Config) (v w : Value) (hc : c ≠ .panningMatrix) (hv : Size cfg v) (hw : Size cfg w)
    (hp : ∀ k rows, w ≠ .panning k rows) : assign c c v w = .ok w := by
  have h1 : assignVector v w = .ok w := by
    unfold assignVector
    split
    · rw [if_neg]
      cases cfg <;> simp only [Size] at hv hw
      omega
    · rfl
  have h2 : assignSame v w = .ok w := by
    unfold assignSame
    split
    · rw [if_neg]
      cases cfg <;> simp only [Size] at hv hw
      omega
    · exact absurd rfl (hp _ _)
    · rfl
  unfold assign
  rw [if_neg (by simp)]
  split <;> first | exact h1 | exact h2

/-- **C97.** Vectors of other lengths and matrices of other sizes are refused. -/
theorem size_refused (l l' : List (Option Nat)) (hl : l.length ≠ l'.length) (k k' : Nat) (rows rows' : List (List (Option Nat)))
    (hm : rows.length ≠ rows'.length ∨ k ≠ k') :
    assign .vectorFloat .vectorFloat (.vector l) (.vector l') = .throw .outOfRange ∧
      assign .matrixFloat .matrixFloat (.matrix k rows) (.matrix k' rows') = .throw .invalidArgument :=
  ⟨by unfold assign assignVector; rw [if_neg (by decide)]; exact if_pos hl,
    by unfold assign assignSame; rw [if_neg (by decide)]; exact if_pos hm⟩

/-! ## Examples -/

example : Registered .biquadMatrixFloat ∧ Config.kind (.matrix 3 2) = declared .biquadMatrixFloat := by
  unfold Registered; decide
example : construct .biquadMatrixFloat (.matrix 1 2) = .ok (.biquads [[none, none]]) := by decide
example : construct .timeFrequencyFloat (.timeFrequency 2 1 2) =
    .ok (.timeFrequency 1 2 [[none, none], [none, none]]) := by decide
example : ∃ vs, connect true ⟨.doubleBuffering, .vectorFloat, .vector 3⟩ ⟨.doubleBuffering, .vectorFloat, .vector 3⟩ =
    .ok vs ∧ vs.length = 2 :=
  let ⟨vs, h, h2, _⟩ := connection_accepted true ⟨.doubleBuffering, .vectorFloat, .vector 3⟩
    (by unfold Registered; decide) rfl
  ⟨vs, h, h2 rfl⟩
example : connect true ⟨.doubleBuffering, .vectorFloat, .vector 3⟩ ⟨.doubleBuffering, .vectorFloat, .vector 4⟩ =
    .throw .runtimeError := by
  unfold connect compatible
  simp [compare]
example : Size (.vector 2) (.vector [some 3, none]) ∧ Size (.vector 2) (.vector [none, some 5]) := ⟨rfl, rfl⟩
example : assign .vectorFloat .vectorFloat (.vector [some 3, none]) (.vector [none, some 5]) =
    .ok (.vector [none, some 5]) := by decide

end Visr.ParamConfig
