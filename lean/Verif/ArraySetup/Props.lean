import Verif.ArraySetup.Lemmas
import Mathlib.Data.List.Perm.Subperm

/-!
# Array configuration files give the gains and delays of the outputs
-/

namespace Visr.ArraySetup
open Visr

variable {K : Type} [Zero K]

/-! ## Helpers -/

theorem inv_init : Inv (Config.init : Config K) := ⟨by simp [Ordered, Config.init], by simp [Config.init], by simp [Config.init]⟩

/-- A call of `loadXml` in general. -/
theorem loadXml_spec (db : K → K) (c : Config K) (hc : Inv c) (f : File K) :
    Inv (c.loadXml db f).1 ∧
    ((c.loadXml db f).2 = .ok () ∨ (c.loadXml db f).2 = .throw .invalidArgument ∨ (c.loadXml db f).2 = .throw .runtimeError) ∧
    ((c.loadXml db f).2 = .ok () → ∃ l ss1 ss2, f = .nodes l ∧
      List.Forall₂ (fun n s => readNode db n = .ok s) (tagged "speaker" l) ss1 ∧
      List.Forall₂ (fun n s => readNode db n = .ok s) (tagged "subwoofer" l) ss2 ∧
      (c.loadXml db f).1.array.Perm (ss1 ++ ss2 ++ c.array) ∧
      (c.loadXml db f).1.subwoofers = c.subwoofers ++ ss2.map Speaker.id ∧
      (c.loadXml db f).1.array.map Speaker.id = List.range' 1 (c.loadXml db f).1.array.length) := by
  cases f with
  | missing => exact ⟨hc, by simp [Config.loadXml], by simp [Config.loadXml]⟩
  | noXml => exact ⟨hc, by simp [Config.loadXml], by simp [Config.loadXml]⟩
  | noRoot => exact ⟨hc, by simp [Config.loadXml], by simp [Config.loadXml]⟩
  | nodes l =>
    obtain ⟨h1, h2, h3, h4⟩ := loadNodes_spec db false (tagged "speaker" l) c hc
    rcases hr1 : loadNodes db false (tagged "speaker" l) c with ⟨c1, o1⟩
    rw [hr1] at h1 h2 h3 h4
    simp only at h1 h2 h3 h4
    simp only [Config.loadXml, hr1]
    rcases h2 with rfl | rfl | rfl
    · obtain ⟨k1, k2, k3, k4⟩ := loadNodes_spec db true (tagged "subwoofer" l) c1 h1
      rcases hr2 : loadNodes db true (tagged "subwoofer" l) c1 with ⟨c2, o2⟩
      rw [hr2] at k1 k2 k3 k4
      simp only at k1 k2 k3 k4
      rcases k2 with rfl | rfl | rfl
      · simp only [hr2]
        refine ⟨k1, (checkArray_iff c2.array).2.imp_right Or.inl, fun h => ?_⟩
        obtain ⟨ss1, i1, i2, i3⟩ := h3 rfl
        obtain ⟨ss2, j1, j2, j3⟩ := k3 rfl
        refine ⟨l, ss1, ss2, rfl, i1, j1, ?_, ?_, (checkArray_iff c2.array).1.1 h⟩
        · refine j2.trans ((List.Perm.append_left _ i2).trans ?_)
          rw [← List.append_assoc]
          refine List.Perm.append_right _ ?_
          exact (List.perm_append_comm).trans ((List.reverse_perm ss1).append (List.reverse_perm ss2))
        · rw [j3, i3]
          simp
      · simp only [hr2]
        exact ⟨k1, by simp, by simp⟩
      · simp only [hr2]
        exact ⟨k1, by simp, by simp⟩
    · exact ⟨h1, by simp, by simp⟩
    · exact ⟨h1, by simp, by simp⟩

theorem forall₂_append {A B : Type} {R : A → B → Prop} {l1 l2 : List A} {m : List B} (h : List.Forall₂ R (l1 ++ l2) m) :
    ∃ m1 m2, m = m1 ++ m2 ∧ List.Forall₂ R l1 m1 ∧ List.Forall₂ R l2 m2 := by
  induction l1 generalizing m with
  | nil => exact ⟨[], m, rfl, .nil, h⟩
  | cons x xs ih =>
    cases h with
    | cons h1 h2 =>
      obtain ⟨m1, m2, rfl, h3, h4⟩ := ih h2
      exact ⟨_ :: m1, m2, rfl, .cons h1 h3, h4⟩

theorem describes_speakers (db : K → K) {ns : List (Node K)} {ids : List Nat}
    (h : List.Forall₂ (fun x i => ∃ g d, Describes db x i g d) ns ids) :
    ∃ ss, List.Forall₂ (fun n s => readNode db n = .ok s) ns ss ∧ ss.map Speaker.id = ids := by
  induction h with
  | nil => exact ⟨[], .nil, rfl⟩
  | cons h _ ih =>
    obtain ⟨g, d, h⟩ := h
    obtain ⟨ss, h1, h2⟩ := ih
    exact ⟨⟨_, g, d⟩ :: ss, .cons ((readNode_iff db _ ⟨_, g, d⟩).2 h) h1, by simp [h2]⟩

theorem speakers_describe (db : K → K) {ns : List (Node K)} {ss : List (Speaker K)}
    (h : List.Forall₂ (fun n s => readNode db n = .ok s) ns ss) :
    List.Forall₂ (fun x i => ∃ g d, Describes db x i g d) ns (ss.map Speaker.id) := by
  induction h with
  | nil => exact .nil
  | cons h _ ih => exact .cons ⟨_, _, (readNode_iff db _ _).1 h⟩ ih

theorem read_unique {db : K → K} {ns : List (Node K)} {ss tt : List (Speaker K)}
    (h : List.Forall₂ (fun n s => readNode db n = .ok s) ns ss) (h' : List.Forall₂ (fun n s => readNode db n = .ok s) ns tt) :
    ss = tt := by
  induction h generalizing tt with
  | nil => cases h'; rfl
  | cons h _ ih =>
    cases h' with
    | cons k1 k2 =>
      rw [h] at k1
      cases k1
      rw [ih k2]

theorem read_mem {db : K → K} {ns : List (Node K)} {ss : List (Speaker K)}
    (h : List.Forall₂ (fun n s => readNode db n = .ok s) ns ss) {n : Node K} (hn : n ∈ ns) : ∃ s ∈ ss, readNode db n = .ok s := by
  induction h with
  | nil => cases hn
  | cons h _ ih =>
    rcases List.mem_cons.1 hn with rfl | hn
    · exact ⟨_, by simp, h⟩
    · obtain ⟨s, hs, h⟩ := ih hn
      exact ⟨s, by simp [hs], h⟩

theorem describes_unique {db : K → K} {n : Node K} {i i' : Nat} {g g' d d' : K} (h : Describes db n i g d)
    (h' : Describes db n i' g' d') : i = i' ∧ g = g' ∧ d = d' := by
  have h1 := (readNode_iff db n ⟨i, g, d⟩).2 h
  have h2 := (readNode_iff db n ⟨i', g', d'⟩).2 h'
  rw [h1] at h2
  simpa using h2

theorem inv_after (db : K → K) (fs : List (File K)) {c : Config K} (hc : Inv c) : Inv (after db c fs) := by
  induction fs generalizing c with
  | nil => exact hc
  | cons f fs ih => exact ih (loadXml_spec db c hc f).1

/-- Which files are accepted in general. -/
theorem loadXml_iff (db : K → K) (c : Config K) (hc : Inv c) (l : List (String × Node K)) :
    (c.loadXml db (.nodes l)).2 = .ok () ↔ ∃ ids n, List.Forall₂ (fun x i => ∃ g d, Describes db x i g d) (outputs l) ids ∧
      (ids ++ c.array.map Speaker.id).Perm (List.range' 1 n) := by
  constructor
  · intro h
    obtain ⟨l', ss1, ss2, e, h1, h2, h3, h4, h5⟩ := (loadXml_spec db _ hc (.nodes l)).2.2 h
    cases e
    refine ⟨(ss1 ++ ss2).map Speaker.id, (c.loadXml db (.nodes l)).1.array.length, ?_, ?_⟩
    · unfold outputs
      rw [List.map_append]
      exact List.rel_append (speakers_describe db h1) (speakers_describe db h2)
    · rw [← h5, ← List.map_append]
      exact (h3.map Speaker.id).symm
  · rintro ⟨ids, n, h1, h2⟩
    obtain ⟨ids1, ids2, rfl, k1, k2⟩ := forall₂_append h1
    obtain ⟨ss1, i1, rfl⟩ := describes_speakers db k1
    obtain ⟨ss2, j1, rfl⟩ := describes_speakers db k2
    have hnd : (ss1.map Speaker.id ++ ss2.map Speaker.id ++ c.array.map Speaker.id).Nodup := h2.nodup_iff.2 List.nodup_range'
    have hnd' : (ss2.map Speaker.id ++ (ss1.map Speaker.id ++ c.array.map Speaker.id)).Nodup := by
      refine (List.Perm.nodup_iff ?_).2 hnd
      rw [← List.append_assoc]
      exact List.Perm.append_right _ List.perm_append_comm
    obtain ⟨a1, a2, a3, a4⟩ := loadNodes_spec db false (tagged "speaker" l) c hc
    have ok1 := a4 ss1 i1 (List.nodup_append.1 hnd').2.1
    rcases hr1 : loadNodes db false (tagged "speaker" l) c with ⟨c1, o1⟩
    rw [hr1] at a1 a2 a3 a4 ok1
    simp only at a1 a2 a3 a4 ok1
    subst ok1
    obtain ⟨ss1', b1, b2, b3⟩ := a3 rfl
    have e1 : ss1' = ss1 := read_unique b1 i1
    subst e1
    have p1 : (c1.array.map Speaker.id).Perm (ss1'.map Speaker.id ++ c.array.map Speaker.id) := by
      rw [← List.map_append]
      exact (b2.trans (List.Perm.append_right _ (List.reverse_perm ss1'))).map _
    obtain ⟨d1, d2, d3, d4⟩ := loadNodes_spec db true (tagged "subwoofer" l) c1 a1
    have ok2 := d4 ss2 j1 ((List.Perm.nodup_iff (List.Perm.append_left _ p1)).2 hnd')
    rcases hr2 : loadNodes db true (tagged "subwoofer" l) c1 with ⟨c2, o2⟩
    rw [hr2] at d1 d2 d3 d4 ok2
    simp only at d1 d2 d3 d4 ok2
    subst ok2
    simp only [Config.loadXml, hr1, hr2]
    obtain ⟨ss2', f1, f2, f3⟩ := d3 rfl
    have e2 : ss2' = ss2 := read_unique f1 j1
    subst e2
    refine (checkArray_iff c2.array).1.2 ?_
    have hp : (c2.array.map Speaker.id).Perm (List.range' 1 n) := by
      refine (f2.map Speaker.id).trans ?_
      rw [List.map_append]
      refine (((List.reverse_perm ss2').map Speaker.id).append p1).trans (List.Perm.trans ?_ h2)
      rw [← List.append_assoc]
      exact List.Perm.append_right _ List.perm_append_comm
    have := ordered_perm d1.ordered hp
    rw [this]
    have hl : c2.array.length = n := by simpa using congrArg List.length this
    rw [hl]

/-! ## Theorems -/

/-- **C92 (accepted files).** A new object accepts a file iff it contains complete descriptions of the outputs `1, …, n`, in
any order. -/
theorem accepted_iff (db : K → K) (f : File K) :
    (Config.init.loadXml db f).2 = .ok () ↔ ∃ l n, f = .nodes l ∧ Valid db l n := by
  cases f with
  | missing => simp [Config.loadXml]
  | noXml => simp [Config.loadXml]
  | noRoot => simp [Config.loadXml]
  | nodes l =>
    rw [loadXml_iff db _ inv_init]
    constructor
    · rintro ⟨ids, n, h1, h2⟩
      exact ⟨l, n, rfl, ids, h1, by simpa [Config.init] using h2⟩
    · rintro ⟨l', n, e, ids, h1, h2⟩
      cases e
      exact ⟨ids, n, h1, by simpa [Config.init] using h2⟩

/-- **C92 (values).** After a new object has accepted a file, it has the outputs of the file, and gain and delay of every output
are those of the node with its number, whatever the order of the nodes; the subwoofers are listed in the order of the file. -/
theorem loaded (db : K → K) {l : List (String × Node K)} {c : Config K}
    (h : Config.init.loadXml db (.nodes l) = (c, .ok ())) (hlen : (outputs l).length < 2 ^ 64) :
    c.numberOfOutputs = (outputs l).length ∧ c.numberOfLoudspeakers = (tagged "speaker" l).length ∧
    c.numberOfSubwoofers = (tagged "subwoofer" l).length ∧
    List.Forall₂ (fun n i => ∃ g d, Describes db n i g d) (tagged "subwoofer" l) c.subwoofers ∧
    ∃ gains delays : List K, c.getGains (outputs l).length = .ok gains ∧ c.getDelays (outputs l).length = .ok delays ∧
      gains.length = (outputs l).length ∧ delays.length = (outputs l).length ∧
      ∀ n ∈ outputs l, ∀ i g d, Describes db n i g d → 1 ≤ i ∧ gains[i - 1]? = some g ∧ delays[i - 1]? = some d := by
  obtain ⟨_, _, hx⟩ := loadXml_spec db (Config.init : Config K) inv_init (.nodes l)
  rw [h] at hx
  obtain ⟨l', ss1, ss2, e, h1, h2, h3, h4, h5⟩ := hx rfl
  cases e
  simp only [Config.init, List.append_nil, List.nil_append] at h3 h4 h5
  have n1 := h1.length_eq
  have n2 := h2.length_eq
  have hc : c.array.length = (outputs l).length := by
    rw [h3.length_eq, outputs, List.length_append, List.length_append, n1, n2]
  have hs : c.subwoofers.length = (tagged "subwoofer" l).length := by rw [h4, List.length_map, n2]
  refine ⟨hc, ?_, hs, ?_, c.array.map Speaker.gain, c.array.map Speaker.delay, ?_, ?_, by simp [hc], by simp [hc], ?_⟩
  · unfold Config.numberOfLoudspeakers
    rw [hc, hs]
    unfold outputs at hlen ⊢
    rw [List.length_append] at hlen ⊢
    rw [show (tagged "speaker" l).length + (tagged "subwoofer" l).length + 2 ^ 64 - (tagged "subwoofer" l).length =
      (tagged "speaker" l).length + 2 ^ 64 by omega]
    omega
  · rw [h4]
    exact speakers_describe db h2
  · simp [Config.getGains, Config.numberOfOutputs, hc]
  · simp [Config.getDelays, Config.numberOfOutputs, hc]
  · intro n hn i g d hd
    have hr := (readNode_iff db n ⟨i, g, d⟩).2 hd
    have hall : List.Forall₂ (fun n s => readNode db n = .ok s) (outputs l) (ss1 ++ ss2) := List.rel_append h1 h2
    have hm : (⟨i, g, d⟩ : Speaker K) ∈ c.array := by
      refine h3.mem_iff.2 ?_
      obtain ⟨s, hs1, hs2⟩ := read_mem hall hn
      rw [hr] at hs2
      cases hs2
      exact hs1
    obtain ⟨k, hk, e⟩ := List.getElem_of_mem hm
    have hid : (c.array.map Speaker.id)[k]'(by simpa using hk) = i := by simp [e]
    simp only [h5] at hid
    rw [List.getElem_range'] at hid
    refine ⟨by omega, ?_⟩
    have : i - 1 = k := by omega
    rw [this]
    simp [hk, e]

/-- **C92 (failures).** Whatever has been loaded before, `loadXml` succeeds or throws `invalid_argument` or an exception of the
parser (`runtime_error`); vectors of the wrong size are refused; and there are never more subwoofers than outputs, each of them
listed once. -/
theorem history (db : K → K) (fs : List (File K)) (f : File K) :
    let c := after db Config.init fs
    ((c.loadXml db f).2 = .ok () ∨ (c.loadXml db f).2 = .throw .invalidArgument ∨ (c.loadXml db f).2 = .throw .runtimeError) ∧
    c.subwoofers.Nodup ∧ c.numberOfSubwoofers ≤ c.numberOfOutputs ∧
    (∀ n, n ≠ c.numberOfOutputs → c.getGains n = .throw .invalidArgument ∧ c.getDelays n = .throw .invalidArgument) := by
  intro c
  have hi : Inv c := inv_after db fs inv_init
  refine ⟨(loadXml_spec db c hi f).2.1, hi.subs, ?_, fun n hn => by simp [Config.getGains, Config.getDelays, hn]⟩
  have := (hi.subs.subperm (l₂ := c.array.map Speaker.id) hi.known).length_le
  simpa [Config.numberOfSubwoofers, Config.numberOfOutputs] using this

/-- **C92 (several files).** An object that has loaded outputs before accepts a further file iff old and new outputs together
have the numbers `1, …, n`; the old outputs remain. -/
theorem merged (db : K → K) (fs : List (File K)) (l : List (String × Node K)) :
    (((after db Config.init fs).loadXml db (.nodes l)).2 = .ok () ↔
      ∃ ids n, List.Forall₂ (fun x i => ∃ g d, Describes db x i g d) (outputs l) ids ∧
        (ids ++ (after db Config.init fs).array.map Speaker.id).Perm (List.range' 1 n)) ∧
    ∀ c', (after db Config.init fs).loadXml db (.nodes l) = (c', .ok ()) →
    c'.numberOfOutputs = (after db Config.init fs).numberOfOutputs + (outputs l).length ∧
    (∀ s ∈ (after db Config.init fs).array, s ∈ c'.array) ∧
    c'.array.map Speaker.id = List.range' 1 c'.numberOfOutputs := by
  refine ⟨loadXml_iff db _ (inv_after db fs inv_init) l, fun c' h => ?_⟩
  obtain ⟨_, _, hx⟩ := loadXml_spec db _ (inv_after db fs inv_init) (.nodes l)
  rw [h] at hx
  obtain ⟨l', ss1, ss2, e, h1, h2, h3, h4, h5⟩ := hx rfl
  cases e
  refine ⟨?_, fun s hs => h3.mem_iff.2 (by simp [hs]), h5⟩
  unfold Config.numberOfOutputs
  rw [h3.length_eq, outputs]
  simp [h1.length_eq, h2.length_eq]
  omega

/-- **Loading a file twice fails.** A file with at least one output that has been accepted is rejected by the same object, so a
configuration cannot be reloaded. -/
theorem reload_rejected (db : K → K) {l : List (String × Node K)} {c : Config K}
    (h : Config.init.loadXml db (.nodes l) = (c, .ok ())) (hne : outputs l ≠ []) : (c.loadXml db (.nodes l)).2 ≠ .ok () := by
  intro h2
  obtain ⟨hi, _, hx⟩ := loadXml_spec db (Config.init : Config K) inv_init (.nodes l)
  rw [h] at hx hi
  obtain ⟨l', ss1, ss2, e, h1, h2', h3, h4, h5⟩ := hx rfl
  cases e
  obtain ⟨hi2, _, hy⟩ := loadXml_spec db c hi (.nodes l)
  obtain ⟨l', tt1, tt2, e, k1, k2, k3, k4, k5⟩ := hy h2
  cases e
  have e1 : tt1 = ss1 := read_unique k1 h1
  have e2 : tt2 = ss2 := read_unique k2 h2'
  subst e1 e2
  have hnd : ((c.loadXml db (.nodes l)).1.array.map Speaker.id).Nodup := hi2.nodup
  have hnd' := (k3.map Speaker.id).nodup_iff.1 hnd
  rw [List.map_append, List.nodup_append] at hnd'
  have hss : tt1 ++ tt2 ≠ [] := by
    intro e
    have := congrArg List.length e
    rw [List.length_append, ← k1.length_eq, ← k2.length_eq, ← List.length_append] at this
    exact hne (List.length_eq_zero_iff.1 this)
  obtain ⟨s, hs⟩ := List.exists_mem_of_ne_nil _ hss
  exact hnd'.2.2 s.id (List.mem_map.2 ⟨s, hs, rfl⟩) s.id
    (List.mem_map.2 ⟨s, h3.mem_iff.2 (by simpa [Config.init] using hs), rfl⟩) rfl

/-! ## Examples -/

/-- A node of a test file. -/
def demoNode (id : Nat) (gain : Entry Int) (gainDB : Entry Int) : Node Int := ⟨.val id, gain, gainDB, .val (10 * id)⟩

/-- Three loudspeakers and a subwoofer, not in the order of their numbers. -/
def demoFile : List (String × Node Int) :=
  [("subwoofer", demoNode 2 (.val 7) .missing), ("speaker", demoNode 3 .missing (.val 5)), ("comment", demoNode 9 .missing .missing),
   ("speaker", demoNode 1 (.val 6) .missing), ("speaker", demoNode 4 (.val 8) .malformed)]

/-- The hypotheses are met: the file is accepted, with the values of the nodes in the order of the outputs. -/
example : let r := Config.init.loadXml (· + 100) (.nodes demoFile)
    r.2 = .ok () ∧ r.1.getGains 4 = .ok [6, 7, 105, 8] ∧ r.1.getDelays 4 = .ok [10, 20, 30, 40] ∧ r.1.subwoofers = [2] ∧
    r.1.numberOfLoudspeakers = 3 := ⟨rfl, rfl, rfl, rfl, rfl⟩

example : Valid (· + 100) demoFile 4 := by
  obtain ⟨l, n, e, h⟩ := (accepted_iff (· + 100) (.nodes demoFile)).1 rfl
  cases e
  have : n = 4 := by
    obtain ⟨ids, h1, h2⟩ := h
    have := h2.length_eq
    rw [← h1.length_eq, List.length_range'] at this
    simpa [outputs, tagged, demoFile] using this.symm
  exact this ▸ h

example : (outputs demoFile).length < 2 ^ 64 ∧ outputs demoFile ≠ [] := by decide

/-- Two files with different outputs can be loaded one after the other. -/
example : (after (fun x : Int => x) Config.init [.nodes [("speaker", demoNode 1 (.val 6) .missing)]]).loadXml (fun x => x)
    (.nodes [("speaker", demoNode 2 (.val 7) .missing)]) = (⟨[⟨1, 6, 10⟩, ⟨2, 7, 20⟩], []⟩, .ok ()) := rfl

/-- **A failed call is not undone (C92 is false of the code here).** After a file with a mistake has been rejected, the corrected
file is rejected as well, although a new object accepts it. -/
theorem retry_rejected :
    let bad : File Int := .nodes [("speaker", demoNode 1 (.val 6) .missing), ("speaker", demoNode 2 .missing .missing)]
    let good : File Int := .nodes [("speaker", demoNode 1 (.val 6) .missing), ("speaker", demoNode 2 (.val 7) .missing)]
    (Config.init.loadXml (fun x => x) bad).2 = .throw .invalidArgument ∧
    (Config.init.loadXml (fun x => x) good).2 = .ok () ∧
    ((after (fun x => x) Config.init [bad]).loadXml (fun x => x) good).2 = .throw .invalidArgument := ⟨rfl, rfl, rfl⟩

/-- **Mistakes in attributes are not reported (C92 is false of the code here).** With an unreadable delay the delay is zero, and
an unreadable gain is ignored if there is a gain in decibels. A missing or unreadable number is reported, but not as the
documented `invalid_argument`. -/
theorem malformed_attributes :
    Config.init.loadXml (fun x : Int => x) (.nodes [("speaker", ⟨.val 1, .malformed, .val 3, .malformed⟩)]) = (⟨[⟨1, 3, 0⟩], []⟩, .ok ()) ∧
    (Config.init.loadXml (fun x : Int => x) (.nodes [("speaker", ⟨.malformed, .val 3, .missing, .missing⟩)])).2 = .throw .runtimeError :=
  ⟨rfl, rfl⟩

end Visr.ArraySetup
