import Verif.Jack.History

/-!
# Properties of the JACK interface (C75)
-/

namespace Visr.Jack
open Visr

variable {α F U σ : Type}

/-! ## The configuration -/

theorem construct_iff (nCap nPlay period : Nat) (o : Options) (cfg : Config) :
    construct nCap nPlay period (some o) = .ok cfg ↔
      ∃ c p, loadPortConfig o.capture nCap (o.autoconnect.getD false) "in_".toList = .ok c ∧
        loadPortConfig o.playback nPlay (o.autoconnect.getD false) "out_".toList = .ok p ∧ p.1.Nodup ∧
        cfg = ⟨if o.clientname.getD [] = [] then "VISR".toList else o.clientname.getD [], period, c.1, p.1, c.2, p.2,
          o.autoconnect.getD false⟩ := by
  simp only [construct]
  cases hc : loadPortConfig o.capture nCap (o.autoconnect.getD false) "in_".toList with
  | throw e => simp
  | ub => simp
  | ok c =>
    cases hp : loadPortConfig o.playback nPlay (o.autoconnect.getD false) "out_".toList with
    | throw e => simp
    | ub => simp
    | ok p =>
      simp only [Outcome.ok_bind, checkNames, List.nil_append]
      by_cases hn : p.1.Nodup
      · rw [if_pos hn]
        simp only [Outcome.ok_bind, Outcome.ok.injEq]
        constructor
        · intro h; exact ⟨c, p, rfl, rfl, hn, h.symm⟩
        · rintro ⟨c', p', rfl, rfl, _, h⟩; exact h.symm
      · rw [if_neg hn]
        simp only [Outcome.throw_bind, reduceCtorEq, false_iff]
        rintro ⟨c', p', _, h2, h, _⟩
        injection h2 with h2
        rw [h2] at hn; exact hn h

/-- C75: an interface is created with one port per channel, named in order as the configuration describes, and, where
automatic connection is requested and each element but the first has its own `externalport` node, with the described
external ports.  A missing or empty client name stands for `VISR`. -/
theorem names_are_described_partial {nCap nPlay period : Nat} {o : Options} {cfg : Config}
    (h : construct nCap nPlay period (some o) = .ok cfg) :
    DescribedNames o.capture nCap "in_".toList cfg.capNames ∧ DescribedNames o.playback nPlay "out_".toList cfg.playNames ∧
      cfg.playNames.Nodup ∧ cfg.period = period ∧ cfg.auto = o.autoconnect.getD false ∧
      (cfg.clientName = "VISR".toList ∧ o.clientname.getD [] = [] ∨ o.clientname = some cfg.clientName ∧ cfg.clientName ≠ []) ∧
      (Auto o.capture cfg.auto → OwnExt o.capture → DescribedExt o.capture nCap "capture_".toList cfg.inExt) ∧
      (Auto o.playback cfg.auto → OwnExt o.playback → DescribedExt o.playback nPlay "playback_".toList cfg.outExt) ∧
      (¬ Auto o.capture cfg.auto → cfg.inExt = List.replicate nCap []) ∧
      (¬ Auto o.playback cfg.auto → cfg.outExt = List.replicate nPlay []) := by
  obtain ⟨⟨cn, ce⟩, ⟨pn, pe⟩, h1, h2, h3, rfl⟩ := (construct_iff _ _ _ _ _).1 h
  obtain ⟨c1, c2⟩ := (load_iff _ _ _ _ _ _).1 h1
  obtain ⟨p1, p2⟩ := (load_iff _ _ _ _ _ _).1 h2
  refine ⟨c1, p1, h3, rfl, rfl, ?_, ?_, ?_, ?_, ?_⟩
  · cases hcl : o.clientname with
    | none => left; simp
    | some n =>
      by_cases hn : n = []
      · left; simp [hn]
      · right; simp [hn]
  · intro ha hown
    rw [if_pos ((auto_iff _ _).2 ha), effective_tail _ hown] at c2
    obtain ⟨parts, q1, q2, q3⟩ := c2
    exact ⟨parts, List.forall₂_map_left_iff.1 q1, q2, q3⟩
  · intro ha hown
    rw [if_pos ((auto_iff _ _).2 ha), effective_tail _ hown] at p2
    obtain ⟨parts, q1, q2, q3⟩ := p2
    exact ⟨parts, List.forall₂_map_left_iff.1 q1, q2, q3⟩
  · intro ha
    rw [if_neg (fun hb => ha ((auto_iff _ _).1 hb))] at c2
    exact c2
  · intro ha
    rw [if_neg (fun hb => ha ((auto_iff _ _).1 hb))] at p2
    exact p2

/-- C75: conversely a configuration that describes one port and, if requested, one external port per channel is
accepted if the playback ports have distinct names. -/
theorem described_names_are_accepted {nCap nPlay period : Nat} {o : Options} {cap play inExt outExt : List Name}
    (hc : DescribedNames o.capture nCap "in_".toList cap) (hp : DescribedNames o.playback nPlay "out_".toList play)
    (hn : play.Nodup) (hcx : OwnExt o.capture) (hpx : OwnExt o.playback)
    (hi : Auto o.capture (o.autoconnect.getD false) → DescribedExt o.capture nCap "capture_".toList inExt)
    (ho : Auto o.playback (o.autoconnect.getD false) → DescribedExt o.playback nPlay "playback_".toList outExt) :
    ∃ cfg, construct nCap nPlay period (some o) = .ok cfg ∧ cfg.capNames = cap ∧ cfg.playNames = play ∧
      (Auto o.capture (o.autoconnect.getD false) → cfg.inExt = inExt) ∧
      (Auto o.playback (o.autoconnect.getD false) → cfg.outExt = outExt) := by
  have key : ∀ (d : Option Dir) (n : Nat) (auto : Bool) (t b : Name) (ns es : List Name), extBase t = b → OwnExt d →
      DescribedNames d n t ns → (Auto d auto → DescribedExt d n b es) →
      ∃ es', loadPortConfig d n auto t = .ok (ns, es') ∧ (Auto d auto → es' = es) := by
    intro d n auto t b ns es hb hown h1 h2
    by_cases ha : Auto d auto
    · refine ⟨es, (load_iff _ _ _ _ _ _).2 ⟨h1, ?_⟩, fun _ => rfl⟩
      rw [if_pos ((auto_iff _ _).2 ha), effective_tail _ hown, hb]
      obtain ⟨parts, q1, q2, q3⟩ := h2 ha
      exact ⟨parts, List.forall₂_map_left_iff.2 q1, q2, q3⟩
    · refine ⟨List.replicate n [], (load_iff _ _ _ _ _ _).2 ⟨h1, ?_⟩, fun h => absurd h ha⟩
      rw [if_neg (fun hb => ha ((auto_iff _ _).1 hb))]
  obtain ⟨e1, k1, k2⟩ := key _ nCap _ "in_".toList "capture_".toList _ _ rfl hcx hc hi
  obtain ⟨e2, k3, k4⟩ := key _ nPlay _ "out_".toList "playback_".toList _ _ rfl hpx hp ho
  exact ⟨_, (construct_iff _ _ _ _ _).2 ⟨_, _, k1, k3, hn, rfl⟩, rfl, rfl, k2, k4⟩

/-- C75: a configuration that is not JSON is rejected. -/
theorem invalid_text_is_rejected (nCap nPlay period : Nat) :
    construct nCap nPlay period none = .throw .invalidArgument := rfl

/-! ## Ports and connections -/

section
variable [DecidableEq F] {cfg : Config} (proc : Proc α F U σ) (sources sinks : List Name)
  (hfor : Foreign cfg.clientName ⟨[], 0, [], false, sources, sinks⟩) (w : σ) (h : List (Op α F U))

theorem shortName_plain {n : Name} (h : ':' ∉ n) : shortName n = n := by rw [shortName, if_neg h]

theorem map_shortName {l : List Name} (h : Plain l) : l.map shortName = l := by
  conv_rhs => rw [← List.map_id l]
  exact List.map_congr_left fun n hn => shortName_plain (h n hn)

include hfor in
/-- C75: while the interface is started, the server has exactly the ports of the interface, in order, with the
described names (if these contain no colon) and the client is active; otherwise it has no ports and no connections of
the interface. -/
theorem ports_while_started_partial (hc : Plain cfg.capNames) (hp : Plain cfg.playNames) :
    let s0 : State F U σ := State.init cfg.capNames.length cfg.playNames.length sources sinks w
    let s := final (step cfg proc) s0 h
    (Started cfg proc s0 h → HasPorts s.srv cfg.capNames cfg.playNames ∧ s.srv.active = true) ∧
      (¬ Started cfg proc s0 h → s.srv.ports = [] ∧ s.srv.conns = []) := by
  intro s0 s
  obtain ⟨i1, _, _, i4, _⟩ := history_inv proc sources sinks hfor w h
  have hst := i1.state
  constructor
  · intro hs
    rw [i4.2 hs] at hst
    simp only [if_true] at hst
    obtain ⟨ps, qs, p1, _, _, p4, p5, p6, p7⟩ := hst.1.ports
    refine ⟨?_, hst.2⟩
    rw [map_shortName hc] at p4
    rw [map_shortName hp] at p5
    show s.srv.ports.map (fun p => (p.name, p.isInput)) = _
    have hport : s.srv.ports = ps ++ qs := p1
    rw [hport, List.map_append, ← p4, ← p5, List.map_map, List.map_map]
    congr 1
    · exact List.map_congr_left fun p hp => by simp [p6 p hp]
    · exact List.map_congr_left fun p hp => by simp [p7 p hp]
  · intro hs
    have hf : (final (step cfg proc) (State.init cfg.capNames.length cfg.playNames.length sources sinks w) h).initialised
        = false := by
      cases hb : (final (step cfg proc)
        (State.init cfg.capNames.length cfg.playNames.length sources sinks w) h).initialised with
      | false => rfl
      | true => exact absurd (i4.1 hb) hs
    rw [hf] at hst
    simp only [Bool.false_eq_true, if_false] at hst
    exact ⟨hst.ports, hst.conns⟩

include hfor in
/-- C75: after any history `start()` succeeds exactly if the server activates the client and accepts all ports and
the names of all ports are distinct; otherwise it throws `std::runtime_error`. -/
theorem start_succeeds_iff (hc : Plain cfg.capNames) (hp : Plain cfg.playNames) (a : Bool) (acc : Bool → Nat → Bool) :
    let s := final (step cfg proc) (State.init cfg.capNames.length cfg.playNames.length sources sinks w) h
    ((step cfg proc s (.start a acc)).2 = .done ↔
      a = true ∧ (∀ i < cfg.capNames.length, acc true i = true) ∧ (∀ i < cfg.playNames.length, acc false i = true) ∧
        (cfg.capNames ++ cfg.playNames).Nodup) ∧
    ((step cfg proc s (.start a acc)).2 ≠ .done → (step cfg proc s (.start a acc)).2 = .throws .runtimeError) := by
  intro s
  obtain ⟨i1, _⟩ := history_inv proc sources sinks hfor w h
  obtain ⟨_, _, _, _, _, _, s7, s8⟩ := start_spec (α := α) i1 a acc
  have hplain : (cfg.capNames ++ cfg.playNames).map shortName = cfg.capNames ++ cfg.playNames := by
    rw [List.map_append, map_shortName hc, map_shortName hp]
  rw [hplain] at s8
  exact ⟨s8, fun hne => s7.resolve_left hne⟩

include hfor in
/-- C75: `stop()` deactivates the started client unless the server refuses. -/
theorem stop_deactivates :
    let s0 : State F U σ := State.init cfg.capNames.length cfg.playNames.length sources sinks w
    let s := final (step cfg proc) s0 h
    Started cfg proc s0 h → (step cfg proc s (.stop true)).2 = .done ∧ (step cfg proc s (.stop true)).1.srv.active = false := by
  intro s0 s hs
  obtain ⟨i1, _, _, i4, _⟩ := history_inv proc sources sinks hfor w h
  obtain ⟨_, _, _, _, _, _, s7⟩ := stop_spec (α := α) i1 true
  exact (s7 (i4.2 hs) rfl).symm

include hfor in
/-- C75: a started interface whose configuration requests automatic connection as a whole has exactly these
connections: channel `i` of each direction with automatic connection to its external port, if that exists. -/
theorem connections_partial {nCap nPlay period : Nat} {o : Options}
    (hcfg : construct nCap nPlay period (some o) = .ok cfg) (hauto : o.autoconnect = .val true)
    (hc : Plain cfg.capNames) (hp : Plain cfg.playNames) (hnil : [] ∉ sources ∧ [] ∉ sinks) :
    let s0 : State F U σ := State.init cfg.capNames.length cfg.playNames.length sources sinks w
    let s := final (step cfg proc) s0 h
    Started cfg proc s0 h → ∀ a b, (a, b) ∈ s.srv.conns ↔
      (Auto o.capture true ∧ ∃ (i : Nat) (n : Name), cfg.inExt[i]? = some a ∧ cfg.capNames[i]? = some n ∧
          b = cfg.clientName ++ ":".toList ++ n ∧ IsSource cfg.clientName s.srv a) ∨
      (Auto o.playback true ∧ ∃ (i : Nat) (n : Name), cfg.playNames[i]? = some n ∧ cfg.outExt[i]? = some b ∧
          a = cfg.clientName ++ ":".toList ++ n ∧ IsSink cfg.clientName s.srv b) := by
  intro s0 s hs a b
  obtain ⟨i1, i2, i3, i4, _⟩ := history_inv proc sources sinks hfor w h
  obtain ⟨_, _, _, _, hcauto, _, _, _, hx1, hx2⟩ := names_are_described_partial hcfg
  have hga : cfg.auto = true := by rw [hcauto, hauto]; rfl
  rw [hga] at hx1 hx2
  have hst := i1.state
  rw [i4.2 hs] at hst
  simp only [if_true] at hst
  obtain ⟨ps, qs, p1, _, _, p4, p5, p6, p7⟩ := hst.1.ports
  rw [map_shortName hc] at p4
  rw [map_shortName hp] at p5
  have hconns : s.srv.conns = (wanted cfg).filter (possible cfg.clientName s.srv) := hst.1.conns
  have hports : s.srv.ports = ps ++ qs := p1
  obtain ⟨hin, hout⟩ := split_ports hports p6 p7
  have hsrc : s.srv.sources = sources := i2
  have hsnk : s.srv.sinks = sinks := i3
  have poss : ∀ x y, possible cfg.clientName s.srv (x, y) = true ↔
      IsSource cfg.clientName s.srv x ∧ IsSink cfg.clientName s.srv y := by
    intro x y
    unfold possible IsSource IsSink
    rw [decide_eq_true_eq]
    simp only [List.mem_append, List.mem_map, List.mem_filter, Bool.not_eq_true', fullName]
    constructor
    · rintro ⟨h1, h2⟩
      refine ⟨h1.imp id ?_, h2.imp id ?_⟩
      · rintro ⟨p, ⟨q1, q2⟩, e⟩; exact ⟨p, q1, q2, e.symm⟩
      · rintro ⟨p, ⟨q1, q2⟩, e⟩; exact ⟨p, q1, q2, e.symm⟩
    · rintro ⟨h1, h2⟩
      refine ⟨h1.imp id ?_, h2.imp id ?_⟩
      · rintro ⟨p, q1, q2, e⟩; exact ⟨p, ⟨q1, q2⟩, e.symm⟩
      · rintro ⟨p, q1, q2, e⟩; exact ⟨p, ⟨q1, q2⟩, e.symm⟩
  have ownSink : ∀ n ∈ cfg.capNames, IsSink cfg.clientName s.srv (cfg.clientName ++ ":".toList ++ n) := by
    intro n hn
    rw [← p4] at hn
    obtain ⟨p, hpm, rfl⟩ := List.mem_map.1 hn
    exact Or.inr ⟨p, by rw [hports]; simp [hpm], p6 p hpm, rfl⟩
  have ownSource : ∀ n ∈ cfg.playNames, IsSource cfg.clientName s.srv (cfg.clientName ++ ":".toList ++ n) := by
    intro n hn
    rw [← p5] at hn
    obtain ⟨p, hpm, rfl⟩ := List.mem_map.1 hn
    exact Or.inr ⟨p, by rw [hports]; simp [hpm], p7 p hpm, rfl⟩
  have noSource : ¬ IsSource cfg.clientName s.srv [] := by
    rintro (h1 | ⟨p, _, _, e⟩)
    · rw [hsrc] at h1; exact hnil.1 h1
    · simp at e
  have noSink : ¬ IsSink cfg.clientName s.srv [] := by
    rintro (h1 | ⟨p, _, _, e⟩)
    · rw [hsnk] at h1; exact hnil.2 h1
    · simp at e
  have zipmem : ∀ (l m : List Name) (x y : Name), (x, y) ∈ l.zip m ↔ ∃ i : Nat, l[i]? = some x ∧ m[i]? = some y := by
    intro l m x y
    rw [List.mem_iff_getElem?]
    simp only [List.getElem?_zip_eq_some]
  rw [hconns, List.mem_filter, poss, wanted, hga, if_pos rfl, List.mem_append, zipmem, zipmem]
  simp only [List.getElem?_map, Option.map_eq_some_iff, fullName]
  have rep : ∀ (n i : Nat) (x : Name), (List.replicate n ([] : Name))[i]? = some x → x = [] := by
    intro n i x hx
    exact List.eq_of_mem_replicate (List.mem_of_getElem? hx)
  constructor
  · rintro ⟨⟨i, e1, n, e2, rfl⟩ | ⟨i, ⟨n, e1, rfl⟩, e2⟩, hsrc', hsnk'⟩
    · left
      refine ⟨?_, i, n, e1, e2, rfl, hsrc'⟩
      by_contra hna
      rw [hx1 hna] at e1
      rw [rep _ _ _ e1] at hsrc'
      exact noSource hsrc'
    · right
      refine ⟨?_, i, n, e1, e2, rfl, hsnk'⟩
      by_contra hna
      rw [hx2 hna] at e2
      rw [rep _ _ _ e2] at hsnk'
      exact noSink hsnk'
  · rintro (⟨_, i, n, e1, e2, rfl, hso⟩ | ⟨_, i, n, e1, e2, rfl, hsi⟩)
    · exact ⟨Or.inl ⟨i, e1, n, e2, rfl⟩, hso, ownSink n (List.mem_of_getElem? e2)⟩
    · exact ⟨Or.inr ⟨i, ⟨n, e1, rfl⟩, e2⟩, ownSource n (List.mem_of_getElem? e1), hsi⟩

include hfor in
/-- C75: without automatic connection of the configuration as a whole, the interface makes no connections. -/
theorem no_connections (hauto : cfg.auto = false) :
    (final (step cfg proc) (State.init cfg.capNames.length cfg.playNames.length sources sinks w) h).srv.conns = [] := by
  obtain ⟨i1, _⟩ := history_inv proc sources sinks hfor w h
  have hst := i1.state
  split_ifs at hst
  · rw [hst.1.conns, wanted, hauto]; simp
  · exact hst.conns

/-! ## Blocks -/

include hfor in
/-- C75: a block of the agreed length while the interface is started is passed once to the function registered last, in
the order of the channels (except that the interface does not survive a C string thrown by it). -/
theorem blocks_are_exchanged_partial (f : F) (u : U) (buf : Nat → List α)
    (hx : ∀ w caps, (proc f u w caps).2.2 ≠ some .cString) :
    let s0 : State F U σ := State.init cfg.capNames.length cfg.playNames.length sources sinks w
    let s := final (step cfg proc) s0 h
    Started cfg proc s0 h → Registered h f u →
      Exchanged proc f u buf s (step cfg proc s (.block cfg.period buf)).1 (step cfg proc s (.block cfg.period buf)).2 := by
  intro s0 s hs hr
  obtain ⟨i1, _, _, i4, i5⟩ := history_inv proc sources sinks hfor w h
  have hi := i4.2 hs
  have hst := i1.state
  rw [hi] at hst
  simp only [if_true] at hst
  have hact : s.srv.active = true := hst.2
  have hstep : step cfg proc s (.block cfg.period buf) = process cfg proc cfg.period buf s := by
    simp only [step, hact, if_true]
  rw [hstep]
  exact process_running i1 hi ((i5 f u).2 hr) buf hx

include hfor in
/-- C75: a block reaches no function before `start()`, after `stop()` or without a registered function; blocks of
another length are refused. -/
theorem other_blocks (n : Nat) (buf : Nat → List α) :
    let s0 : State F U σ := State.init cfg.capNames.length cfg.playNames.length sources sinks w
    let s := final (step cfg proc) s0 h
    (¬ Started cfg proc s0 h ∨ (∀ f u, ¬ Registered h f u) ∨ n ≠ cfg.period) →
      (step cfg proc s (.block n buf)).1 = s ∧
      ((step cfg proc s (.block n buf)).2 = .silent ∨
        (step cfg proc s (.block n buf)).2 = .ret (if n = cfg.period then 0 else 1) none) := by
  intro s0 s hd
  obtain ⟨i1, _, _, i4, i5⟩ := history_inv proc sources sinks hfor w h
  by_cases hact : s.srv.active = true
  · have hstep : step cfg proc s (.block n buf) = process cfg proc n buf s := by
      simp only [step, hact, if_true]
    rw [hstep]
    by_cases hn : n = cfg.period
    · subst hn
      have hidle : s.initialised = false ∨ s.callback = none := by
        rcases hd with hd | hd | hd
        · left
          cases hb : s.initialised with
          | false => rfl
          | true => exact absurd (i4.1 hb) hd
        · right
          rcases hcb : s.callback with _ | ⟨f, u⟩
          · rfl
          · exact absurd ((i5 f u).1 hcb) (hd f u)
        · exact absurd rfl hd
      rw [process_idle hidle]
      simp
    · rw [process, if_pos (fun e => hn e.symm), if_neg hn]
      simp
  · have hstep : step cfg proc s (.block n buf) = (s, .silent) := by
      simp only [step]; rw [if_neg hact]
    rw [hstep]
    simp

include hfor in
/-- C75: no history leads to undefined behaviour in a block. -/
theorem no_undefined_behaviour (n : Nat) (buf : Nat → List α) :
    (step cfg proc (final (step cfg proc) (State.init cfg.capNames.length cfg.playNames.length sources sinks w) h)
      (.block n buf)).2 ≠ .ub := by
  obtain ⟨i1, _⟩ := history_inv proc sources sinks hfor w h
  generalize final (step cfg proc) (State.init cfg.capNames.length cfg.playNames.length sources sinks w) h = s at *
  simp only [step]
  split_ifs with hact
  · unfold process
    split_ifs
    · simp
    · split
      · rename_i f u hcb hi
        have hst := i1.state
        rw [hi] at hst
        simp only [if_true] at hst
        obtain ⟨ps, qs, p1, p2, p3, _⟩ := hst.1.ports
        rw [p2, p3, buffers_ok s.srv ps (fun p hp => by rw [p1]; simp [hp]),
          buffers_ok s.srv qs (fun p hp => by rw [p1]; simp [hp])]
        simp only
        split <;> simp
      · simp
  · simp

end

/-! ## Examples -/

namespace Demo

/-- An `externalport` node. -/
def ext (c p i : Option String) : Ext := ⟨c.map (·.toList), p.map (·.toList), i.map (·.toList)⟩

/-- An element with base name and numbers. -/
def port (b i : String) (x : Option Ext := none) : PortEntry := ⟨some b.toList, some i.toList, x⟩

/-- An element with a base name only. -/
def ports (b : String) (x : Option Ext := none) : PortEntry := ⟨some b.toList, none, x⟩

/-- A direction with the given elements. -/
def dir (l : List PortEntry) (auto : Entry Bool := .missing) : Option Dir := some ⟨auto, some l⟩

def o : Options := ⟨none, .val true, dir [port "mic" "2:3" (ext none none "5,7")],
  dir [port "L" "0" (ext "amp" "in" "1"), port "R" "0" (ext none none "2")]⟩

def cfg : Config :=
  ⟨"VISR".toList, 2, ["mic2".toList, "mic3".toList], ["L0".toList, "R0".toList],
    ["system:capture_5".toList, "system:capture_7".toList], ["amp:in1".toList, "system:playback_2".toList], true⟩

example : construct 2 2 2 (some o) = .ok cfg := by decide +kernel

def src : List Name := ["system:capture_5".toList, "system:capture_6".toList]
def snk : List Name := ["amp:in1".toList, "system:playback_2".toList]

/-- A function that gives the negated and the doubled samples of the first channel. -/
def proc : Proc Int Nat Nat Nat := fun f _ w caps =>
  if f = 0 then (w + 1, [(caps.headD []).map Neg.neg, (caps.headD []).map (· * 2)], none)
  else (w, [], some (if f = 1 then .runtimeError else .cString))

def acc : Bool → Nat → Bool := fun _ _ => true
def buf : Nat → List Int := fun h => [10 * h + 1, 10 * h + 2]
def s0 : State Nat Nat Nat := State.init 2 2 src snk 0

/-- The results of a history, the ports and the connections. -/
def go (c : Config) (h : List (Op Int Nat Nat)) : List (Result Int) × List Port × List (Name × Name) × Bool :=
  let r := run (step c proc) (State.init c.capNames.length c.playNames.length src snk 0) h
  (r.2, r.1.srv.ports, r.1.srv.conns, r.1.srv.active)

example : go cfg [.register 0 0, .start true acc, .block 2 buf, .block 3 buf] =
    ([.bool true, .done, .ret 0 (some [(2, [-1, -2]), (3, [2, 4])]), .ret 1 none],
      [⟨0, "mic2".toList, true⟩, ⟨1, "mic3".toList, true⟩, ⟨2, "L0".toList, false⟩, ⟨3, "R0".toList, false⟩],
      [("system:capture_5".toList, "VISR:mic2".toList), ("VISR:L0".toList, "amp:in1".toList),
        ("VISR:R0".toList, "system:playback_2".toList)], true) := by decide +kernel

example : go cfg [.register 0 0, .start true acc, .stop true, .block 2 buf] =
    ([.bool true, .done, .done, .silent], [], [], false) := by decide +kernel

theorem foreign : Foreign cfg.clientName ⟨[], 0, [], false, src, snk⟩ := by
  intro n
  constructor <;> simp [src, snk, cfg]

example : Plain cfg.capNames ∧ Plain cfg.playNames ∧ [] ∉ src ∧ [] ∉ snk := by
  unfold Plain; decide +kernel

theorem started : Started cfg proc s0 [.register 0 0, .start true acc] :=
  ⟨[.register 0 0], true, acc, [], rfl, by decide +kernel, by simp⟩

example : Registered ([.register 0 0, .start true acc] : List (Op Int Nat Nat)) 0 0 :=
  ⟨[], [.start true acc], rfl, by simp⟩

example : OwnExt o.capture ∧ OwnExt o.playback ∧ Auto o.capture true := by
  refine ⟨?_, ?_, ?_⟩
  · intro e he; simp [elements, o, dir] at he
  · intro e he; simp [elements, o, dir, port] at he; subst he; simp
  · right; simp [o, dir]

example : ∃ l, DescribedNames o.capture 2 "in_".toList l ∧ l = ["mic2".toList, "mic3".toList] :=
  ⟨_, ⟨_, .cons (.listed "mic".toList "2:3".toList [2, 3] rfl rfl (by unfold Denotes; decide +kernel)) .nil, rfl,
    by decide +kernel⟩, by decide +kernel⟩

end Demo

/-! ## Where the property is false of the code -/

open Demo in
/-- C75 is false: equal names of capture ports, and equal names of a capture and a playback port, pass the check of the
constructor although it promises `std::invalid_argument`; `start()` fails instead. -/
theorem capture_duplicates_are_not_detected :
    (∃ cfg, construct 2 0 2 (some ⟨none, .missing, dir [port "x" "4,4"], none⟩) = .ok cfg ∧ ¬ cfg.capNames.Nodup ∧
      (Demo.go cfg [.start true Demo.acc]).1 = [.throws .runtimeError]) ∧
    (∃ cfg, construct 1 1 2 (some ⟨none, .missing, dir [ports "x"], dir [ports "x"]⟩) = .ok cfg ∧
      cfg.capNames = cfg.playNames ∧ (Demo.go cfg [.start true Demo.acc]).1 = [.throws .runtimeError]) := by
  refine ⟨⟨⟨"VISR".toList, 2, ["x4".toList, "x4".toList], [], [[], []], [], false⟩, ?_, ?_, ?_⟩,
    ⟨⟨"VISR".toList, 2, ["x0".toList], ["x0".toList], [[]], [[]], false⟩, ?_, ?_, ?_⟩⟩ <;> decide +kernel

open Demo in
/-- C75 is false: elements that describe more ports than there are channels, and external ports beyond them, are written
behind the end of the array of names instead of being rejected. -/
theorem too_many_names_are_undefined :
    construct 2 0 2 (some ⟨none, .missing, dir [port "x" "0:1", port "y" "0"], none⟩) = .ub ∧
    construct 2 0 2 (some ⟨none, .missing, dir [ports "x", ports "y"], none⟩) = .ub ∧
    construct 2 0 2 (some ⟨none, .val true, dir [ports "x" (ext none none "1:3")], none⟩) = .ub := by
  refine ⟨?_, ?_, ?_⟩ <;> decide +kernel

open Demo in
/-- C75 is false: automatic connection requested for one direction only has no effect. -/
theorem autoconnect_of_one_direction_is_ignored :
    ∃ cfg, construct 1 0 2 (some ⟨none, .missing, dir [ports "x" (ext none none "5")] (.val true), none⟩) = .ok cfg ∧
      cfg.inExt = ["system:capture_5".toList] ∧ "system:capture_5".toList ∈ Demo.src ∧
      (Demo.go cfg [.start true Demo.acc]).1 = [.done] ∧ (Demo.go cfg [.start true Demo.acc]).2.2.1 = [] := by
  refine ⟨⟨"VISR".toList, 2, ["x0".toList], [], ["system:capture_5".toList], [], false⟩, ?_, ?_, ?_, ?_, ?_⟩ <;>
    decide +kernel

open Demo in
/-- C75 is false: an element without `externalport` node uses the one of the element before it instead of the defaults. -/
theorem external_ports_are_inherited :
    ∃ cfg, construct 2 0 2 (some ⟨none, .val true, dir [port "x" "0" (ext "dev" none "9"), port "y" "0"], none⟩) = .ok cfg ∧
      cfg.inExt = ["dev:capture_9".toList, "dev:capture_9".toList] := by
  refine ⟨⟨"VISR".toList, 2, ["x0".toList, "y0".toList], [], ["dev:capture_9".toList, "dev:capture_9".toList], [], true⟩,
    ?_, ?_⟩ <;> decide +kernel

open Demo in
/-- C75 is false: the part of a port name up to a colon is removed on registration, but the connections are made with
the whole name: the ports are never connected. -/
theorem names_with_colon_are_not_connected :
    ∃ cfg, construct 1 0 2 (some ⟨none, .val true, dir [ports "VISR:x" (ext none none "5")], none⟩) = .ok cfg ∧
      cfg.capNames = ["VISR:x0".toList] ∧ (Demo.go cfg [.start true Demo.acc]).2.1 = [⟨0, "x0".toList, true⟩] ∧
      (Demo.go cfg [.start true Demo.acc]).2.2.1 = [] := by
  refine ⟨⟨"VISR".toList, 2, ["VISR:x0".toList], [], ["system:capture_5".toList], [], true⟩, ?_, ?_, ?_, ?_⟩ <;>
    decide +kernel

/-- C75 is false: after a failed `start()` the client stays active, and `stop()` does not change that. -/
theorem failed_start_leaves_client_active :
    Demo.go Demo.cfg [.start true (fun d k => !(d = false ∧ k = 1)), .stop true, .block 2 Demo.buf] =
      ([.throws .runtimeError, .done, .ret 0 none], [], [], true) := by decide +kernel

/-- C75 is false: a C string thrown by the function is not caught. -/
theorem c_string_escapes :
    (Demo.go Demo.cfg [.register 2 0, .start true Demo.acc, .block 2 Demo.buf]).1 =
      [.bool true, .done, .escapes .cString] := by decide +kernel

/-- C75 is false: without a registered function nothing is written to the playback buffers, whose contents are then
arbitrary. -/
theorem output_without_function_is_not_silence :
    (Demo.go Demo.cfg [.start true Demo.acc, .block 2 Demo.buf]).1 = [.done, .ret 0 none] := by decide +kernel

end Visr.Jack
