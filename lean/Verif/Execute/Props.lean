import Verif.Execute.Lemmas
import Mathlib.Algebra.BigOperators.Group.List.Basic

/-!
# C27, C28, C29: execution of a signal flow

The theorems `run_iff_solution`, `solution_unique`, `run_audio_equations` and `schedule_independent` about the execution of
schedules are in `Verif.Execute.Lemmas`.
-/

namespace Visr.Execute
open Visr Visr.Schedule

variable {V S : Type*} {A : Nat → Atom V S}

section
variable {env : Layout.Env} {conns : List Layout.Conn} {l : Layout.Result} {own : Layout.PortRef → Owner}
  {atoms : List Nat} {c : Conns}

theorem ins_written (hE : ExtConnected env conns own ins outs) {p i : Nat} (hp : p ∈ ins) (hi : i < env.width p) :
    Layout.Written env conns l (.orig p, i) := by
  obtain ⟨κ, hκ, rfl⟩ := hE.ins p hp (by omega)
  exact Or.inl ⟨κ, hκ, rfl, hi⟩

theorem recv_addr (hC : Layout.Correct env conns l) {κ : Layout.Conn} (hκ : κ ∈ conns) :
    (∃ x, l.addr (.orig κ.1.1, κ.1.2) = some x) ∧ ∃ y, l.addr (.orig κ.2.1, κ.2.2) = some y := by
  rcases hC.received κ hκ with ⟨⟨a, h1, h2⟩, _⟩ | ⟨ρ, hρ, hr, j, hj, _, ⟨u, h1, h2⟩, ⟨w, h3, h4⟩, h5, h6⟩
  · exact ⟨⟨a, h1⟩, ⟨a, h2⟩⟩
  · exact ⟨⟨u, h1⟩, ⟨w, h4⟩⟩

/-- The cells of the external inputs. -/
theorem capture_cells (henv : Layout.EnvOK env) (hper : 0 < env.period) (hC : Layout.Correct env conns l)
    (hE : ExtConnected env conns own ins outs) (name : Nat → String) :
    ∃ xs : List Nat, channelList (ins.map (extPort env l name)) = xs.map some ∧ xs.Nodup ∧
      (∀ x ∈ xs, ∃ c ∈ pairs env ins, l.addr (.orig c.1, c.2) = some x) ∧
      ∀ p i ch x, number env ins p i = some ch → l.addr (.orig p, i) = some x → xs[ch]? = some x := by
  obtain ⟨xs, hxs⟩ := exists_values (fun c : Nat × Nat => l.addr (.orig c.1, c.2)) (pairs env ins) (by
    intro c hc
    rw [mem_pairs] at hc
    obtain ⟨a, ha, _⟩ := hC.inPool _ (ins_written hE hc.1 hc.2)
    exact ⟨a, ha⟩)
  refine ⟨xs, by rw [channelList_pairs]; exact hxs, ?_, ?_, ?_⟩
  · have hnd : (xs.map some).Nodup := by
      rw [← hxs]
      refine List.Nodup.map_on ?_ (pairs_nodup hE.insNodup)
      intro c hc c' hc' he
      rw [mem_pairs] at hc hc'
      obtain ⟨a, ha, _⟩ := hC.inPool _ (ins_written hE hc.1 hc.2)
      have := written_unique henv hper hC (ins_written hE hc.1 hc.2) (ins_written hE hc'.1 hc'.2) ha (by rw [← he]; exact ha)
      simp only [Prod.mk.injEq, Layout.PortRef.orig.injEq] at this
      exact Prod.ext this.1 this.2
    exact hnd.of_map _
  · intro x hx
    have : some x ∈ xs.map some := List.mem_map.2 ⟨x, hx, rfl⟩
    rw [← hxs, List.mem_map] at this
    exact this
  · intro p i ch x hn hx
    have h1 := number_pairs hn
    have h2 : (xs.map some)[ch]? = some (some x) := by
      rw [← hxs, List.getElem?_map, h1]
      simp [hx]
    rw [List.getElem?_map] at h2
    obtain ⟨z, hz, hz'⟩ := Option.map_eq_some_iff.1 h2
    rw [hz]
    exact hz'

/-- The cells of the external outputs. -/
theorem playback_cells (hC : Layout.Correct env conns l) (hE : ExtConnected env conns own ins outs) (name : Nat → String) :
    ∃ ys : List Nat, channelList (outs.map (extPort env l name)) = ys.map some ∧ ys.length = (pairs env outs).length ∧
      ∀ p i ch x, number env outs p i = some ch → l.addr (.orig p, i) = some x → ys[ch]? = some x := by
  obtain ⟨xs, hxs⟩ := exists_values (fun c : Nat × Nat => l.addr (.orig c.1, c.2)) (pairs env outs) (by
    intro c hc
    rw [mem_pairs] at hc
    obtain ⟨κ, hκ, he⟩ := hE.outs _ hc.1 _ hc.2
    obtain ⟨y, hy⟩ := (recv_addr hC hκ).2
    rw [he] at hy
    exact ⟨y, hy⟩)
  refine ⟨xs, by rw [channelList_pairs]; exact hxs, ?_, ?_⟩
  · have := congrArg List.length hxs
    simpa using this.symm
  · intro p i ch x hn hx
    have h1 := number_pairs hn
    have h2 : (xs.map some)[ch]? = some (some x) := by
      rw [← hxs, List.getElem?_map, h1]
      simp [hx]
    rw [List.getElem?_map] at h2
    obtain ⟨z, hz, hz'⟩ := Option.map_eq_some_iff.1 h2
    rw [hz]
    exact hz'

/-- **C27.** For a flow with correctly assigned buffers (C26) and an admissible schedule (C24), a call of `process()` either
reports the failure of a component, or computes the flow's function: external inputs carry the user's samples, the outputs
and the new state of every component result from its inputs of the same block, every input carries the signal of the output
connected to it, and the user receives the signals connected to the external outputs. -/
theorem process_correct {F : Type*} {n : Nat} (k : Codec F V n) {ins outs : List Nat} (henv : Layout.EnvOK env)
    (hper : 0 < env.period) (hwf : Layout.WellFormed env conns) (hC : Layout.Correct env conns l)
    (hW : Wired env conns l own A atoms c) (hE : ExtConnected env conns own ins outs) {sched : List Nat}
    (hadm : Admissible atoms c sched) (name : Nat → String) (exn : Exn) (q : Call F)
    (hd : q.vout.Disjoint (channelList (outs.map (extPort env l name))).length n) (m : Machine V S) :
    let r := process k A sched (channelList (ins.map (extPort env l name))) (channelList (outs.map (extPort env l name))) exn q m
    r.2 = .throw exn ∨ ∃ out, r.2 = .ok out ∧ BlockDone k env conns l own A atoms ins outs q m.state r.1.state out := by
  intro r
  obtain ⟨xs, hcap, hxnd, hxmem, hxnum⟩ := capture_cells (name := name) henv hper hC hE
  obtain ⟨ys, hplay, hylen, hynum⟩ := playback_cells (name := name) hC hE
  obtain ⟨mem, hmem, hmem1, hmem2⟩ := capture_ok k q.vin q.user xs 0 m.state.mem hxnd
  have hr : r = match executeComponents A sched ⟨⟨mem, m.state.st⟩, m.blocks⟩ with
      | (m', true) => (m', playback k q.vout m'.state.mem 0 (ys.map some) q.out)
      | (m', false) => (m', .throw exn) := by
    show process _ _ _ _ _ _ _ _ = _
    unfold process
    rw [hcap, hplay, hmem]
    rfl
  rw [executeComponents] at hr
  generalize hrun : run A sched ⟨mem, m.state.st⟩ = z at hr
  obtain ⟨s', b⟩ := z
  cases b with
  | false => left; rw [hr]
  | true =>
    right
    have hAW := hW.audioWired henv hper hwf hC
    -- external input cells are not written by components
    have hext : ∀ x ∈ xs, ∀ a ∈ atoms, x ∉ (A a).writes := by
      intro x hx a ha hxa
      obtain ⟨c', hc', hcx⟩ := hxmem x hx
      rw [mem_pairs] at hc'
      have hw := ins_written (l := l) hE hc'.1 hc'.2
      obtain ⟨ch, h1, h2, h3⟩ := hW.writes a ha x hxa (written_lt henv hper hC hw hcx)
      obtain rfl := written_unique henv hper hC h1 hw h3 hcx
      have := hE.own _ hc'.1
      rw [h2] at this
      cases this
    have hframe := run_frame (A := A) sched ⟨mem, m.state.st⟩
    rw [hrun] at hframe
    have hdis : ∀ j < ys.length, ∀ j' < ys.length, ∀ i < n, ∀ i' < n,
        q.vout.base (0 + j) + i * q.vout.stride = q.vout.base (0 + j') + i' * q.vout.stride → j = j' ∧ i = i' := by
      intro j hj j' hj' i hi i' hi' he
      rw [hplay, List.length_map] at hd
      exact hd j hj j' hj' i hi i' hi' (by simpa using he)
    obtain ⟨u, hu, hu1, hu2⟩ := playback_ok k q.vout s'.mem ys 0 q.out hdis
    have hr2 : r = (⟨s', m.blocks + 1⟩, .ok u) := by
      rw [hr]
      simp only []
      rw [hu]
    refine ⟨u, by rw [hr2], ?_⟩
    rw [hr2]
    constructor
    · intro p i ch x hn hx
      have hxs := hxnum p i ch x hn hx
      have hxm : x ∈ xs := List.mem_of_getElem? hxs
      show k.dec (s'.mem x) = _
      rw [hframe.1 x (fun a ha => hext x hxm a (hadm.perm.mem_iff.1 ha))]
      have := hmem2 ch x hxs
      rw [Nat.zero_add] at this
      exact this
    · intro a ha
      obtain ⟨inputs, e1, e2, e3, e4⟩ := run_audio_equations hadm hAW hrun a ha
      refine ⟨inputs, ?_, ?_, e2, e3, e4⟩
      · intro κ hκ hown x y hx hy
        have hfin := received_final henv hper hwf hC hW hadm hrun hκ hx hy
        show inputs y = s'.mem x
        rw [← hfin]
        -- the cell read by the component
        obtain ⟨d, hd1, hd2, hd3⟩ : ∃ d ∈ l.conns, d.2 = (.orig κ.2.1, κ.2.2) ∧ True := by
          rcases hC.received κ hκ with ⟨_, h⟩ | ⟨ρ, _, hr, j, _, _, _, _, _, h6⟩
          · exact ⟨_, h, rfl, trivial⟩
          · exact ⟨_, h6, rfl, trivial⟩
        obtain ⟨w1, z, w2, w3⟩ := conn_addr hwf hC hd1
        rw [hd2, hy] at w3
        obtain rfl := Option.some.inj w3
        rw [e1 y (written_lt henv hper hC w1 w2), if_neg]
        intro hyw
        obtain ⟨ch, h1, h2, h3⟩ := hW.writes a ha y hyw (written_lt henv hper hC w1 w2)
        obtain rfl := written_unique henv hper hC h1 w1 h3 w2
        have hfeeds : Feeds c a a := by
          refine Or.inl ⟨(own d.1.1, own d.2.1), ?_, h2, ?_⟩
          · rw [hW.audio]; exact List.mem_map.2 ⟨d, hd1, rfl⟩
          · rw [hd2]; show (own _).addr = a; rw [hown]
        exact not_before_self hadm.nodup (hadm.order a a hfeeds ha)
      · intro x hx hlt
        show inputs x = m.state.mem x
        rw [e1 x hlt, if_pos hx]
        refine hmem1 x ?_
        intro hxs
        exact hext x hxs a ha hx
    · intro κ hκ ch x hn hx i
      obtain ⟨y, hy⟩ := (recv_addr hC hκ).2
      have := hu2 ch y (hynum _ _ ch y hn hy) i
      rw [Nat.zero_add] at this
      show u _ = k.dec (s'.mem x) i
      rw [this, received_final henv hper hwf hC hW hadm hrun hκ hx hy]

/-- **C27.** A call has the same effect with every admissible schedule, or it fails with every admissible schedule. -/
theorem process_schedule_independent {F : Type*} {n : Nat} (k : Codec F V n) (henv : Layout.EnvOK env)
    (hper : 0 < env.period) (hwf : Layout.WellFormed env conns) (hC : Layout.Correct env conns l)
    (hW : Wired env conns l own A atoms c) {sched sched' : List Nat} (hadm : Admissible atoms c sched)
    (hadm' : Admissible atoms c sched') (cap play : List (Option Nat)) (exn : Exn) (q : Call F) (m : Machine V S) :
    let r := process k A sched cap play exn q m
    let r' := process k A sched' cap play exn q m
    r = r' ∨ (r.2 = .throw exn ∧ r'.2 = .throw exn) := by
  have hO := hW.ordered henv hper hwf hC
  intro r r'
  simp only [r, r', process]
  rcases capture k q.vin q.user 0 cap m.state.mem with mem | e | _
  · simp only [executeComponents]
    have hiff := fun s' => schedule_independent hadm hadm' hO ⟨mem, m.state.st⟩ s'
    generalize run A sched ⟨mem, m.state.st⟩ = z at hiff ⊢
    generalize run A sched' ⟨mem, m.state.st⟩ = z' at hiff ⊢
    obtain ⟨s, b⟩ := z
    obtain ⟨s', b'⟩ := z'
    cases b with
    | true =>
      have := (hiff s).1 rfl
      rw [this]
      exact Or.inl rfl
    | false =>
      cases b' with
      | true => have := (hiff s').2 rfl; cases this
      | false => exact Or.inr ⟨rfl, rfl⟩
  · exact Or.inl rfl
  · exact Or.inl rfl

end

/-! ## C28: numbers of external channels -/

/-- **C28.** The channel `i` of the port `idx` has the number `portOffset idx + i`; this is the sum of the widths of the
preceding ports plus `i`, and the channel with this number is that of the port. -/
theorem channel_number {ports : List ExtPort} {idx i : Nat} {p : ExtPort} (hp : ports[idx]? = some p) (hi : i < p.width) :
    portOffset ports idx = .ok ((ports.take idx).map ExtPort.width).sum ∧
    (channelList ports)[((ports.take idx).map ExtPort.width).sum + i]? = some (p.base.map fun b => b + i * p.stride) := by
  have hidx := (List.getElem?_eq_some_iff.1 hp).1
  refine ⟨?_, ?_⟩
  · rw [portOffset, if_neg (by omega)]
    congr 1
    have : ∀ (l : List ExtPort) (a : Nat), l.foldl (fun acc p => acc + p.width) a = a + (l.map ExtPort.width).sum := by
      intro l
      induction l with
      | nil => intro a; simp
      | cons x l ih => intro a; rw [List.foldl_cons, ih]; simp [Nat.add_assoc]
    rw [this, Nat.zero_add]
  · induction ports generalizing idx with
    | nil => simp at hp
    | cons x ports ih =>
      cases idx with
      | zero =>
        simp only [List.getElem?_cons_zero, Option.some.injEq] at hp
        subst hp
        rw [channelList, List.getElem?_append_left (by simpa using hi)]
        simp [hi]
      | succ idx =>
        rw [List.getElem?_cons_succ] at hp
        have := ih hp (by simpa using hidx)
        rw [channelList, List.take_succ_cons, List.map_cons, List.sum_cons, Nat.add_assoc,
          List.getElem?_append_right (by simp)]
        simpa using this

/-- **C28.** Conversely every channel number belongs to exactly one channel of one port. -/
theorem channel_of_number {ports : List ExtPort} {ch : Nat} (h : ch < (channelList ports).length) :
    ∃! d : Nat × Nat, ∃ p, ports[d.1]? = some p ∧ d.2 < p.width ∧ ((ports.take d.1).map ExtPort.width).sum + d.2 = ch := by
  induction ports generalizing ch with
  | nil => simp [channelList] at h
  | cons x ports ih =>
    rw [channelList, List.length_append, List.length_map, List.length_range] at h
    by_cases hx : ch < x.width
    · refine ⟨(0, ch), ⟨x, rfl, hx, by simp⟩, ?_⟩
      rintro ⟨idx, i⟩ ⟨p, h1, h2, h3⟩
      cases idx with
      | zero => simp at h3; simp [h3]
      | succ idx => simp at h3; omega
    · obtain ⟨⟨idx, i⟩, ⟨p, h1, h2, h3⟩, hu⟩ := ih (ch := ch - x.width) (by omega)
      simp only [] at h1 h2 h3
      refine ⟨(idx + 1, i), ⟨p, by simpa using h1, h2, ?_⟩, ?_⟩
      · simp only [List.take_succ_cons, List.map_cons, List.sum_cons]
        omega
      · rintro ⟨idx', i'⟩ ⟨p', h1', h2', h3'⟩
        cases idx' with
        | zero =>
          simp only [List.getElem?_cons_zero, Option.some.injEq] at h1'
          subst h1'
          simp at h3'
          simp only [] at h2'
          omega
        | succ idx' =>
          simp only [List.take_succ_cons, List.map_cons, List.sum_cons] at h3'
          have := hu (idx', i') ⟨p', by simpa using h1', h2', by simp only []; omega⟩
          simp only [Prod.mk.injEq] at this
          simp [this.1, this.2]

/-- **C28.** The number of channels is the sum of the port widths. -/
theorem channel_count (ports : List ExtPort) : (channelList ports).length = (ports.map ExtPort.width).sum := by
  induction ports with
  | nil => rfl
  | cons x ports ih => simp [channelList, ih]

/-- **C28.** Queries for ports that do not exist throw `out_of_range`. -/
theorem port_queries_out_of_range (ports : List ExtPort) (idx : Nat) (h : ports.length ≤ idx) :
    portWidth ports idx = .throw .outOfRange ∧ portOffset ports idx = .throw .outOfRange ∧
      portName ports idx = .throw .outOfRange := by
  simp [portWidth, portOffset, portName, h]

/-- **C28.** Looking up a name returns the first port with that name, and throws iff there is none. -/
theorem port_index (ports : List ExtPort) (name : String) :
    (∃ idx p, portIndex ports name = .ok idx ∧ ports[idx]? = some p ∧ p.name = name ∧
      ∀ j p', j < idx → ports[j]? = some p' → p'.name ≠ name) ∨
    (portIndex ports name = .throw .outOfRange ∧ ∀ p ∈ ports, p.name ≠ name) := by
  unfold portIndex
  cases h : ports.findIdx? (fun p => p.name = name) with
  | none =>
    right
    refine ⟨rfl, ?_⟩
    rw [List.findIdx?_eq_none_iff] at h
    intro p hp
    simpa using h p hp
  | some i =>
    left
    rw [List.findIdx?_eq_some_iff_getElem] at h
    obtain ⟨hi, h1, h2⟩ := h
    refine ⟨i, ports[i], rfl, List.getElem?_eq_getElem hi, by simpa using h1, ?_⟩
    intro j p' hj hp'
    obtain ⟨hj', rfl⟩ := List.getElem?_eq_some_iff.1 hp'
    simpa using h2 j hj

/-- **C28.** Name and index are inverse to each other for ports with different names (C30). -/
theorem port_index_name {ports : List ExtPort} (hn : (ports.map ExtPort.name).Nodup) {idx : Nat} {name : String} :
    portName ports idx = .ok name ↔ portIndex ports name = .ok idx := by
  rcases port_index ports name with ⟨i, p, h1, h2, h3, _⟩ | ⟨h1, h2⟩
  · rw [h1]
    unfold portName
    constructor
    · intro h
      cases hidx : ports[idx]? with
      | none => rw [hidx] at h; cases h
      | some p' =>
        rw [hidx] at h
        simp only [Outcome.ok.injEq] at h ⊢
        have e1 : (ports.map ExtPort.name)[i]? = some name := by rw [List.getElem?_map, h2]; simp [h3]
        have e2 : (ports.map ExtPort.name)[idx]? = some name := by rw [List.getElem?_map, hidx]; simp [h]
        have hi := (List.getElem?_eq_some_iff.1 e1).1
        exact (List.getElem?_inj hi hn).1 (e1.trans e2.symm)
    · intro h
      simp only [Outcome.ok.injEq] at h
      subst h
      rw [h2]
      simp [h3]
  · rw [h1]
    constructor
    · intro h
      unfold portName at h
      cases hidx : ports[idx]? with
      | none => rw [hidx] at h; cases h
      | some p' =>
        rw [hidx] at h
        simp only [Outcome.ok.injEq] at h
        exact absurd h (h2 p' (List.mem_of_getElem? hidx))
    · intro h; cases h

/-! ## C29: time -/

theorem capture_isOk {F : Type*} {n : Nat} (k : Codec F V n) (v : View) (user : Nat → F) :
    ∀ (xs : List Nat) (ch : Nat) (m : Nat → V), ∃ m', capture k v user ch (xs.map some) m = .ok m' := by
  intro xs
  induction xs with
  | nil => intro ch m; exact ⟨m, rfl⟩
  | cons x xs ih =>
    intro ch m
    obtain ⟨m', h⟩ := ih (ch + 1) (fun y => if y = x then k.enc (v.block n user ch) else m y)
    exact ⟨m', by simpa [capture] using h⟩

theorem playback_isOk {F : Type*} {n : Nat} (k : Codec F V n) (v : View) (m : Nat → V) :
    ∀ (xs : List Nat) (ch : Nat) (user : Nat → F), ∃ u, playback k v m ch (xs.map some) user = .ok u := by
  intro xs
  induction xs with
  | nil => intro ch m; exact ⟨m, rfl⟩
  | cons x xs ih =>
    intro ch user
    obtain ⟨u, h⟩ := ih (ch + 1) (store (v.base ch) v.stride (k.dec (m x)) user)
    exact ⟨u, by simpa [playback] using h⟩

/-- A call advances the block counter by one or fails and leaves it. -/
theorem process_blocks {F : Type*} {n : Nat} (k : Codec F V n) (sched : List Nat) (xs ys : List Nat)
    (exn : Exn) (q : Call F) (m : Machine V S) :
    let r := process k A sched (xs.map some) (ys.map some) exn q m
    (r.2.isOk = true ∧ r.1.blocks = m.blocks + 1) ∨ (r.2 = .throw exn ∧ r.1.blocks = m.blocks) := by
  intro r
  obtain ⟨mem, hmem⟩ := capture_isOk k q.vin q.user xs 0 m.state.mem
  simp only [r, process, hmem, executeComponents]
  generalize run A sched ⟨mem, m.state.st⟩ = z
  obtain ⟨s', b⟩ := z
  cases b with
  | false => right; exact ⟨rfl, rfl⟩
  | true =>
    left
    obtain ⟨u, hu⟩ := playback_isOk k q.vout s'.mem ys 0 q.out
    simp only [hu]
    exact ⟨rfl, trivial⟩

/-- **C29.** For every history of calls (and changes from outside in between) of a flow whose external ports have buffers,
starting with the construction of the flow: each call completes or fails with the documented exception, the block count is
the number of completed calls, and the sample count this number times the period. -/
theorem block_count {F : Type*} {n : Nat} (k : Codec F V n) (sched : List Nat) (xs ys : List Nat) (exn : Exn)
    (ops : List (Op F V S)) (s : State V S) :
    let h := history k A sched (xs.map some) (ys.map some) exn ops (Machine.start s)
    (∀ r ∈ h.2, r.isOk = true ∨ r = .throw exn) ∧
    h.2.length = (ops.filter fun o => match o with | .call _ => true | .external _ => false).length ∧
    h.1.blockCount = h.2.countP Outcome.isOk ∧ h.1.sampleCount n = h.2.countP Outcome.isOk * n := by
  have main : ∀ (ops : List (Op F V S)) (m : Machine V S),
      let h := history k A sched (xs.map some) (ys.map some) exn ops m
      (∀ r ∈ h.2, r.isOk = true ∨ r = .throw exn) ∧
      h.2.length = (ops.filter fun o => match o with | .call _ => true | .external _ => false).length ∧
      h.1.blocks = m.blocks + h.2.countP Outcome.isOk := by
    intro ops
    induction ops with
    | nil => intro m; simp [history]
    | cons o ops ih =>
      intro m
      cases o with
      | external f =>
        simp only [history, List.filter_cons, Bool.false_eq_true, if_false]
        exact ih _
      | call q =>
        simp only [history, List.filter_cons, if_true, List.length_cons, List.mem_cons, List.countP_cons]
        have hb := process_blocks (A := A) k sched xs ys exn q m
        generalize process k A sched (xs.map some) (ys.map some) exn q m = r at hb ⊢
        obtain ⟨i1, i2, i3⟩ := ih r.1
        refine ⟨?_, by rw [i2], ?_⟩
        · rintro z (rfl | hz)
          · exact hb.imp (fun h => h.1) (fun h => h.1)
          · exact i1 z hz
        · rw [i3]
          rcases hb with ⟨h1, h2⟩ | ⟨h1, h2⟩
          · rw [h1, h2]; simp only [if_true]; omega
          · rw [h1, h2]; simp [Outcome.isOk]
  obtain ⟨h1, h2, h3⟩ := main ops (Machine.start s)
  refine ⟨h1, h2, ?_, ?_⟩
  · rw [Machine.blockCount, h3]; simp [Machine.start]
  · rw [Machine.sampleCount, h3]; simp [Machine.start]

/-! ## Examples -/

/-- Period 2, one sample type with 4 bytes. The flow has the stereo input port 1 and the stereo output port 5; component 10
has the mono ports 3 (input) and 4 (output). -/
def exEnv : Layout.Env where
  width := fun p => if p = 1 ∨ p = 5 then 2 else 1
  stype := fun _ => 0
  size := fun _ => 4
  period := 2
  align := 64
  routable := fun _ => true
  order := List.reverse

/-- The component receives the second input channel. The output consists of the component's signal and the first input
channel, which requires a copy component. -/
def exConns : List Layout.Conn := [((1, 1), (3, 0)), ((4, 0), (5, 0)), ((1, 0), (5, 1))]

/-- Result of buffer assignment. -/
def exL : Layout.Result := match Layout.initialise exEnv exConns with
  | .ok l => l
  | _ => ⟨[], 0, [], []⟩

/-- Owners: 0 is the flow, 11 the copy component. -/
def exOwn : Layout.PortRef → Owner
  | .orig p => if p = 3 ∨ p = 4 then ⟨10, false⟩ else ⟨0, true⟩
  | .routeIn r => if r = 5 then ⟨11, false⟩ else ⟨0, true⟩
  | .routeOut r => if r = 5 then ⟨11, false⟩ else ⟨0, true⟩

/-- Component 10 doubles its input and counts its calls, it fails in the fourth call; component 11 copies. -/
def exA : Nat → Atom (Fin 2 → Int) Nat := fun a =>
  if a = 10 then
    ⟨[64], [128], fun st m => (st + 1, fun _ i => 2 * m 64 i, st < 3), by
      intro st m m' h; simp [h 64 (by simp)]⟩
  else
    ⟨[128, 0], [192, 256], fun st m => (st, fun x => if x = 192 then m 128 else m 0, true), by
      intro st m m' h; simp [h 128 (by simp), h 0 (by simp)]⟩

def exC : Conns := ⟨exL.conns.map fun d => (exOwn d.1.1, exOwn d.2.1), []⟩

theorem exWF : Layout.WellFormed exEnv exConns := ⟨by decide, by decide, by decide, by decide, by decide⟩
theorem exEnvOK : Layout.EnvOK exEnv := ⟨fun l => List.reverse_perm l, by decide, fun t => by simp [exEnv]⟩
theorem exCorrect : Layout.Correct exEnv exConns exL := by
  rcases Layout.buffers_assigned exEnvOK exWF with ⟨l, h1, h2⟩ | ⟨h, _⟩
  · have : exL = l := by unfold exL; rw [h1]
    rw [this]; exact h2
  · have : (Layout.initialise exEnv exConns).isOk = true := by decide
    rw [h] at this; cases this

theorem exConnsL : exL.conns = [((.orig 1, 0), (.routeIn 5, 0)), ((.orig 4, 0), (.routeIn 5, 2)),
    ((.routeOut 5, 0), (.orig 5, 0)), ((.routeOut 5, 1), (.orig 5, 1)), ((.orig 1, 1), (.orig 3, 0))] := by decide

theorem exFeeds {a b : Nat} : Feeds exC a b ↔ (a = 10 ∧ b = 11) ∨ (a = 11 ∧ b = 0) := by
  simp [Feeds, exC, exConnsL, exOwn]
  omega

theorem exAdmissible : Admissible [10, 11] exC [10, 11] := by
  refine ⟨List.Perm.refl _, by decide, ?_⟩
  intro a b h hb
  rcases exFeeds.1 h with ⟨rfl, rfl⟩ | ⟨rfl, rfl⟩
  · exact ⟨[], [], [], rfl⟩
  · simp at hb

theorem exAddr : exL.addr (.orig 4, 0) = some 128 ∧ exL.addr (.orig 3, 0) = some 64 ∧
    exL.addr (.routeIn 5, 0) = some 0 ∧ exL.addr (.routeIn 5, 2) = some 128 ∧
    exL.addr (.routeOut 5, 0) = some 192 ∧ exL.addr (.routeOut 5, 1) = some 256 ∧ exL.pool = 320 := by decide

theorem exRoutings : exL.routings = [⟨5, 3, [2, 0], 0⟩] := rfl

/-- The example satisfies the hypotheses of `process_correct`. -/
theorem exWired : Wired exEnv exConns exL exOwn exA [10, 11] exC := by
  obtain ⟨a1, a2, a3, a4, a5, a6, a7⟩ := exAddr
  constructor
  · rfl
  · intro a ha x hx _
    simp only [List.mem_cons, List.not_mem_nil, or_false] at ha
    rcases ha with rfl | rfl
    · simp [exA] at hx
      subst hx
      exact ⟨(.orig 4, 0), Or.inl ⟨((4, 0), (5, 0)), by simp [exConns], rfl, by decide⟩, rfl, a1⟩
    · simp [exA] at hx
      rcases hx with rfl | rfl
      · exact ⟨(.routeOut 5, 0), Or.inr ⟨_, by rw [exRoutings]; exact List.mem_singleton.2 rfl, rfl, by decide⟩, rfl, a5⟩
      · exact ⟨(.routeOut 5, 1), Or.inr ⟨_, by rw [exRoutings]; exact List.mem_singleton.2 rfl, rfl, by decide⟩, rfl, a6⟩
  · intro a ha x hx _
    simp only [List.mem_cons, List.not_mem_nil, or_false] at ha
    rcases ha with rfl | rfl
    · simp [exA] at hx
      subst hx
      exact Or.inr ⟨((.orig 1, 1), (.orig 3, 0)), by rw [exConnsL]; simp, rfl, a2⟩
    · simp [exA] at hx
      rcases hx with rfl | rfl
      · exact Or.inr ⟨((.orig 4, 0), (.routeIn 5, 2)), by rw [exConnsL]; simp, rfl, a4⟩
      · exact Or.inr ⟨((.orig 1, 0), (.routeIn 5, 0)), by rw [exConnsL]; simp, rfl, a3⟩
  · intro a ha b hb hne x hx hle
    rw [a7] at hle
    simp only [List.mem_cons, List.not_mem_nil, or_false] at ha
    rcases ha with rfl | rfl
    · simp [exA] at hx; omega
    · simp [exA] at hx; omega
  · intro ρ hρ
    rw [exRoutings, List.mem_singleton] at hρ
    subst hρ
    refine ⟨11, by simp, rfl, rfl, ?_, ?_⟩
    · intro p hp
      cases p with
      | orig p =>
        simp only [exOwn] at hp
        split at hp <;> cases hp
      | routeIn r =>
        simp only [exOwn] at hp
        split at hp
        · next h => subst h; exact Or.inl rfl
        · cases hp
      | routeOut r =>
        simp only [exOwn] at hp
        split at hp
        · next h => subst h; exact Or.inr rfl
        · cases hp
    · intro i j x y hi hx hy
      match i, hi with
      | 0, hi =>
        simp at hi
        subst hi
        simp only [] at hx hy
        rw [a4] at hx; rw [a5] at hy
        cases hx; cases hy
        simp [exA]
      | 1, hi =>
        simp at hi
        subst hi
        simp only [] at hx hy
        rw [a3] at hx; rw [a6] at hy
        cases hx; cases hy
        simp [exA]
      | i + 2, hi => simp at hi

theorem exExt : ExtConnected exEnv exConns exOwn [1] [5] := by
  refine ⟨?_, ?_, ?_, by simp, by simp⟩
  · intro p hp _
    simp at hp
    subst hp
    exact ⟨((1, 1), (3, 0)), by simp [exConns], rfl⟩
  · intro p hp i hi
    simp at hp
    subst hp
    have : i < 2 := by simpa [exEnv] using hi
    rcases Nat.lt_or_ge i 1 with h | h
    · have : i = 0 := by omega
      subst this
      exact ⟨((4, 0), (5, 0)), by simp [exConns], rfl⟩
    · have : i = 1 := by omega
      subst this
      exact ⟨((1, 0), (5, 1)), by simp [exConns], rfl⟩
  · intro p hp
    simp at hp
    subst hp
    rfl

/-- Blocks of two samples. -/
def exCodec : Codec Int (Fin 2 → Int) 2 := ⟨id, id, fun _ => rfl⟩

/-- Input channels at positions 0 and 10 of the memory, interleaved output. -/
def exCall : Call Int := ⟨⟨fun ch => 10 * ch, 1⟩, ⟨fun ch => ch, 2⟩, fun x => x + 1, fun _ => 0⟩

example : exCall.vout.Disjoint 2 2 := by
  intro ch h ch' h' i hi i' hi' he
  simp only [exCall] at he
  omega

/-- Input channel 0 is (1, 2), channel 1 is (11, 12). The output has the doubled channel 1 and channel 0, interleaved. -/
example : ∀ st : Nat, st < 3 →
    let r := process exCodec exA [10, 11] (channelList ([1].map (extPort exEnv exL fun _ => "in")))
      (channelList ([5].map (extPort exEnv exL fun _ => "out"))) .runtimeError exCall ⟨⟨fun _ _ => 0, fun _ => st⟩, 7⟩
    r.1.blockCount = 8 ∧ ∃ out, r.2 = .ok out ∧ [out 0, out 1, out 2, out 3, out 4] = [22, 1, 24, 2, 0] := by
  intro st hst
  have : st = 0 ∨ st = 1 ∨ st = 2 := by omega
  rcases this with rfl | rfl | rfl <;> exact ⟨rfl, _, rfl, rfl⟩

/-- Three calls are completed, the fourth and fifth fail. -/
example :
    let h := history exCodec exA [10, 11] (channelList ([1].map (extPort exEnv exL fun _ => "in")))
      (channelList ([5].map (extPort exEnv exL fun _ => "out"))) .runtimeError (List.replicate 5 (.call exCall))
      (Machine.start ⟨fun _ _ => 0, fun _ => 0⟩)
    h.1.blockCount = 3 ∧ h.2.map Outcome.isOk = [true, true, true, false, false] := ⟨rfl, rfl⟩

example : channelList [⟨"a", some 0, 2, 64⟩, ⟨"b", none, 0, 0⟩, ⟨"c", some 256, 1, 64⟩] = [some 0, some 64, some 256] := rfl

end Visr.Execute
