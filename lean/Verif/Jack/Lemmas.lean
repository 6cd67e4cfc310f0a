import Verif.Jack.Names
import Mathlib.Data.List.Nodup

/-! # Ports and connections of the server -/

namespace Visr.Jack
open Visr

/-- The ports are distinct and each connection belongs to one of them. -/
structure SrvOk (client : Name) (srv : Server) : Prop where
  handles : (srv.ports.map (·.handle)).Nodup
  fresh : ∀ p ∈ srv.ports, p.handle < srv.next
  names : (srv.ports.map (·.name)).Nodup
  touch : ∀ c ∈ srv.conns, ∃ p ∈ srv.ports, c.1 = fullName client p.name ∨ c.2 = fullName client p.name

/-- Two servers differ only in ports and connections. -/
def Same (a b : Server) : Prop :=
  a.next = b.next ∧ a.active = b.active ∧ a.sources = b.sources ∧ a.sinks = b.sinks

theorem Same.refl (a : Server) : Same a a := ⟨rfl, rfl, rfl, rfl⟩
theorem Same.trans {a b c : Server} (h : Same a b) (k : Same b c) : Same a c :=
  ⟨h.1.trans k.1, h.2.1.trans k.2.1, h.2.2.1.trans k.2.2.1, h.2.2.2.trans k.2.2.2⟩

theorem disconnect_ports (client : Name) (srv : Server) (h : Option Nat) :
    (disconnect client srv h).ports = srv.ports ∧ Same (disconnect client srv h) srv ∧
      ∀ c ∈ (disconnect client srv h).conns, c ∈ srv.conns := by
  unfold disconnect
  split
  · exact ⟨rfl, Same.refl _, fun c h => h⟩
  · exact ⟨rfl, ⟨rfl, rfl, rfl, rfl⟩, fun c h => (List.mem_filter.1 h).1⟩

theorem disconnect_ok {client : Name} {srv : Server} (ok : SrvOk client srv) (h : Option Nat) :
    SrvOk client (disconnect client srv h) := by
  obtain ⟨h1, h2, h3⟩ := disconnect_ports client srv h
  refine ⟨by rw [h1]; exact ok.handles, ?_, by rw [h1]; exact ok.names, ?_⟩
  · rw [h1, h2.1]; exact ok.fresh
  · intro c hc; rw [h1]; exact ok.touch c (h3 c hc)

theorem disconnectAll_ok (client : Name) : ∀ (hs : List (Option Nat)) (srv : Server), SrvOk client srv →
    SrvOk client (hs.foldl (disconnect client) srv) ∧ (hs.foldl (disconnect client) srv).ports = srv.ports ∧
      Same (hs.foldl (disconnect client) srv) srv := by
  intro hs
  induction hs with
  | nil => intro srv ok; exact ⟨ok, rfl, Same.refl _⟩
  | cons h hs ih =>
    intro srv ok
    obtain ⟨a, b, c⟩ := ih (disconnect client srv h) (disconnect_ok ok h)
    obtain ⟨h1, h2, _⟩ := disconnect_ports client srv h
    exact ⟨a, b.trans h1, c.trans h2⟩

theorem unregister_ok {client : Name} {srv : Server} (ok : SrvOk client srv) (h : Option Nat) :
    SrvOk client (unregister client srv h) ∧
      (unregister client srv h).ports = srv.ports.filter (fun p => decide (some p.handle ≠ h)) ∧
      Same (unregister client srv h) srv := by
  obtain ⟨h1, h2, h3⟩ := disconnect_ports client srv h
  have hp : (unregister client srv h).ports = srv.ports.filter (fun p => decide (some p.handle ≠ h)) := by
    simp only [unregister, h1]
  have hc : (unregister client srv h).conns = (disconnect client srv h).conns := rfl
  refine ⟨⟨?_, ?_, ?_, ?_⟩, hp, h2⟩
  · rw [hp]; exact ok.handles.sublist (List.filter_sublist.map _)
  · rw [hp]
    intro p hpm
    have : (unregister client srv h).next = srv.next := h2.1
    rw [this]
    exact ok.fresh p (List.mem_filter.1 hpm).1
  · rw [hp]; exact ok.names.sublist (List.filter_sublist.map _)
  · intro c hcm
    rw [hc] at hcm
    obtain ⟨p, hpm, ht⟩ := ok.touch c (h3 c hcm)
    refine ⟨p, ?_, ht⟩
    rw [hp, List.mem_filter]
    refine ⟨hpm, ?_⟩
    simp only [ne_eq, decide_not, Bool.not_eq_eq_eq_not, Bool.not_true, decide_eq_false_iff_not]
    intro heq
    have hf : srv.ports.find? (fun q => decide (some q.handle = h)) = some p := by
      have huniq : ∀ q ∈ srv.ports, some q.handle = h → q = p := by
        intro q hq e
        have : q.handle = p.handle := by rw [← heq] at e; injection e
        exact List.inj_on_of_nodup_map ok.handles hq hpm this
      cases hfind : srv.ports.find? (fun q => decide (some q.handle = h)) with
      | none =>
        rw [List.find?_eq_none] at hfind
        exact absurd (by simpa using heq) (hfind p hpm)
      | some q =>
        have hq1 := List.mem_of_find?_eq_some hfind
        have hq2 := List.find?_some hfind
        rw [huniq q hq1 (by simpa using hq2)]
    rw [disconnect, hf] at hcm
    have := (List.mem_filter.1 hcm).2
    simp only [ne_eq, Bool.decide_and, decide_not, Bool.and_eq_true, Bool.not_eq_eq_eq_not, Bool.not_true,
      decide_eq_false_iff_not] at this
    rcases ht with e | e
    · exact this.1 e
    · exact this.2 e

theorem unregisterLoop_ok (client : Name) : ∀ (hs : List (Option Nat)) (srv : Server), SrvOk client srv →
    SrvOk client (unregisterLoop client srv hs) ∧ Same (unregisterLoop client srv hs) srv ∧
      (∀ p, p ∈ (unregisterLoop client srv hs).ports ↔ p ∈ srv.ports ∧ some p.handle ∉ hs) := by
  intro hs
  induction hs with
  | nil => intro srv ok; exact ⟨ok, Same.refl _, by simp [unregisterLoop]⟩
  | cons h hs ih =>
    intro srv ok
    cases h with
    | none =>
      obtain ⟨a, b, c⟩ := ih srv ok
      exact ⟨a, b, fun p => by rw [show unregisterLoop client srv (none :: hs) = unregisterLoop client srv hs from rfl, c p]; simp⟩
    | some k =>
      obtain ⟨u1, u2, u3⟩ := unregister_ok ok (some k)
      obtain ⟨a, b, c⟩ := ih _ u1
      refine ⟨a, b.trans u3, fun p => ?_⟩
      rw [show unregisterLoop client srv (some k :: hs) = unregisterLoop client (unregister client srv (some k)) hs from rfl,
        c p, u2]
      simp only [List.mem_filter, List.mem_cons, not_or, decide_eq_true_eq, ne_eq]
      tauto

/-- The ports added by one loop of the registration. -/
theorem registerLoop_spec (client : Name) (accept : Nat → Bool) (dir : Bool) : ∀ (names : List Name) (k : Nat)
    (srv : Server) (hs : List (Option Nat)), SrvOk client srv → k + names.length ≤ hs.length →
    ∃ new : List Port, SrvOk client (registerLoop accept dir names k srv hs).1 ∧
      (registerLoop accept dir names k srv hs).1 =
        { srv with ports := srv.ports ++ new, next := srv.next + new.length } ∧
      new.map (·.name) = (names.take new.length).map shortName ∧ (∀ p ∈ new, p.isInput = dir) ∧
      (registerLoop accept dir names k srv hs).2.1 =
        hs.take k ++ new.map (fun p => some p.handle) ++ hs.drop (k + new.length) ∧
      ((registerLoop accept dir names k srv hs).2.2 = true → new.length = names.length) ∧
      ((registerLoop accept dir names k srv hs).2.2 = true ↔
        (∀ i < names.length, accept (k + i) = true) ∧ (srv.ports.map (·.name) ++ names.map shortName).Nodup) := by
  intro names
  induction names with
  | nil =>
    intro k srv hs ok hk
    refine ⟨[], ok, by simp [registerLoop], by simp, by simp, by simp [registerLoop], by simp, ?_⟩
    simp [registerLoop, ok.names]
  | cons n names ih =>
    intro k srv hs ok hk
    simp only [List.length_cons] at hk
    by_cases hreg : accept k = true ∧ shortName n ∉ srv.ports.map (·.name)
    · have hr : register srv (accept k) (shortName n) dir =
          ({ srv with ports := srv.ports ++ [⟨srv.next, shortName n, dir⟩], next := srv.next + 1 }, some srv.next) := by
        rw [register, if_pos hreg]
      have hstep : registerLoop accept dir (n :: names) k srv hs = registerLoop accept dir names (k + 1)
          { srv with ports := srv.ports ++ [⟨srv.next, shortName n, dir⟩], next := srv.next + 1 }
          (hs.set k (some srv.next)) := by
        rw [registerLoop, hr]
      have ok' : SrvOk client { srv with ports := srv.ports ++ [⟨srv.next, shortName n, dir⟩], next := srv.next + 1 } := by
        refine ⟨?_, ?_, ?_, ?_⟩
        · simp only [List.map_append, List.map_cons, List.map_nil]
          refine List.Nodup.append ok.handles (by simp) ?_
          simp only [List.disjoint_singleton, List.mem_map, not_exists, not_and]
          intro p hp e
          have := ok.fresh p hp
          omega
        · intro p hp
          simp only [List.mem_append, List.mem_singleton] at hp
          rcases hp with hp | rfl
          · have := ok.fresh p hp; show p.handle < srv.next + 1; omega
          · show srv.next < srv.next + 1; omega
        · simp only [List.map_append, List.map_cons, List.map_nil]
          exact List.Nodup.append ok.names (by simp) (by simpa using hreg.2)
        · intro c hc
          obtain ⟨p, hp, ht⟩ := ok.touch c hc
          exact ⟨p, by simp [hp], ht⟩
      obtain ⟨new, q1, q2, q3, q4, q5, q6, q7⟩ := ih (k + 1) _ (hs.set k (some srv.next)) ok' (by simp; omega)
      rw [hstep]
      refine ⟨⟨srv.next, shortName n, dir⟩ :: new, q1, ?_, ?_, ?_, ?_, ?_, ?_⟩
      · rw [q2]; simp [Nat.add_comm, Nat.add_left_comm]
      · simp [q3]
      · simpa using q4
      · rw [q5]
        have hkl : k < hs.length := by omega
        have e1 : (hs.set k (some srv.next)).take (k + 1) = hs.take k ++ [some srv.next] := by
          rw [List.take_succ_eq_append_getElem (by simpa using hkl), List.take_set_of_le (by omega)]
          simp
        have e2 : (hs.set k (some srv.next)).drop (k + 1 + new.length) = hs.drop (k + (new.length + 1)) := by
          rw [List.drop_set_of_lt (by omega)]; congr 1; omega
        rw [e1, e2]
        simp
      · intro h; simp [q6 h]
      · rw [q7]
        constructor
        · rintro ⟨a, b⟩
          refine ⟨?_, by simpa using b⟩
          intro i hi
          cases i with
          | zero => simpa using hreg.1
          | succ i =>
            have := a i (by simpa using hi)
            rwa [show k + 1 + i = k + (i + 1) by omega] at this
        · rintro ⟨a, b⟩
          refine ⟨?_, by simpa using b⟩
          intro i hi
          have := a (i + 1) (by simpa using hi)
          rwa [show k + 1 + i = k + (i + 1) by omega]
    · have hr : register srv (accept k) (shortName n) dir = (srv, none) := by
        rw [register, if_neg hreg]
      have hstep : registerLoop accept dir (n :: names) k srv hs = (srv, hs, false) := by
        rw [registerLoop, hr]
      rw [hstep]
      refine ⟨[], ok, by simp, by simp, by simp, by simp, by simp, ?_⟩
      simp only [Bool.false_eq_true, false_iff]
      rintro ⟨a, b⟩
      apply hreg
      refine ⟨by simpa using a 0 (by simp), ?_⟩
      intro hm
      have := List.disjoint_of_nodup_append b hm (by simp)
      exact this

/-- The two ports of a connection exist. -/
def possible (client : Name) (srv : Server) (c : Name × Name) : Bool :=
  decide (c.1 ∈ srv.sources ++ (srv.ports.filter fun p => !p.isInput).map (fun p => fullName client p.name) ∧
    c.2 ∈ srv.sinks ++ (srv.ports.filter fun p => p.isInput).map (fun p => fullName client p.name))

theorem connect_fold (client : Name) : ∀ (w : List (Name × Name)) (srv : Server),
    w.foldl (connect client) srv = { srv with conns := srv.conns ++ w.filter (fun c => possible client srv c) } := by
  intro w
  induction w with
  | nil => intro srv; simp
  | cons c w ih =>
    intro srv
    rw [List.foldl_cons, ih, List.filter_cons]
    by_cases h : possible client srv c = true
    · rw [if_pos h]
      have : connect client srv c = { srv with conns := srv.conns ++ [c] } := by
        rw [connect, if_pos (of_decide_eq_true h)]
      rw [this]
      simp [possible]
    · rw [if_neg h]
      have : connect client srv c = srv := by
        rw [connect, if_neg (fun h' => h (decide_eq_true h'))]
      rw [this]

variable {F U σ : Type}

/-- All ports of the client are in the arrays of the interface. -/
theorem unregisterPorts_ok {cfg : Config} {s : State F U σ} (ok : SrvOk cfg.clientName s.srv)
    (h : ∀ p ∈ s.srv.ports, some p.handle ∈ s.capPorts ++ s.playPorts) :
    (unregisterPorts cfg s).srv = { s.srv with ports := [], conns := [] } := by
  obtain ⟨a1, a2, a3⟩ := unregisterLoop_ok cfg.clientName s.capPorts s.srv ok
  obtain ⟨b1, b2, b3⟩ := unregisterLoop_ok cfg.clientName s.playPorts _ a1
  have hp : (unregisterLoop cfg.clientName (unregisterLoop cfg.clientName s.srv s.capPorts) s.playPorts).ports = [] := by
    rw [List.eq_nil_iff_forall_not_mem]
    intro p hpm
    obtain ⟨c1, c2⟩ := (b3 p).1 hpm
    obtain ⟨c3, c4⟩ := (a3 p).1 c1
    rcases List.mem_append.1 (h p c3) with e | e
    · exact c4 e
    · exact c2 e
  have hc : (unregisterLoop cfg.clientName (unregisterLoop cfg.clientName s.srv s.capPorts) s.playPorts).conns = [] := by
    rw [List.eq_nil_iff_forall_not_mem]
    intro c hcm
    obtain ⟨p, hpm, _⟩ := b1.touch c hcm
    rw [hp] at hpm; simp at hpm
  obtain ⟨s1, s2, s3, s4⟩ := b2.trans a2
  simp only [unregisterPorts]
  cases hsrv : unregisterLoop cfg.clientName (unregisterLoop cfg.clientName s.srv s.capPorts) s.playPorts
  rw [hsrv] at hp hc s1 s2 s3 s4
  simp only at hp hc s1 s2 s3 s4
  subst hp hc s1 s2 s3 s4
  rfl

/-- The interface has no ports. -/
structure Idle (cfg : Config) (s : State F U σ) : Prop where
  ports : s.srv.ports = []
  conns : s.srv.conns = []
  cap : s.capPorts = List.replicate cfg.capNames.length none
  play : s.playPorts = List.replicate cfg.playNames.length none

/-- The interface has its ports, in order. -/
structure Running (cfg : Config) (s : State F U σ) : Prop where
  ok : SrvOk cfg.clientName s.srv
  ports : ∃ ps qs : List Port, s.srv.ports = ps ++ qs ∧ s.capPorts = ps.map (fun p => some p.handle) ∧
    s.playPorts = qs.map (fun p => some p.handle) ∧ ps.map (·.name) = cfg.capNames.map shortName ∧
    qs.map (·.name) = cfg.playNames.map shortName ∧ (∀ p ∈ ps, p.isInput = true) ∧ ∀ p ∈ qs, p.isInput = false
  conns : s.srv.conns = (wanted cfg).filter (possible cfg.clientName s.srv)

/-- The states that occur. -/
structure Inv (cfg : Config) (s : State F U σ) : Prop where
  foreign : Foreign cfg.clientName s.srv
  state : if s.initialised then Running cfg s ∧ s.srv.active = true else Idle cfg s

theorem Idle.srvOk {cfg : Config} {s : State F U σ} (h : Idle cfg s) : SrvOk cfg.clientName s.srv := by
  refine ⟨by simp [h.ports], by simp [h.ports], by simp [h.ports], by simp [h.conns]⟩

theorem release_idle {cfg : Config} {s : State F U σ} (h : Inv cfg s) :
    Idle cfg (release cfg s) ∧ (release cfg s).initialised = false ∧
      (release cfg s).srv.active = s.srv.active ∧ (release cfg s).srv.sources = s.srv.sources ∧
      (release cfg s).srv.sinks = s.srv.sinks ∧ (release cfg s).callback = s.callback ∧
      (release cfg s).world = s.world := by
  have hst := h.state
  cases hi : s.initialised with
  | false =>
    rw [hi] at hst
    have hr : release cfg s = s := by rw [release, hi]; rfl
    rw [hr]
    exact ⟨by simpa using hst, hi, rfl, rfl, rfl, rfl, rfl⟩
  | true =>
    rw [hi] at hst
    simp only [if_true] at hst
    obtain ⟨ps, qs, p1, p2, p3, p4, p5, p6, p7⟩ := hst.1.ports
    have hr : release cfg s = { unregisterPorts cfg (disconnectPorts cfg s) with initialised := false } := by
      rw [release, hi]; rfl
    have hd : SrvOk cfg.clientName (disconnectPorts cfg s).srv ∧ (disconnectPorts cfg s).srv.ports = s.srv.ports ∧
        Same (disconnectPorts cfg s).srv s.srv ∧ (disconnectPorts cfg s).capPorts = s.capPorts ∧
        (disconnectPorts cfg s).playPorts = s.playPorts ∧ (disconnectPorts cfg s).callback = s.callback ∧
        (disconnectPorts cfg s).world = s.world := by
      unfold disconnectPorts
      split_ifs
      · obtain ⟨a, b, c⟩ := disconnectAll_ok cfg.clientName (s.capPorts ++ s.playPorts) s.srv hst.1.ok
        exact ⟨a, b, c, rfl, rfl, rfl, rfl⟩
      · exact ⟨hst.1.ok, rfl, Same.refl _, rfl, rfl, rfl, rfl⟩
    obtain ⟨d1, d2, d3, d4, d5, d6, d7⟩ := hd
    have hu := unregisterPorts_ok d1 (by
      rw [d2, d4, d5, p1, p2, p3]
      intro p hp
      rw [← List.map_append]
      exact List.mem_map_of_mem hp)
    have l1 : ps.length = cfg.capNames.length := by simpa using congrArg List.length p4
    have l2 : qs.length = cfg.playNames.length := by simpa using congrArg List.length p5
    have hsrv : (release cfg s).srv = { (disconnectPorts cfg s).srv with ports := [], conns := [] } := by
      rw [hr]; exact hu
    refine ⟨⟨by rw [hsrv], by rw [hsrv], ?_, ?_⟩, by rw [hr], by rw [hsrv]; exact d3.2.1, by rw [hsrv]; exact d3.2.2.1,
      by rw [hsrv]; exact d3.2.2.2, by rw [hr]; exact d6, by rw [hr]; exact d7⟩
    · rw [hr]
      show (disconnectPorts cfg s).capPorts.map (fun _ => none) = _
      rw [d4, p2, List.map_map, ← l1]; simp [Function.comp_def]
    · rw [hr]
      show (disconnectPorts cfg s).playPorts.map (fun _ => none) = _
      rw [d5, p3, List.map_map, ← l2]; simp [Function.comp_def]

/-- Registration of the ports: all of them, or none. -/
theorem registerPorts_spec {cfg : Config} {accept : Bool → Nat → Bool} {s : State F U σ} (h : Idle cfg s) :
    ((registerPorts cfg accept s).2 = true ↔
        (∀ i < cfg.capNames.length, accept true i = true) ∧ (∀ i < cfg.playNames.length, accept false i = true) ∧
          ((cfg.capNames ++ cfg.playNames).map shortName).Nodup) ∧
      (registerPorts cfg accept s).1.initialised = s.initialised ∧
      (registerPorts cfg accept s).1.callback = s.callback ∧
      (registerPorts cfg accept s).1.world = s.world ∧
      (registerPorts cfg accept s).1.srv.active = s.srv.active ∧
      (registerPorts cfg accept s).1.srv.sources = s.srv.sources ∧
      (registerPorts cfg accept s).1.srv.sinks = s.srv.sinks ∧
      if (registerPorts cfg accept s).2 then
        SrvOk cfg.clientName (registerPorts cfg accept s).1.srv ∧
        (registerPorts cfg accept s).1.srv.conns = [] ∧
        ∃ ps qs : List Port, (registerPorts cfg accept s).1.srv.ports = ps ++ qs ∧
          (registerPorts cfg accept s).1.capPorts = ps.map (fun p => some p.handle) ∧
          (registerPorts cfg accept s).1.playPorts = qs.map (fun p => some p.handle) ∧
          ps.map (·.name) = cfg.capNames.map shortName ∧
          qs.map (·.name) = cfg.playNames.map shortName ∧ (∀ p ∈ ps, p.isInput = true) ∧ ∀ p ∈ qs, p.isInput = false
      else Idle cfg (registerPorts cfg accept s).1 := by
  obtain ⟨ps, a1, a2, a3, a4, a5, a6, a7⟩ := registerLoop_spec cfg.clientName (accept true) true cfg.capNames 0 s.srv
    s.capPorts h.srvOk (by simp [h.cap])
  generalize hA : registerLoop (accept true) true cfg.capNames 0 s.srv s.capPorts = A at *
  obtain ⟨srv1, hs1, b1⟩ := A
  simp only at a1 a2 a5 a6 a7
  have hps : srv1.ports = ps := by rw [a2]; simp [h.ports]
  have hle1 : ps.length ≤ cfg.capNames.length := by
    have := congrArg List.length a3; simp at this; omega
  have hhs1 : hs1 = ps.map (fun p => some p.handle) ++ List.replicate (cfg.capNames.length - ps.length) none := by
    rw [a5, h.cap]; simp
  cases b1 with
  | false =>
    have hr : registerPorts cfg accept s = (unregisterPorts cfg { s with srv := srv1, capPorts := hs1 }, false) := by
      simp only [registerPorts, hA]; rfl
    have hu := unregisterPorts_ok (cfg := cfg) (s := { s with srv := srv1, capPorts := hs1 }) a1 (by
      intro p hp
      simp only [hps] at hp
      simp only [hhs1, List.mem_append]
      exact Or.inl (Or.inl (List.mem_map_of_mem (f := fun p : Port => some p.handle) hp)))
    rw [hr]
    simp only [hu, Bool.false_eq_true, false_iff, if_false]
    refine ⟨?_, rfl, rfl, rfl, by rw [a2], by rw [a2], by rw [a2], ⟨by rw [hu], by rw [hu], ?_, ?_⟩⟩
    · rintro ⟨c1, _, c3⟩
      have := a7.2 ⟨by simpa using c1, by
        rw [h.ports]; rw [List.map_append] at c3; simpa using c3.of_append_left⟩
      simp at this
    · show hs1.map (fun _ => none) = _
      rw [hhs1, List.map_append, List.map_map]
      simp only [Function.comp_def, List.map_const', List.length_replicate, ← List.replicate_add]
      congr 1; omega
    · show s.playPorts.map (fun _ => none) = _
      rw [h.play]; simp
  | true =>
    obtain ⟨qs, c1, c2, c3, c4, c5, c6, c7⟩ := registerLoop_spec cfg.clientName (accept false) false cfg.playNames 0 srv1
      s.playPorts a1 (by simp [h.play])
    generalize hB : registerLoop (accept false) false cfg.playNames 0 srv1 s.playPorts = B at *
    obtain ⟨srv2, hs2, b2⟩ := B
    simp only at c1 c2 c5 c6 c7
    have hl1 : ps.length = cfg.capNames.length := a6 rfl
    have hhs1' : hs1 = ps.map (fun p => some p.handle) := by rw [hhs1, hl1]; simp
    have hle2 : qs.length ≤ cfg.playNames.length := by
      have := congrArg List.length c3; simp at this; omega
    have hhs2 : hs2 = qs.map (fun p => some p.handle) ++ List.replicate (cfg.playNames.length - qs.length) none := by
      rw [c5, h.play]; simp
    have hports : srv2.ports = ps ++ qs := by rw [c2, hps]
    have hnames : ps.map (·.name) = cfg.capNames.map shortName := by rw [a3, hl1]; simp
    have hiff : b2 = true ↔ (∀ i < cfg.capNames.length, accept true i = true) ∧
        (∀ i < cfg.playNames.length, accept false i = true) ∧ ((cfg.capNames ++ cfg.playNames).map shortName).Nodup := by
      have a7' := a7.1 rfl
      rw [c7, hps, hnames, List.map_append]
      constructor
      · rintro ⟨x, y⟩; exact ⟨by simpa using a7'.1, by simpa using x, y⟩
      · rintro ⟨_, x, y⟩; exact ⟨by simpa using x, y⟩
    cases b2 with
    | false =>
      have hr : registerPorts cfg accept s =
          (unregisterPorts cfg { s with srv := srv2, capPorts := hs1, playPorts := hs2 }, false) := by
        simp only [registerPorts, hA, if_true, hB]; rfl
      have hu := unregisterPorts_ok (cfg := cfg) (s := { s with srv := srv2, capPorts := hs1, playPorts := hs2 }) c1 (by
        intro p hp
        simp only [hports, List.mem_append] at hp
        simp only [hhs1', hhs2, List.mem_append]
        rcases hp with hp | hp
        · exact Or.inl (List.mem_map_of_mem (f := fun p : Port => some p.handle) hp)
        · exact Or.inr (Or.inl (List.mem_map_of_mem (f := fun p : Port => some p.handle) hp)))
      rw [hr]
      refine ⟨hiff, rfl, rfl, rfl, by rw [hu]; simp [c2, a2], by rw [hu]; simp [c2, a2], by rw [hu]; simp [c2, a2], ?_⟩
      simp only [Bool.false_eq_true, if_false]
      refine ⟨by rw [hu], by rw [hu], ?_, ?_⟩
      · show hs1.map (fun _ => none) = _
        rw [hhs1', List.map_map, ← hl1]; simp [Function.comp_def]
      · show hs2.map (fun _ => none) = _
        rw [hhs2, List.map_append, List.map_map]
        simp only [Function.comp_def, List.map_const', List.length_replicate, ← List.replicate_add]
        congr 1; omega
    | true =>
      have hr : registerPorts cfg accept s = ({ s with srv := srv2, capPorts := hs1, playPorts := hs2 }, true) := by
        simp only [registerPorts, hA, if_true, hB]
      have hl2 : qs.length = cfg.playNames.length := c6 rfl
      rw [hr]
      refine ⟨hiff, rfl, rfl, rfl, by simp [c2, a2], by simp [c2, a2], by simp [c2, a2], ?_⟩
      simp only [if_true]
      refine ⟨c1, by simp [c2, a2, h.conns], ps, qs, hports, hhs1', by rw [hhs2, hl2]; simp, hnames, ?_, a4, c4⟩
      rw [c3, hl2]; simp

end Visr.Jack
