import Verif.Jack.Lemmas
import Mathlib.Data.List.Induction

/-! # Histories of operations on the JACK interface -/

namespace Visr.Jack
open Visr

variable {α F U σ : Type}

theorem registered_snoc (h : List (Op α F U)) (op : Op α F U) (f : F) (u : U) :
    Registered (h ++ [op]) f u ↔
      op = .register f u ∨ (Registered h f u ∧ op ≠ .unregister f ∧ ∀ f' u', op ≠ .register f' u') := by
  constructor
  · rintro ⟨before, after, e, ha⟩
    rcases List.eq_nil_or_concat after with rfl | ⟨l, a, rfl⟩
    · left
      have := List.append_inj_right' e (by simp)
      simpa using this
    · right
      rw [List.concat_eq_append, ← List.cons_append, ← List.append_assoc] at e
      have e1 := List.append_inj_left' e (by simp)
      have e2 := List.append_inj_right' e (by simp)
      simp only [List.cons.injEq, and_true] at e2
      subst e2
      exact ⟨⟨before, l, e1, fun o ho => ha o (by simp [ho])⟩, ha op (by simp)⟩
  · rintro (rfl | ⟨⟨before, after, e, ha⟩, ho⟩)
    · exact ⟨h, [], by simp, by simp⟩
    · refine ⟨before, after ++ [op], by simp [e], ?_⟩
      intro o hmem
      rcases List.mem_append.1 hmem with h1 | h1
      · exact ha o h1
      · rw [List.mem_singleton.1 h1]; exact ho

variable [DecidableEq F]

theorem started_snoc (cfg : Config) (proc : Proc α F U σ) (s0 : State F U σ) (h : List (Op α F U)) (op : Op α F U) :
    Started cfg proc s0 (h ++ [op]) ↔
      (∃ a acc, op = .start a acc ∧ (step cfg proc (final (step cfg proc) s0 h) (.start a acc)).2 = .done) ∨
        (Started cfg proc s0 h ∧ (∀ a acc, op ≠ .start a acc) ∧ ∀ d, op ≠ .stop d) := by
  constructor
  · rintro ⟨before, a, acc, after, e, hr, ha⟩
    rcases List.eq_nil_or_concat after with rfl | ⟨l, x, rfl⟩
    · left
      have e1 := List.append_inj_left' e (by simp)
      have e2 := List.append_inj_right' e (by simp)
      simp only [List.cons.injEq, and_true] at e2
      subst e1 e2
      exact ⟨a, acc, rfl, hr⟩
    · right
      rw [List.concat_eq_append, ← List.cons_append, ← List.append_assoc] at e
      have e1 := List.append_inj_left' e (by simp)
      have e2 := List.append_inj_right' e (by simp)
      simp only [List.cons.injEq, and_true] at e2
      subst e2
      exact ⟨⟨before, a, acc, l, e1, hr, fun o ho => ha o (by simp [ho])⟩, ha op (by simp)⟩
  · rintro (⟨a, acc, rfl, hr⟩ | ⟨⟨before, a, acc, after, e, hr, ha⟩, ho⟩)
    · exact ⟨h, a, acc, [], by simp, hr, by simp⟩
    · refine ⟨before, a, acc, after ++ [op], by simp [e], hr, ?_⟩
      intro o hmem
      rcases List.mem_append.1 hmem with h1 | h1
      · exact ha o h1
      · rw [List.mem_singleton.1 h1]; exact ho

/-- Starting: all or nothing. -/
theorem start_spec {cfg : Config} {s : State F U σ} (inv : Inv cfg s) (a : Bool) (acc : Bool → Nat → Bool) :
    Inv cfg (start (α := α) cfg a acc s).1 ∧ (start (α := α) cfg a acc s).1.callback = s.callback ∧
      (start (α := α) cfg a acc s).1.world = s.world ∧
      (start (α := α) cfg a acc s).1.srv.sources = s.srv.sources ∧
      (start (α := α) cfg a acc s).1.srv.sinks = s.srv.sinks ∧
      ((start (α := α) cfg a acc s).1.initialised = true ↔ (start (α := α) cfg a acc s).2 = .done) ∧
      ((start (α := α) cfg a acc s).2 = .done ∨ (start (α := α) cfg a acc s).2 = .throws .runtimeError) ∧
      ((start (α := α) cfg a acc s).2 = .done ↔
        a = true ∧ (∀ i < cfg.capNames.length, acc true i = true) ∧ (∀ i < cfg.playNames.length, acc false i = true) ∧
          ((cfg.capNames ++ cfg.playNames).map shortName).Nodup) := by
  obtain ⟨r1, r2, r3, r4, r5, r6, r7⟩ := release_idle inv
  have hf : ∀ srv : Server, srv.sources = s.srv.sources → srv.sinks = s.srv.sinks → Foreign cfg.clientName srv := by
    intro srv h1 h2
    have := inv.foreign
    unfold Foreign at *
    rw [h1, h2]
    exact this
  cases a with
  | false =>
    have hs : start (α := α) cfg false acc s = (release cfg s, .throws .runtimeError) := rfl
    rw [hs]
    refine ⟨⟨hf _ r4 r5, by rw [r2]; simpa using r1⟩, r6, r7, r4, r5, by simp [r2], by simp, by simp⟩
  | true =>
    have hid : Idle cfg ({ release cfg s with srv := { (release cfg s).srv with active := true } } : State F U σ) :=
      ⟨r1.ports, r1.conns, r1.cap, r1.play⟩
    obtain ⟨p1, p2, p3, p4, p5, p6, p7, p8⟩ := registerPorts_spec (accept := acc) hid
    have hs : start (α := α) cfg true acc s =
        (if (registerPorts cfg acc { release cfg s with srv := { (release cfg s).srv with active := true } }).2 = true then
          ({ connectPorts cfg (registerPorts cfg acc { release cfg s with srv := { (release cfg s).srv with active := true } }).1
              with initialised := true }, .done)
        else ((registerPorts cfg acc { release cfg s with srv := { (release cfg s).srv with active := true } }).1,
          .throws .runtimeError)) := rfl
    rw [hs]
    generalize registerPorts cfg acc { release cfg s with srv := { (release cfg s).srv with active := true } } = R at *
    obtain ⟨s', b⟩ := R
    simp only at p1 p2 p3 p4 p5 p6 p7 p8
    cases b with
    | false =>
      simp only [Bool.false_eq_true, if_false, false_iff] at p1 p8 ⊢
      refine ⟨⟨hf _ (p6.trans r4) (p7.trans r5), by rw [p2, r2]; simpa using p8⟩, p3.trans r6, p4.trans r7, p6.trans r4,
        p7.trans r5, by simp [p2, r2], by simp, ?_⟩
      simpa using p1
    | true =>
      simp only [if_true] at p1 p8 ⊢
      obtain ⟨q1, q2, ps, qs, q3, q4, q5, q6, q7, q8, q9⟩ := p8
      have hfor : Foreign cfg.clientName s'.srv := hf _ (p6.trans r4) (p7.trans r5)
      have hsrv : (connectPorts cfg s').srv = { s'.srv with
          conns := s'.srv.conns ++ (wanted cfg).filter (fun c => possible cfg.clientName s'.srv c) } := by
        rw [connectPorts]; exact connect_fold cfg.clientName (wanted cfg) s'.srv
      have hconns : (connectPorts cfg s').srv.conns = (wanted cfg).filter (possible cfg.clientName s'.srv) := by
        rw [hsrv]; simp [q2]
      refine ⟨⟨hf _ ?_ ?_, ?_⟩, p3.trans r6, p4.trans r7, ?_, ?_, by simp, by simp, by simpa using p1⟩
      · show (connectPorts cfg s').srv.sources = _; rw [hsrv]; exact p6.trans r4
      · show (connectPorts cfg s').srv.sinks = _; rw [hsrv]; exact p7.trans r5
      · simp only [if_true]
        refine ⟨⟨?_, ?_, ?_⟩, ?_⟩
        · show SrvOk cfg.clientName (connectPorts cfg s').srv
          refine ⟨by rw [hsrv]; exact q1.handles, by rw [hsrv]; exact q1.fresh, by rw [hsrv]; exact q1.names, ?_⟩
          intro c hc
          rw [hconns, List.mem_filter] at hc
          obtain ⟨hw, hp⟩ := hc
          have hp' := of_decide_eq_true hp
          have hports : (connectPorts cfg s').srv.ports = s'.srv.ports := by rw [hsrv]
          rw [hports]
          unfold wanted at hw
          split_ifs at hw
          · rcases List.mem_append.1 hw with hw | hw
            · obtain ⟨c1, c2⟩ := c
              have hm := (List.of_mem_zip hw).2
              obtain ⟨n, _, hn⟩ := List.mem_map.1 hm
              have h2 := hp'.2
              rcases List.mem_append.1 h2 with h2 | h2
              · exfalso; simp only at h2 hn; rw [← hn] at h2; exact (hfor n).2 h2
              · obtain ⟨p, hpm, e⟩ := List.mem_map.1 h2
                exact ⟨p, (List.mem_filter.1 hpm).1, Or.inr e.symm⟩
            · obtain ⟨c1, c2⟩ := c
              have hm := (List.of_mem_zip hw).1
              obtain ⟨n, _, hn⟩ := List.mem_map.1 hm
              have h2 := hp'.1
              rcases List.mem_append.1 h2 with h2 | h2
              · exfalso; simp only at h2 hn; rw [← hn] at h2; exact (hfor n).1 h2
              · obtain ⟨p, hpm, e⟩ := List.mem_map.1 h2
                exact ⟨p, (List.mem_filter.1 hpm).1, Or.inl e.symm⟩
          · simp at hw
        · refine ⟨ps, qs, ?_, q4, q5, q6, q7, q8, q9⟩
          show (connectPorts cfg s').srv.ports = _
          rw [hsrv]; exact q3
        · show (connectPorts cfg s').srv.conns = (wanted cfg).filter (possible cfg.clientName (connectPorts cfg s').srv)
          rw [hconns, hsrv]; rfl
        · show (connectPorts cfg s').srv.active = true
          rw [hsrv]; exact p5
      · show (connectPorts cfg s').srv.sources = _; rw [hsrv]; exact p6.trans r4
      · show (connectPorts cfg s').srv.sinks = _; rw [hsrv]; exact p7.trans r5

theorem stop_spec {cfg : Config} {s : State F U σ} (inv : Inv cfg s) (d : Bool) :
    Inv cfg (stop (α := α) cfg d s).1 ∧ (stop (α := α) cfg d s).1.callback = s.callback ∧
      (stop (α := α) cfg d s).1.world = s.world ∧ (stop (α := α) cfg d s).1.initialised = false ∧
      (stop (α := α) cfg d s).1.srv.sources = s.srv.sources ∧ (stop (α := α) cfg d s).1.srv.sinks = s.srv.sinks ∧
      (s.initialised = true → d = true → (stop (α := α) cfg d s).1.srv.active = false ∧ (stop (α := α) cfg d s).2 = .done) := by
  obtain ⟨r1, r2, r3, r4, r5, r6, r7⟩ := release_idle inv
  have hf : ∀ srv : Server, srv.sources = s.srv.sources → srv.sinks = s.srv.sinks → Foreign cfg.clientName srv := by
    intro srv h1 h2
    have := inv.foreign
    unfold Foreign at *
    rw [h1, h2]
    exact this
  cases hi : s.initialised with
  | false =>
    have hs : stop (α := α) cfg d s = (s, .done) := by rw [stop, hi]; rfl
    rw [hs]
    exact ⟨inv, rfl, rfl, hi, rfl, rfl, by simp⟩
  | true =>
    cases d with
    | true =>
      have hs : stop (α := α) cfg true s =
          ({ release cfg s with srv := { (release cfg s).srv with active := false } }, .done) := by rw [stop, hi]; rfl
      rw [hs]
      refine ⟨⟨hf _ r4 r5, ?_⟩, r6, r7, r2, r4, r5, by simp⟩
      simp only [r2, Bool.false_eq_true, if_false]
      exact ⟨r1.ports, r1.conns, r1.cap, r1.play⟩
    | false =>
      have hs : stop (α := α) cfg false s = (release cfg s, .throws .runtimeError) := by rw [stop, hi]; rfl
      rw [hs]
      refine ⟨⟨hf _ r4 r5, ?_⟩, r6, r7, r2, r4, r5, by simp⟩
      simpa [r2] using r1

theorem buffers_ok (srv : Server) : ∀ ps : List Port, (∀ p ∈ ps, p ∈ srv.ports) →
    buffers srv (ps.map fun p => some p.handle) = .ok (ps.map (·.handle)) := by
  intro ps
  induction ps with
  | nil => intro _; rfl
  | cons p ps ih =>
    intro h
    have hm : p.handle ∈ srv.ports.map (·.handle) := List.mem_map_of_mem (h p (by simp))
    rw [List.map_cons, buffers, if_pos hm, ih (fun q hq => h q (by simp [hq]))]
    rfl

theorem split_ports {srv : Server} {ps qs : List Port} (h : srv.ports = ps ++ qs) (hp : ∀ p ∈ ps, p.isInput = true)
    (hq : ∀ p ∈ qs, p.isInput = false) : inputs srv = ps ∧ outputs srv = qs := by
  unfold inputs outputs
  rw [h, List.filter_append, List.filter_append]
  constructor
  · rw [List.filter_eq_self.2 hp, List.filter_eq_nil_iff.2 (fun p hm => by simp [hq p hm]), List.append_nil]
  · rw [List.filter_eq_nil_iff.2 (fun p hm => by simp [hp p hm]), List.filter_eq_self.2 (fun p hm => by simp [hq p hm]),
      List.nil_append]

/-- A block while the interface is running. -/
theorem process_running {cfg : Config} {proc : Proc α F U σ} {s : State F U σ} (inv : Inv cfg s)
    (hi : s.initialised = true) {f : F} {u : U} (hc : s.callback = some (f, u)) (buf : Nat → List α)
    (hx : ∀ w caps, (proc f u w caps).2.2 ≠ some .cString) :
    Exchanged proc f u buf s (process cfg proc cfg.period buf s).1 (process cfg proc cfg.period buf s).2 := by
  have hst := inv.state
  rw [hi] at hst
  simp only [if_true] at hst
  obtain ⟨ps, qs, p1, p2, p3, p4, p5, p6, p7⟩ := hst.1.ports
  obtain ⟨i1, i2⟩ := split_ports p1 p6 p7
  have b1 := buffers_ok s.srv ps (fun p hp => by rw [p1]; simp [hp])
  have b2 := buffers_ok s.srv qs (fun p hp => by rw [p1]; simp [hp])
  unfold Exchanged
  rw [i1, i2]
  have hx' := hx s.world (ps.map fun p => buf p.handle)
  have hE : process cfg proc cfg.period buf s =
      (match (proc f u s.world (ps.map fun p => buf p.handle)).2.2 with
      | none => ({ s with world := (proc f u s.world (ps.map fun p => buf p.handle)).1 },
          .ret 0 (some ((qs.map (·.handle)).zip (proc f u s.world (ps.map fun p => buf p.handle)).2.1)))
      | some .cString => ({ s with world := (proc f u s.world (ps.map fun p => buf p.handle)).1 }, .escapes .cString)
      | some _ => ({ s with world := (proc f u s.world (ps.map fun p => buf p.handle)).1 },
          .ret 1 (some ((qs.map (·.handle)).zip (proc f u s.world (ps.map fun p => buf p.handle)).2.1)))) := by
    rw [process, if_neg (by simp), hc, hi]
    simp only [p2, p3, b1, b2, List.map_map, Function.comp_def]
    rcases (proc f u s.world (ps.map fun p => buf p.handle)).2.2 with _ | (_ | _ | _ | _ | _ | _ | _) <;> rfl
  rw [hE]
  generalize proc f u s.world (ps.map fun p => buf p.handle) = r at *
  obtain ⟨w', out, ex⟩ := r
  simp only at hx'
  rcases ex with _ | (_ | _ | _ | _ | _ | _ | _) <;> first | exact ⟨rfl, rfl⟩ | exact absurd rfl hx'

/-- A block without effect. -/
theorem process_idle {cfg : Config} {proc : Proc α F U σ} {s : State F U σ}
    (h : s.initialised = false ∨ s.callback = none) (buf : Nat → List α) :
    process cfg proc cfg.period buf s = (s, .ret 0 none) := by
  rw [process, if_neg (by simp)]
  rcases h with h | h
  · rw [h]
    rcases s.callback with _ | ⟨f, u⟩ <;> rfl
  · rw [h]

/-- A block changes nothing but the state of the program. -/
theorem process_state (cfg : Config) (proc : Proc α F U σ) (n : Nat) (buf : Nat → List α) (s : State F U σ) :
    ∃ w, (process cfg proc n buf s).1 = { s with world := w } := by
  unfold process
  split_ifs
  · exact ⟨s.world, rfl⟩
  · split
    · split
      · simp only; split <;> exact ⟨_, rfl⟩
      · exact ⟨s.world, rfl⟩
    · exact ⟨s.world, rfl⟩

theorem Inv.of_world {cfg : Config} {s : State F U σ} (h : Inv cfg s) (w : σ) (c : Option (F × U)) :
    Inv cfg { s with world := w, callback := c } := by
  refine ⟨h.foreign, ?_⟩
  have := h.state
  cases hi : s.initialised with
  | false => rw [hi] at this; simp at this ⊢; exact ⟨this.ports, this.conns, this.cap, this.play⟩
  | true => rw [hi] at this; simp at this ⊢; exact ⟨⟨this.1.ok, this.1.ports, this.1.conns⟩, this.2⟩

/-- What holds after every history. -/
theorem history_inv {cfg : Config} (proc : Proc α F U σ) (sources sinks : List Name)
    (hfor : Foreign cfg.clientName ⟨[], 0, [], false, sources, sinks⟩) (w : σ) (h : List (Op α F U)) :
    Inv cfg (final (step cfg proc) (State.init cfg.capNames.length cfg.playNames.length sources sinks w) h) ∧
      (final (step cfg proc) (State.init cfg.capNames.length cfg.playNames.length sources sinks w) h).srv.sources = sources ∧
      (final (step cfg proc) (State.init cfg.capNames.length cfg.playNames.length sources sinks w) h).srv.sinks = sinks ∧
      ((final (step cfg proc) (State.init cfg.capNames.length cfg.playNames.length sources sinks w) h).initialised = true ↔
        Started cfg proc (State.init cfg.capNames.length cfg.playNames.length sources sinks w) h) ∧
      ∀ f u, (final (step cfg proc) (State.init cfg.capNames.length cfg.playNames.length sources sinks w) h).callback =
        some (f, u) ↔ Registered h f u := by
  induction h using List.reverseRecOn with
  | nil =>
    refine ⟨⟨hfor, ?_⟩, rfl, rfl, ?_, ?_⟩
    · exact ⟨rfl, rfl, rfl, rfl⟩
    · constructor
      · intro h; simp [State.init] at h
      · rintro ⟨b, a, acc, af, e, _⟩; simp at e
    · intro f u
      constructor
      · intro h; simp [State.init] at h
      · rintro ⟨b, af, e, _⟩; simp at e
  | append_singleton h op ih =>
    simp only [final_append, final_cons, final_nil, started_snoc, registered_snoc]
    generalize hs0 : State.init (F := F) (U := U) cfg.capNames.length cfg.playNames.length sources sinks w = s0 at *
    generalize hs : final (step cfg proc) s0 h = s at *
    obtain ⟨i1, i2, i3, i4, i5⟩ := ih
    cases op with
    | register f u =>
      refine ⟨i1.of_world _ _, i2, i3, ?_, ?_⟩
      · show s.initialised = true ↔ _
        rw [i4]; simp
      · intro f' u'
        show some (f, u) = some (f', u') ↔ _
        simp
    | unregister f =>
      have hst : step cfg proc s (.unregister f) = ((unregisterCallback f s).1, .bool (unregisterCallback f s).2) := rfl
      rw [hst]
      have hu : (unregisterCallback f s).1 = { s with callback := (unregisterCallback f s).1.callback } := by
        unfold unregisterCallback; split
        · rfl
        · split <;> rfl
      refine ⟨?_, ?_, ?_, ?_, ?_⟩
      · show Inv cfg (unregisterCallback f s).1
        rw [hu]; exact i1.of_world _ _
      · show (unregisterCallback f s).1.srv.sources = _; rw [hu]; exact i2
      · show (unregisterCallback f s).1.srv.sinks = _; rw [hu]; exact i3
      · show (unregisterCallback f s).1.initialised = true ↔ _
        rw [hu]
        show s.initialised = true ↔ _
        rw [i4]; simp
      · intro f' u'
        show (unregisterCallback f s).1.callback = _ ↔ _
        simp only [reduceCtorEq, ne_eq, not_false_eq_true, implies_true, and_true, false_or, Op.unregister.injEq]
        rw [← i5]
        unfold unregisterCallback
        rcases hcb : s.callback with _ | ⟨g, v⟩
        · simp [hcb]
        · simp only
          split_ifs with hg
          · subst hg
            simp only [reduceCtorEq, Option.some.injEq, Prod.mk.injEq, false_iff, not_and, not_not]
            rintro ⟨rfl, _⟩; rfl
          · simp only [hcb, Option.some.injEq, Prod.mk.injEq, iff_self_and, and_imp]
            rintro rfl _ e; exact hg e.symm
    | start a acc =>
      obtain ⟨s1, s2, s3, s4, s5, s6, s7, s8⟩ := start_spec (α := α) i1 a acc
      refine ⟨s1, s4.trans i2, s5.trans i3, ?_, ?_⟩
      · show (start (α := α) cfg a acc s).1.initialised = true ↔ _
        rw [s6]
        constructor
        · intro hd; exact Or.inl ⟨a, acc, rfl, hd⟩
        · rintro (⟨a', acc', e, hd⟩ | ⟨_, hn, _⟩)
          · injection e with e1 e2; subst e1 e2; exact hd
          · exact absurd rfl (hn a acc)
      · intro f u
        show (start (α := α) cfg a acc s).1.callback = _ ↔ _
        rw [s2, i5]; simp
    | stop d =>
      obtain ⟨s1, s2, s3, s4, s5, s6, s7⟩ := stop_spec (α := α) i1 d
      refine ⟨s1, s5.trans i2, s6.trans i3, ?_, ?_⟩
      · show (stop (α := α) cfg d s).1.initialised = true ↔ _
        rw [s4]; simp
      · intro f u
        show (stop (α := α) cfg d s).1.callback = _ ↔ _
        rw [s2, i5]; simp
    | block n buf =>
      have hw : ∃ w, (step cfg proc s (.block n buf)).1 = { s with world := w } := by
        unfold step
        split_ifs
        · exact process_state cfg proc n buf s
        · exact ⟨s.world, rfl⟩
      obtain ⟨w', hw⟩ := hw
      rw [hw]
      refine ⟨i1.of_world w' s.callback, i2, i3, ?_, ?_⟩
      · show s.initialised = true ↔ _
        rw [i4]; simp
      · intro f u
        show s.callback = _ ↔ _
        rw [i5]; simp

end Visr.Jack
