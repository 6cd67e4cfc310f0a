import Verif.PortAudio.Lemmas
import Mathlib.Data.List.Induction

/-! # Histories of operations on the PortAudio interface -/

namespace Visr.PortAudio
open Visr

variable {α F U σ : Type}

theorem registered_snoc (h : List (Op α F U)) (op : Op α F U) (f : F) (u : U) :
    Registered (h ++ [op]) f u ↔
      op = .register f u ∨ (Registered h f u ∧ op ≠ .unregister f ∧ ∀ f' u', op ≠ .register f' u') := by
  constructor
  · rintro ⟨before, after, e, ha⟩
    rcases List.eq_nil_or_concat after with rfl | ⟨l, a, rfl⟩
    · left
      have := List.append_inj_right' e (by simp)
      simpa using this
    · right
      rw [List.concat_eq_append, ← List.cons_append, ← List.append_assoc] at e
      have e1 := List.append_inj_left' e (by simp)
      have e2 := List.append_inj_right' e (by simp)
      simp only [List.cons.injEq, and_true] at e2
      subst e2
      exact ⟨⟨before, l, e1, fun o ho => ha o (by simp [ho])⟩, ha op (by simp)⟩
  · rintro (rfl | ⟨⟨before, after, e, ha⟩, ho⟩)
    · exact ⟨h, [], by simp, by simp⟩
    · refine ⟨before, after ++ [op], by simp [e], ?_⟩
      intro o hmem
      rcases List.mem_append.1 hmem with h1 | h1
      · exact ha o h1
      · rw [List.mem_singleton.1 h1]; exact ho

/-- The parts of the interface fixed by the construction. -/
structure Fixed (str nCap nPlay period : Nat) (inter : Bool) (x : Iface α F U) : Prop where
  good : Good str x
  nCap : x.nCap = nCap
  nPlay : x.nPlay = nPlay
  period : x.period = period
  inter : x.interleaved = inter
  format : x.format = .f32

theorem Fixed.of_mem {str nCap nPlay period : Nat} {inter : Bool} {x : Iface α F U}
    (g : Fixed str nCap nPlay period inter x) {m : List α} (h : m.length = x.mem.length) :
    Fixed str nCap nPlay period inter { x with mem := m } :=
  ⟨g.good.of_mem m h, g.nCap, g.nPlay, g.period, g.inter, g.format⟩

/-- The callback of the library. -/
theorem engine_some {str nCap nPlay period : Nat} {inter : Bool} {x : Iface α F U}
    (g : Fixed str nCap nPlay period inter x) {proc : Proc α F U σ} (hp : Proper nCap nPlay period proc) {f : F} {u : U}
    (hcb : x.callback = some (f, u)) (w : σ) {i o : Buf α} (hi : Fits nCap period inter i)
    (ho : Fits nPlay period inter o) :
    Fixed str nCap nPlay period inter (engineCallback proc x w i o).1 ∧
      (engineCallback proc x w i o).1.callback = x.callback ∧
      Exchanged proc f u nCap nPlay period inter w i o (engineCallback proc x w i o).2.1
        (engineCallback proc x w i o).2.2 := by
  obtain ⟨gg, rfl, rfl, rfl, rfl, h32⟩ := g
  obtain ⟨m, e1, hl, hin, hout⟩ := transferCapture_ok gg h32 hi
  have g1 : Good str { x with mem := m } := gg.of_mem m hl
  set x1 : Iface α F U := { x with mem := m } with hx1
  have hcaps : Holds x.nCap x.period i (view m x.capPtr x.period) := by
    rw [gg.cap]
    refine ⟨view_shape m _ _ _ (fun c t hc ht => ?_), fun c t hc ht => ?_⟩
    · rw [hl, gg.len]; exact offset_lt gg.str_le ht (by omega)
    · rw [view_get _ _ _ _ _ _ hc ht]; exact hin c t hc ht
  have hplays : Shape x.nPlay x.period (view m x.playPtr x.period) := by
    rw [gg.play]
    refine view_shape m _ _ _ (fun c t hc ht => ?_)
    rw [hl, gg.len]; exact offset_lt gg.str_le ht (by omega)
  have hnew := hp f u w _ _ hcaps.1 hplays
  obtain ⟨m2, e2, hl2, hst⟩ := store_ok g1 hnew
  have g2 : Good str { x1 with mem := m2 } := g1.of_mem m2 hl2
  set x2 : Iface α F U := { x1 with mem := m2 } with hx2
  have hfix : Fixed str x.nCap x.nPlay x.period x.interleaved x2 := ⟨g2, rfl, rfl, rfl, rfl, h32⟩
  have hE : engineCallback proc x w i o =
      (match (proc f u w (view m x.capPtr x.period) (view m x.playPtr x.period)).2.2 with
        | some .cString => (x2, (proc f u w (view m x.capPtr x.period) (view m x.playPtr x.period)).1, .escapes .cString)
        | some _ => (x2, (proc f u w (view m x.capPtr x.period) (view m x.playPtr x.period)).1, .abort o)
        | none => (x2, (proc f u w (view m x.capPtr x.period) (view m x.playPtr x.period)).1, finish x2 o)) := by
    unfold engineCallback
    rw [hcb]
    simp only [e1]
    rw [e2]
    simp only [show x1.mem = m from rfl, show x1.capPtr = x.capPtr from rfl, show x1.playPtr = x.playPtr from rfl,
      show x1.period = x.period from rfl]
    rcases (proc f u w (view m x.capPtr x.period) (view m x.playPtr x.period)).2.2 with
      _ | (_ | _ | _ | _ | _ | _ | _) <;> rfl
  obtain ⟨b, e3, hb, hbs⟩ := transferPlayback_ok g2 h32 ho
  have e3' : finish x2 o = .continue b := by unfold finish; rw [e3]
  rw [hE, e3']
  generalize hr : (proc f u w (view m x.capPtr x.period) (view m x.playPtr x.period)) = r at *
  obtain ⟨w', np, ex⟩ := r
  refine ⟨?_, ?_, view m x.capPtr x.period, view m x.playPtr x.period, hcaps, hplays, ?_, ?_⟩
  · rcases ex with _ | (_ | _ | _ | _ | _ | _ | _) <;> exact hfix
  · rcases ex with _ | (_ | _ | _ | _ | _ | _ | _) <;> rfl
  · rw [hr]; rcases ex with _ | (_ | _ | _ | _ | _ | _ | _) <;> rfl
  · rw [hr]
    rcases ex with _ | (_ | _ | _ | _ | _ | _ | _) <;> try rfl
    refine ⟨b, rfl, hb, hnew, fun c t hc ht => ?_⟩
    rw [← hst c t hc ht]
    exact (hbs c t hc ht).symm

theorem engine_none {x : Iface α F U} (proc : Proc α F U σ) (h : x.callback = none) (w : σ) (i o : Buf α) :
    engineCallback proc x w i o = (x, w, .continue o) := by
  unfold engineCallback; rw [h]

/-- What holds after every history. -/
theorem history_inv [DecidableEq F] {str nCap nPlay period : Nat} {inter : Bool} {x : Iface α F U}
    (g : Fixed str nCap nPlay period inter x) (h0 : x.callback = none) {proc : Proc α F U σ}
    (hp : Proper nCap nPlay period proc) (w : σ) (h : List (Op α F U)) (hb : BlocksFit nCap nPlay period inter h) :
    Fixed str nCap nPlay period inter (final (step proc) ⟨x, .stopped, w⟩ h).iface ∧
      ∀ f u, (final (step proc) ⟨x, .stopped, w⟩ h).iface.callback = some (f, u) ↔ Registered h f u := by
  induction h using List.reverseRecOn with
  | nil =>
    refine ⟨g, fun f u => ?_⟩
    simp only [final_nil, h0, reduceCtorEq, false_iff]
    rintro ⟨a, b, e, _⟩
    simp at e
  | append_singleton h op ih =>
    obtain ⟨i1, i2⟩ := ih (fun i o hm => hb i o (by simp [hm]))
    rw [final_append, final_cons, final_nil]
    generalize final (step proc) ⟨x, .stopped, w⟩ h = s at i1 i2
    cases op with
    | register f u =>
      refine ⟨⟨⟨i1.good.str_le, i1.good.len, i1.good.cap, i1.good.play⟩, i1.nCap, i1.nPlay, i1.period, i1.inter,
        i1.format⟩, fun f' u' => ?_⟩
      rw [registered_snoc]
      simp only [step, Option.some.injEq, Prod.mk.injEq, Op.register.injEq]
      constructor
      · intro h; exact Or.inl h
      · rintro (h | ⟨_, _, h⟩)
        · exact h
        · exact absurd rfl (h f u)
    | unregister f =>
      have hx : (step proc s (.unregister f)).1.iface = (unregister s.iface f).1 := rfl
      rw [hx]
      unfold unregister
      split
      · rename_i hn
        refine ⟨i1, fun f' u' => ?_⟩
        rw [registered_snoc, ← i2, hn]; simp
      · rename_i g' u0 hs
        split_ifs with hg
        · refine ⟨⟨⟨i1.good.str_le, i1.good.len, i1.good.cap, i1.good.play⟩, i1.nCap, i1.nPlay, i1.period, i1.inter,
            i1.format⟩, fun f' u' => ?_⟩
          rw [registered_snoc, ← i2, hs]
          subst hg
          simp only [reduceCtorEq, Option.some.injEq, Prod.mk.injEq, ne_eq, Op.unregister.injEq, false_or,
            not_false_eq_true, implies_true, and_true, false_iff]
          rintro ⟨⟨h1, _⟩, h2⟩
          exact h2 h1
        · refine ⟨i1, fun f' u' => ?_⟩
          rw [registered_snoc, ← i2, hs]
          simp only [Option.some.injEq, Prod.mk.injEq, reduceCtorEq, ne_eq, Op.unregister.injEq, false_or,
            not_false_eq_true, implies_true, and_true]
          constructor
          · rintro ⟨h1, h2⟩; exact ⟨⟨h1, h2⟩, fun h3 => hg (h1.trans h3.symm)⟩
          · rintro ⟨h1, _⟩; exact h1
    | start ok =>
      refine ⟨i1, fun f u => ?_⟩
      rw [registered_snoc, ← i2]; simp [step]
    | stop a b =>
      refine ⟨i1, fun f u => ?_⟩
      rw [registered_snoc, ← i2]; simp [step]
    | block i o =>
      obtain ⟨hi, ho⟩ := hb i o (by simp)
      have key : Fixed str nCap nPlay period inter (step proc s (.block i o)).1.iface ∧
          (step proc s (.block i o)).1.iface.callback = s.iface.callback := by
        obtain ⟨x', st, w'⟩ := s
        cases st with
        | running =>
          cases hc : x'.callback with
          | none =>
            simp only [step, engine_none proc hc]
            exact ⟨i1, hc⟩
          | some p =>
            obtain ⟨f, u⟩ := p
            obtain ⟨k1, k2, _⟩ := engine_some i1 hp hc w' hi ho
            exact ⟨k1, k2.trans hc⟩
        | _ => exact ⟨i1, rfl⟩
      refine ⟨key.1, fun f u => ?_⟩
      rw [key.2, i2, registered_snoc]; simp

/-- The stream is closed exactly after a successful `stop()`. -/
theorem closed_iff [DecidableEq F] (proc : Proc α F U σ) (h : List (Op α F U)) (s : State α F U σ) :
    (final (step proc) s h).stream = .closed ↔ s.stream = .closed ∨ Stopped h (run (step proc) s h).2 := by
  induction h generalizing s with
  | nil => simp [Stopped]
  | cons op h ih =>
    rw [final_cons, ih]
    have hS : Stopped (op :: h) (run (step proc) s (op :: h)).2 ↔
        (∃ a b, op = .stop a b ∧ (step proc s op).2 = .done) ∨ Stopped h (run (step proc) (step proc s op).1 h).2 := by
      simp only [run, Stopped]
      constructor
      · rintro ⟨k, a, b, h1, h2⟩
        cases k with
        | zero => left; exact ⟨a, b, by simpa using h1, by simpa using h2⟩
        | succ k => right; exact ⟨k, a, b, by simpa using h1, by simpa using h2⟩
      · rintro (⟨a, b, h1, h2⟩ | ⟨k, a, b, h1, h2⟩)
        · exact ⟨0, a, b, by simp [h1], by simp [h2]⟩
        · exact ⟨k + 1, a, b, by simpa using h1, by simpa using h2⟩
    rw [hS, ← or_assoc]
    apply or_congr_left
    obtain ⟨x, st, w⟩ := s
    cases op with
    | register f u => simp [step]
    | unregister f => simp [step]
    | start ok => cases st <;> cases ok <;> simp [step, startStep]
    | stop a b => cases st <;> cases a <;> cases b <;> simp [step, stopStep]
    | block i o =>
      cases st <;> simp only [step, reduceCtorEq, false_and, exists_false, or_false]
      cases (engineCallback proc x w i o).2.2 <;> simp [afterCallback]

theorem construct_ok [Zero α] {lib : Lib} {align nCap nPlay period : Nat} {conf : Option Options} {n : Nat}
    {x : Iface α F U} {p : StreamParams} (h : construct lib align nCap nPlay period conf = (n, .ok (x, p))) :
    ∃ c, parseSpecificConf conf = .ok c ∧ prepare align nCap nPlay period c = .ok x ∧
      openStream lib c nCap nPlay period = .ok p ∧ n = lib.initCount + 1 := by
  unfold construct at h
  split at h
  · simp at h
  · simp at h
  · rename_i c hc
    split at h
    · simp at h
    · simp at h
    · rename_i y hy
      split_ifs at h
      · split at h
        · rename_i q hq
          simp only [Prod.mk.injEq, Outcome.ok.injEq] at h
          obtain ⟨h1, rfl, rfl⟩ := h
          exact ⟨c, hc, hy, hq, h1.symm⟩
        · simp at h
        · simp at h
      · simp at h

theorem openStream_ok {lib : Lib} {c : Config} {nCap nPlay period : Nat} {p : StreamParams}
    (h : openStream lib c nCap nPlay period = .ok p) :
    ∃ api, c.hostApi ∈ hostApiNames ∧ lib.hostApi c.hostApi = some api ∧
      findDevice lib api c.inputDevice nCap true = .ok p.inDevice ∧
      findDevice lib api c.outputDevice nPlay false = .ok p.outDevice ∧
      translateSampleFormat c.format c.interleaved = .ok p.format ∧
      lib.supported p.inDevice p.outDevice p.format = true ∧
      p.inChannels = nCap ∧ p.outChannels = nPlay ∧ p.frames = period := by
  unfold openStream at h
  by_cases h1 : c.hostApi ∈ hostApiNames
  swap
  · rw [if_neg h1] at h; simp at h
  rw [if_pos h1] at h
  split at h
  · simp at h
  · rename_i api ha
    cases e1 : findDevice lib api c.inputDevice nCap true with
    | throw e => simp [e1] at h
    | ub => simp [e1] at h
    | ok i =>
    cases e2 : findDevice lib api c.outputDevice nPlay false with
    | throw e => simp [e1, e2] at h
    | ub => simp [e1, e2] at h
    | ok o =>
    cases e3 : translateSampleFormat c.format c.interleaved with
    | throw e => simp [e1, e2, e3] at h
    | ub => simp [e1, e2, e3] at h
    | ok f =>
    simp only [e1, e2, e3, Outcome.ok_bind] at h
    split_ifs at h with h2 h3
    · simp only [Outcome.ok.injEq] at h
      subst h
      exact ⟨api, h1, ha, e1, e2, rfl, h2, rfl, rfl, rfl⟩

theorem translate_f32 {f : Format} {b : Bool} {p : PaFormat} (h : translateSampleFormat f b = .ok p) :
    p.nonInterleaved = !b ∧ (p.sample = .float32 ↔ f = .f32) := by
  cases f <;> cases b <;> simp_all [translateSampleFormat, paSample] <;> simp [← h]

/-- A constructed interface with samples of type float. -/
theorem construct_fixed [Zero α] {lib : Lib} {align nCap nPlay period : Nat} {conf : Option Options} {n : Nat}
    {x : Iface α F U} {p : StreamParams} (h : construct lib align nCap nPlay period conf = (n, .ok (x, p)))
    (hf : p.format.sample = .float32) :
    Fixed (stride period align) nCap nPlay period (!p.format.nonInterleaved) x ∧ x.callback = none := by
  obtain ⟨c, _, h2, h3, _⟩ := construct_ok h
  obtain ⟨y, e, g, k1, k2, k3, k4, k5, k6⟩ := prepare_ok (α := α) (F := F) (U := U) align nCap nPlay period c
  rw [e] at h2
  simp only [Outcome.ok.injEq] at h2
  subst h2
  obtain ⟨_, _, _, _, _, ht, _⟩ := openStream_ok h3
  obtain ⟨t1, t2⟩ := translate_f32 ht
  exact ⟨⟨g, k1, k2, k3, by rw [k5, t1]; simp, by rw [k4]; exact t2.1 hf⟩, k6⟩

end Visr.PortAudio
