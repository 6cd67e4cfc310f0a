import Verif.Delivery.Spec
import Verif.Reverb.Props
import Verif.LateFilter.Props

/-!
# C65: the late reverberation filters in use are those of the scene
-/

namespace Visr.Delivery
open Visr
open Visr.Reverb (Late Obj)
open Visr.LateFilter (Realises)

variable {eps limit : ℝ} {positions : List (Rotation.Vec ℝ)} {regular : ℕ} {triplets : List (ℕ × ℕ × ℕ)} {is2D : Bool}
  {rerouting : ℕ → ℕ → ℝ} {n refl sections align : ℕ} {rc : Reverb.Cfg}
  {seconds fs : ℝ} {subBands maxUpdates : ℕ} {raw : ℕ → ℕ → ℝ} {lc : LateFilter.Cfg}

/-- The system after a history of scenes, some of which may have been rejected. -/
noncomputable def after (rc : Reverb.Cfg) (lc : LateFilter.Cfg) (history : List (List Obj)) : System :=
  final (period rc lc) (System.initial rc) history

theorem period_rev (rc : Reverb.Cfg) (lc : LateFilter.Cfg) (s : System) (scene : List Obj) :
    (period rc lc s scene).1.rev = (Reverb.process rc s.rev scene).1 := by
  unfold period
  split
  rename_i rev r h
  rw [h]
  cases r <;> rfl

theorem after_rev (rc : Reverb.Cfg) (lc : LateFilter.Cfg) (history : List (List Obj)) :
    (after rc lc history).rev = Reverb.after rc history := by
  unfold after Reverb.after
  have : ∀ s : System, (final (period rc lc) s history).rev = final (Reverb.process rc) s.rev history := by
    induction history with
    | nil => intro s; rfl
    | cons x xs ih => intro s; rw [final_cons, final_cons, ih, period_rev]
  exact this _

theorem after_append (rc : Reverb.Cfg) (lc : LateFilter.Cfg) (h : List (List Obj)) (scene : List Obj) :
    after rc lc (h ++ [scene]) = (period rc lc (after rc lc h) scene).1 := by
  unfold after; rw [final_append]; rfl

theorem rev_append (rc : Reverb.Cfg) (h : List (List Obj)) (scene : List Obj) :
    Reverb.after rc (h ++ [scene]) = (Reverb.process rc (Reverb.after rc h) scene).1 := by
  unfold Reverb.after; rw [final_append]; rfl

/-- Silence fits into every filter. -/
theorem silent_fits {len : ℕ} (h : 1 ≤ len) (fs : ℝ) : LateFilter.Fits len fs Late.silent 0 (fun _ => 0) := by
  refine ⟨?_, ?_, ?_, ?_, ?_⟩ <;> simp [Late.silent, LateFilter.Nearest]; omega

/-- Number of updates per period. -/
def updates (n maxUpdates : ℕ) : ℕ := if maxUpdates = 0 then n else maxUpdates

/-- All messages: those in the queue, and before them those whose filters have been sent. -/
structure Linked (align n : ℕ) (fs : ℝ) (raw : ℕ → ℕ → ℝ) (lc : LateFilter.Cfg) (s : System) : Prop where
  messages : ∀ m ∈ s.rev.sent, m.1 < n ∧ ∃ d a, LateFilter.Fits lc.len fs m.2 d a
  done : ∃ done, s.rev.sent = done ++ s.late.queue ∧ List.Forall₂ (Realises align lc.len fs raw) done s.late.sent

theorem sent_le {n : ℕ} {new : List (ℕ × Late)} (h1 : (new.map Prod.fst).Pairwise (· < ·)) (h2 : ∀ x ∈ new, x.1 < n) :
    new.length ≤ n := by
  have hn : (new.map Prod.fst).Nodup := h1.imp fun h => ne_of_lt h
  have : (new.map Prod.fst).Subperm (List.range n) := hn.subperm fun x hx => by
    obtain ⟨m, hm, rfl⟩ := List.mem_map.1 hx
    exact List.mem_range.2 (h2 m hm)
  simpa using this.length_le

theorem period_linked (hc : Reverb.setup eps limit positions regular triplets is2D rerouting n refl sections align = .ok rc)
    (hl : LateFilter.create n seconds fs subBands maxUpdates align raw = .ok lc) (h0 : 0 ≤ limit) (hn : 0 < n)
    {s : System} (hi : Reverb.Inv rc s.rev) (hs : Linked align n fs raw lc s) {scene : List Obj} (hv : Suitable lc.len fs scene) :
    let r := period rc lc s scene
    Reverb.Inv rc r.1.rev ∧ Linked align n fs raw lc r.1 ∧ r.2 = (Reverb.process rc s.rev scene).2 ∧
      ∃ new, r.1.rev.sent = s.rev.sent ++ new ∧ new.length ≤ n ∧
        (r.2 = .ok () → r.1.late.queue = (s.late.queue ++ new).drop (updates n maxUpdates)) ∧
        (r.2 ≠ .ok () → r.1.late.queue = s.late.queue ++ new) := by
  obtain ⟨s1, s2, s3, -, -, -, -, -⟩ := Reverb.setup_spec hc
  obtain ⟨l1, l2, l3, l4, l5, l6, ⟨l7, -⟩, -⟩ := LateFilter.create_spec hl
  intro r
  have call := Reverb.process_call s1 (s2 ▸ h0) hi hv.1
  obtain ⟨new, n1, n2, n3⟩ := call.sent
  have hnew : new.length ≤ n := sent_le n2 fun x hx => s3 ▸ (n3 x hx).1
  have hfit : ∀ m ∈ new, m.1 < n ∧ ∃ d a, LateFilter.Fits lc.len fs m.2 d a := by
    intro m hm
    obtain ⟨h1, -, h2⟩ := n3 m hm
    refine ⟨s3 ▸ h1, ?_⟩
    rw [h2]
    cases hw : Reverb.who scene (Reverb.process rc s.rev scene).1.alloc m.1 with
    | none => exact ⟨_, _, silent_fits l7 fs⟩
    | some o =>
      refine hv.2 o ?_
      unfold Reverb.who at hw
      split at hw
      · cases hw
      · exact List.mem_of_find?_eq_some hw
  have hall : ∀ m ∈ s.rev.sent ++ new, m.1 < n ∧ ∃ d a, LateFilter.Fits lc.len fs m.2 d a := by
    intro m hm
    rcases List.mem_append.1 hm with h | h
    · exact hs.messages m h
    · exact hfit m h
  obtain ⟨done, d1, d2⟩ := hs.done
  have hrev : r.1.rev = (Reverb.process rc s.rev scene).1 := period_rev rc lc s scene
  have hdrop : (Reverb.process rc s.rev scene).1.sent.drop s.rev.sent.length = new := by rw [n1]; simp
  refine ⟨hrev ▸ call.inv, ?_⟩
  have hr : r = period rc lc s scene := rfl
  clear_value r
  subst hr
  clear hrev
  unfold period
  generalize Reverb.process rc s.rev scene = x at *
  obtain ⟨rev, o⟩ := x
  simp only at n1 hdrop ⊢
  rw [hdrop]
  have bad : Linked align n fs raw lc ⟨rev, ⟨s.late.queue ++ new, s.late.sent⟩⟩ :=
    ⟨by rw [n1]; exact hall, done, by rw [n1, d1, List.append_assoc], d2⟩
  rcases o with ⟨⟩ | e | _
  · obtain ⟨sent, f1, f2⟩ := LateFilter.filters_sent hl hn ⟨s.late.queue ++ new, s.late.sent⟩ _ rfl (by
      intro m hm
      refine hall m ?_
      rw [d1, List.append_assoc]
      exact List.mem_append_right _ (List.mem_of_mem_take hm))
    simp only at f1 f2 ⊢
    rw [f1]
    refine ⟨⟨by simp only; rw [n1]; exact hall, done ++ (s.late.queue ++ new).take (updates n maxUpdates), ?_, ?_⟩, rfl, new, n1, hnew,
      fun _ => rfl, fun h => absurd rfl h⟩
    · simp only
      rw [n1, d1, List.append_assoc, List.append_assoc]
      congr 1
      exact (List.take_append_drop _ _).symm
    · exact List.rel_append d2 f2
  · exact ⟨bad, rfl, new, n1, hnew, fun h => (by cases h), fun _ => rfl⟩
  · exact ⟨bad, rfl, new, n1, hnew, fun h => (by cases h), fun _ => rfl⟩

theorem linked_after (hc : Reverb.setup eps limit positions regular triplets is2D rerouting n refl sections align = .ok rc)
    (hl : LateFilter.create n seconds fs subBands maxUpdates align raw = .ok lc) (h0 : 0 ≤ limit) (hn : 0 < n)
    {history : List (List Obj)} (hh : ∀ scene ∈ history, Suitable lc.len fs scene) :
    Reverb.Inv rc (after rc lc history).rev ∧ Linked align n fs raw lc (after rc lc history) := by
  unfold after
  suffices ∀ s : System, Reverb.Inv rc s.rev → Linked align n fs raw lc s →
      Reverb.Inv rc (final (period rc lc) s history).rev ∧ Linked align n fs raw lc (final (period rc lc) s history) from
    this _ (Reverb.inv_initial rc) ⟨by simp [System.initial, Reverb.State.initial], [], by
      simp [System.initial, Reverb.State.initial], .nil⟩
  induction history with
  | nil => exact fun s h1 h2 => ⟨h1, h2⟩
  | cons x xs ih =>
    intro s h1 h2
    obtain ⟨a, b, -⟩ := period_linked hc hl h0 hn h1 h2 (hh x (List.mem_cons_self ..))
    exact ih (fun y hy => hh y (List.mem_cons_of_mem _ hy)) _ a b

/-- The last filter is that of the last message. -/
theorem last_realised {len : ℕ} {msgs : List (ℕ × Late)} {sent : List (ℕ × List ℝ)} (h : List.Forall₂ (Realises align len fs raw) msgs sent)
    {ch : ℕ} {p : Late} (hp : Reverb.lastFor msgs ch = some p) :
    ∃ f, lastFilter sent ch = some f ∧ Realises align len fs raw (ch, p) (ch, f) := by
  unfold Reverb.lastFor at hp
  unfold lastFilter
  have hr : List.Forall₂ (Realises align len fs raw) msgs.reverse sent.reverse := List.rel_reverse h
  generalize msgs.reverse = ms at hr hp
  generalize sent.reverse = fl at hr
  induction hr with
  | nil => simp at hp
  | @cons m f ms fl hmf _ ih =>
    rw [List.find?_cons] at hp ⊢
    by_cases he : m.1 = ch
    · rw [show (m.1 == ch) = true by simp [he]] at hp
      rw [show (f.1 == ch) = true by simp [hmf.1, he]]
      simp only [Option.map_some, Option.some.injEq] at hp ⊢
      refine ⟨f.2, rfl, ?_⟩
      obtain ⟨m1, m2⟩ := m
      obtain ⟨f1, f2⟩ := f
      have := hmf.1
      simp only at he hp this
      subst this he hp
      exact hmf
    · rw [show (m.1 == ch) = false by simp [he]] at hp
      rw [show (f.1 == ch) = false by simp [hmf.1, he]]
      exact ih hp

theorem inUse_of {len : ℕ} {msgs : List (ℕ × Late)} {sent : List (ℕ × List ℝ)} (h : List.Forall₂ (Realises align len fs raw) msgs sent)
    {ch : ℕ} {late p : Late} (hp : Reverb.lastFor msgs ch = some p) (hcl : Reverb.Close limit p late) :
    InUse align len fs raw limit sent ch late := by
  obtain ⟨f, f1, -, f2, d, a, f3, f4⟩ := last_realised h hp
  refine ⟨p, d, a, hcl, f3, ?_⟩
  rw [f1, Option.some.injEq]
  refine List.ext_getElem (by simpa using f2) fun k h1 h2 => ?_
  rw [f4 k h1]
  simp

/-- An empty queue after an accepted scene means that the filters are those of the scene. -/
theorem empty_upToDate (hc : Reverb.setup eps limit positions regular triplets is2D rerouting n refl sections align = .ok rc)
    (hl : LateFilter.create n seconds fs subBands maxUpdates align raw = .ok lc) (h0 : 0 ≤ limit) (h1 : limit < 1) (hn : 0 < n)
    (hfs : 0 < fs) {history : List (List Obj)} (hh : ∀ scene ∈ history, Suitable lc.len fs scene) {scene : List Obj}
    (hv : Suitable lc.len fs scene) (hok : (Reverb.process rc (Reverb.after rc history) scene).2 = .ok ())
    (he : (after rc lc (history ++ [scene])).late.queue = []) :
    ∃ place, Reverb.Rendered rc (after rc lc (history ++ [scene])).rev scene place ∧
      UpToDate align lc.len n fs raw limit (after rc lc (history ++ [scene])).late.sent scene place := by
  obtain ⟨-, -, done, d1, d2⟩ := linked_after hc hl h0 hn (history := history ++ [scene]) (by
    intro x hx
    rcases List.mem_append.1 hx with h | h
    · exact hh x h
    · rw [List.mem_singleton] at h; exact h ▸ hv)
  rw [he, List.append_nil] at d1
  rw [← d1] at d2
  have hrev := after_rev rc lc (history ++ [scene])
  rw [rev_append] at hrev
  rw [hrev] at d2
  obtain ⟨place, p1, -, p2, p3⟩ := Reverb.late_messages hc h0 h1 history (fun x hx => (hh x hx).1) scene hv.1 (by
    intro o ho
    obtain ⟨d, a, hf⟩ := hv.2 o ho
    exact nonneg_of_mul_nonneg_left hf.onset hfs) hok
  rw [hrev]
  refine ⟨place, p1, ?_, ?_⟩
  · intro o ho
    obtain ⟨p, q1, q2⟩ := p2 o ho
    exact inUse_of d2 q1 q2
  · intro ch hch hno
    obtain ⟨p, q1, q2⟩ := p3 ch hch hno
    exact inUse_of d2 q1 q2

/-- **C65, prompt delivery.** If all objects may be updated in a period and no scene is rejected, the filters in use after every
period are those of the scene of that period. -/
theorem prompt_delivery (hc : Reverb.setup eps limit positions regular triplets is2D rerouting n refl sections align = .ok rc)
    (hl : LateFilter.create n seconds fs subBands maxUpdates align raw = .ok lc) (h0 : 0 ≤ limit) (h1 : limit < 1) (hn : 0 < n)
    (hfs : 0 < fs) (hu : maxUpdates = 0 ∨ n ≤ maxUpdates) (history : List (List Obj)) (scene : List Obj)
    (hh : ∀ x ∈ history ++ [scene], Suitable lc.len fs x)
    (hok : ∀ pre x post, history ++ [scene] = pre ++ x :: post → (period rc lc (after rc lc pre) x).2 = .ok ()) :
    ∃ place, Reverb.Rendered rc (after rc lc (history ++ [scene])).rev scene place ∧
      UpToDate align lc.len n fs raw limit (after rc lc (history ++ [scene])).late.sent scene place := by
  have hun : n ≤ updates n maxUpdates := by unfold updates; split <;> omega
  have key : ∀ pre post, history ++ [scene] = pre ++ post → (after rc lc pre).late.queue = [] := by
    intro pre
    induction pre using List.reverseRecOn with
    | nil => intro _ _; rfl
    | append_singleton pre x ih =>
      intro post hp
      rw [List.append_assoc, List.singleton_append] at hp
      obtain ⟨i1, i2⟩ := linked_after hc hl h0 hn (history := pre) (fun y hy => hh y (by rw [hp]; exact List.mem_append_left _ hy))
      obtain ⟨-, -, -, new, -, n2, n3, -⟩ := period_linked hc hl h0 hn i1 i2 (scene := x) (hh x (by rw [hp]; simp))
      rw [after_append, n3 (hok pre x post hp), ih _ hp, List.nil_append, List.drop_eq_nil_iff]
      omega
  have hs : (Reverb.process rc (Reverb.after rc history) scene).2 = .ok () := by
    have hhist : ∀ y ∈ history, Suitable lc.len fs y := fun y hy => hh y (List.mem_append_left _ hy)
    obtain ⟨i1, i2⟩ := linked_after hc hl h0 hn (history := history) hhist
    obtain ⟨-, -, e, -⟩ := period_linked hc hl h0 hn i1 i2 (scene := scene) (hh scene (by simp))
    rw [← after_rev rc lc, ← e]
    exact hok history scene [] rfl
  exact empty_upToDate hc hl h0 h1 hn hfs (fun y hy => hh y (List.mem_append_left _ hy)) (hh scene (by simp)) hs
    (key _ [] (by simp))

/-- **C65, eventual delivery.** After any history, if an acceptable scene stays for `k` periods and `k` times the number of updates
per period covers the messages in the queue and one for each channel, the filters in use are those of the scene. -/
theorem eventual_delivery (hc : Reverb.setup eps limit positions regular triplets is2D rerouting n refl sections align = .ok rc)
    (hl : LateFilter.create n seconds fs subBands maxUpdates align raw = .ok lc) (h0 : 0 ≤ limit) (h1 : limit < 1) (hn : 0 < n)
    (hfs : 0 < fs) (history : List (List Obj)) (hh : ∀ x ∈ history, Suitable lc.len fs x) (scene : List Obj)
    (hv : Suitable lc.len fs scene) (hok : (period rc lc (after rc lc history) scene).2 = .ok ()) (k : ℕ) (hk : 0 < k)
    (hb : (after rc lc history).late.queue.length + n ≤ k * (if maxUpdates = 0 then n else maxUpdates)) :
    ∃ place, Reverb.Rendered rc (after rc lc (history ++ List.replicate k scene)).rev scene place ∧
      UpToDate align lc.len n fs raw limit (after rc lc (history ++ List.replicate k scene)).late.sent scene place := by
  have hsuit : ∀ j, ∀ y ∈ history ++ List.replicate j scene, Suitable lc.len fs y := by
    intro j y hy
    rcases List.mem_append.1 hy with h | h
    · exact hh y h
    · rw [List.eq_of_mem_replicate h]; exact hv
  have hrep : ∀ j, history ++ List.replicate (j + 1) scene = (history ++ List.replicate j scene) ++ [scene] := by
    intro j; rw [List.replicate_succ', List.append_assoc]
  obtain ⟨i1, i2⟩ := linked_after hc hl h0 hn hh
  obtain ⟨-, -, e, new, n1, n2, n3, -⟩ := period_linked hc hl h0 hn i1 i2 hv
  have hok' : (Reverb.process rc (Reverb.after rc history) scene).2 = .ok () := by rw [← after_rev rc lc, ← e, hok]
  have key : ∀ j, (Reverb.process rc (Reverb.after rc (history ++ List.replicate j scene)) scene).2 = .ok () ∧
      (after rc lc (history ++ List.replicate (j + 1) scene)).late.queue.length ≤
        (after rc lc history).late.queue.length + n - (j + 1) * updates n maxUpdates := by
    intro j
    induction j with
    | zero =>
      refine ⟨by simpa using hok', ?_⟩
      rw [hrep, List.replicate_zero, List.append_nil, after_append, n3 hok, List.length_drop, List.length_append]
      omega
    | succ j ih =>
      obtain ⟨u1, u2⟩ := Reverb.unchanged_scene_silent hc h0 (history ++ List.replicate j scene) (fun y hy => (hsuit j y hy).1) scene hv.1 ih.1
      rw [← rev_append, ← hrep] at u1 u2
      refine ⟨u1, ?_⟩
      obtain ⟨a1, a2⟩ := linked_after hc hl h0 hn (hsuit (j + 1))
      obtain ⟨-, -, e', new', m1, m2, m3, -⟩ := period_linked hc hl h0 hn a1 a2 hv
      have hz : new' = [] := by
        rw [period_rev, after_rev, u2] at m1
        simpa using m1
      have hok2 : (period rc lc (after rc lc (history ++ List.replicate (j + 1) scene)) scene).2 = .ok () := by
        rw [e', after_rev, u1]
      rw [hrep (j + 1), after_append, m3 hok2, hz, List.append_nil, List.length_drop]
      have := ih.2
      rw [show (j + 1 + 1) * updates n maxUpdates = (j + 1) * updates n maxUpdates + updates n maxUpdates by ring]
      omega
  obtain ⟨j, rfl⟩ : ∃ j, k = j + 1 := ⟨k - 1, by omega⟩
  have he : (after rc lc (history ++ List.replicate (j + 1) scene)).late.queue = [] := by
    apply List.length_eq_zero_iff.1
    have h2 := (key j).2
    have h3 : updates n maxUpdates = (if maxUpdates = 0 then n else maxUpdates) := rfl
    rw [h3] at h2
    omega
  rw [hrep] at he ⊢
  exact empty_upToDate hc hl h0 h1 hn hfs (hsuit j) hv (key j).1 he

/-! ### Fewer updates than objects -/

/-- Late reverberation with all levels `x`, without onset delay and attack. -/
def flatLate (x : ℝ) : Late := ⟨0, fun _ => x, fun _ => 0, fun _ => 0⟩

/-- `n` reverb objects with the same late reverberation. -/
def crowd (n : ℕ) (x : ℝ) : List Obj := (List.range n).map fun i => ⟨i, [i], true, [], flatLate x⟩

/-- The levels are 1 in all even periods and 3 in all odd ones. -/
noncomputable def alternating (n : ℕ) : ℕ → List (List Obj)
  | 0 => []
  | k + 1 => alternating n k ++ [crowd n (if k % 2 = 0 then 1 else 3)]

theorem crowd_objects (n : ℕ) (x : ℝ) : Reverb.reverbObjects (crowd n x) = crowd n x := by
  unfold Reverb.reverbObjects
  rw [List.filter_eq_self]
  intro o ho
  obtain ⟨i, -, rfl⟩ := List.mem_map.1 ho
  simp

theorem crowd_suitable {len : ℕ} (hn : n < 2 ^ 32 - 1) (hl : 1 ≤ len) (x : ℝ) : Suitable len fs (crowd n x) := by
  refine ⟨⟨?_, ?_⟩, ?_⟩
  · have : (crowd n x).map Obj.id = List.range n := by simp [crowd, Function.comp_def]
    rw [this]; exact List.nodup_range
  · intro o ho
    obtain ⟨i, hi, rfl⟩ := List.mem_map.1 ho
    have := List.mem_range.1 hi
    simp only
    omega
  · intro o ho
    obtain ⟨i, hi, rfl⟩ := List.mem_map.1 ho
    refine ⟨0, fun _ => 0, ?_, ?_, ?_, ?_, ?_⟩ <;> simp [flatLate, LateFilter.Nearest]; omega

theorem mem_alternating {k : ℕ} {x : List Obj} (h : x ∈ alternating n k) : ∃ l, x = crowd n l := by
  induction k with
  | zero => simp [alternating] at h
  | succ k ih =>
    rcases List.mem_append.1 h with h | h
    · exact ih h
    · exact ⟨_, List.mem_singleton.1 h⟩

/-- A crowd is accepted, and then every channel has a last message with its levels. -/
theorem crowd_messages (hc : Reverb.setup eps limit positions regular triplets is2D rerouting n refl sections align = .ok rc)
    (h0 : 0 ≤ limit) (h1 : limit < 1) (hn : n < 2 ^ 32 - 1) (history : List (List Obj)) (hh : ∀ x ∈ history, Reverb.ValidIds x) (l : ℝ) :
    (Reverb.process rc (Reverb.after rc history) (crowd n l)).2 = .ok () ∧
    ∀ ch < n, ∃ p, Reverb.lastFor (Reverb.process rc (Reverb.after rc history) (crowd n l)).1.sent ch = some p ∧ |p.levels 0 - l| ≤ limit := by
  have hv : Reverb.ValidIds (crowd n l) := (crowd_suitable (fs := 1) (len := 1) hn (le_refl _) l).1
  have hlen : (Reverb.reverbObjects (crowd n l)).length = n := by rw [crowd_objects]; simp [crowd]
  have hok : (Reverb.process rc (Reverb.after rc history) (crowd n l)).2 = .ok () := by
    refine ((Reverb.scene_rendered_partial hc h0 history hh _ hv).2.1 (by omega)).1.2 fun o ho => ?_
    rw [crowd_objects] at ho
    obtain ⟨i, hi, rfl⟩ := List.mem_map.1 ho
    exact ⟨by simp, fun r hr => by simp at hr⟩
  refine ⟨hok, fun ch hch => ?_⟩
  obtain ⟨place, p1, -, p2, -⟩ := Reverb.late_messages hc h0 h1 history hh (crowd n l) hv (by
    intro o ho
    obtain ⟨i, hi, rfl⟩ := List.mem_map.1 ho
    exact le_refl _) hok
  have hmem : ∀ i < n, (⟨i, [i], true, [], flatLate l⟩ : Obj) ∈ Reverb.reverbObjects (crowd n l) := by
    intro i hi
    rw [crowd_objects]
    exact List.mem_map.2 ⟨i, List.mem_range.2 hi, rfl⟩
  obtain ⟨-, -, s3, -⟩ := Reverb.setup_spec hc
  have hsub : (Finset.range n).image place ⊆ Finset.range n := by
    intro c hcm
    obtain ⟨i, hi, rfl⟩ := Finset.mem_image.1 hcm
    exact Finset.mem_range.2 (s3 ▸ p1.range _ (hmem i (Finset.mem_range.1 hi)))
  have hcard : ((Finset.range n).image place).card = n := by
    rw [Finset.card_image_of_injOn, Finset.card_range]
    intro i hi j hj hij
    have := p1.injective _ (hmem i (by simpa using hi)) _ (hmem j (by simpa using hj)) hij
    simpa using congrArg Obj.id this
  have heq := Finset.eq_of_subset_of_card_le hsub (by rw [hcard, Finset.card_range])
  have : ch ∈ (Finset.range n).image place := by rw [heq]; exact Finset.mem_range.2 hch
  obtain ⟨i, hi, rfl⟩ := Finset.mem_image.1 this
  obtain ⟨p, q1, q2⟩ := p2 _ (hmem i (Finset.mem_range.1 hi))
  exact ⟨p, q1, (q2.2 0).1⟩

/-- **C65 has no bound on the delay** if fewer filters are updated per period than there are objects (the renderer sets one
update per period by default): there are scenes, all accepted, for which the queue grows without limit, so that
the filters in use lag behind by ever more periods. -/
theorem backlog_grows (hc : Reverb.setup eps limit positions regular triplets is2D rerouting n refl sections align = .ok rc)
    (hl : LateFilter.create n seconds fs subBands maxUpdates align raw = .ok lc) (h0 : 0 ≤ limit) (h1 : limit < 1)
    (hu : maxUpdates ≠ 0) (hlt : maxUpdates < n) (hn : n < 2 ^ 32 - 1) (k : ℕ) :
    (∀ x ∈ alternating n k, Suitable lc.len fs x) ∧
    (∀ pre x post, alternating n k = pre ++ x :: post → (period rc lc (after rc lc pre) x).2 = .ok ()) ∧
    (after rc lc (alternating n k)).late.queue.length = k * (n - maxUpdates) := by
  have hn0 : 0 < n := by omega
  obtain ⟨-, -, -, -, -, -, ⟨l7, -⟩, -⟩ := LateFilter.create_spec hl
  have hsuit : ∀ j, ∀ x ∈ alternating n j, Suitable lc.len fs x := by
    intro j x hx
    obtain ⟨l, rfl⟩ := mem_alternating hx
    exact crowd_suitable hn l7 l
  refine ⟨hsuit k, ?_, ?_⟩
  · intro pre x post hp
    have hpre : ∀ y ∈ pre, Suitable lc.len fs y := fun y hy => hsuit k y (by rw [hp]; exact List.mem_append_left _ hy)
    have hx : x ∈ alternating n k := by rw [hp]; simp
    obtain ⟨i1, i2⟩ := linked_after hc hl h0 hn0 hpre
    obtain ⟨-, -, e, -⟩ := period_linked hc hl h0 hn0 i1 i2 (hsuit k x hx)
    obtain ⟨l, rfl⟩ := mem_alternating hx
    rw [e, after_rev]
    exact (crowd_messages hc h0 h1 hn pre (fun y hy => (hpre y hy).1) l).1
  · have key : ∀ j, (after rc lc (alternating n j)).late.queue.length = j * (n - maxUpdates) ∧
        ∀ ch < n, ∀ p, Reverb.lastFor (Reverb.after rc (alternating n j)).sent ch = some p →
          |p.levels 0 - (if j % 2 = 0 then 3 else 1)| ≤ limit := by
      intro j
      induction j with
      | zero =>
        refine ⟨by simp [alternating, after, System.initial], fun ch _ p hp => ?_⟩
        exfalso
        simp [alternating, Reverb.after, Reverb.State.initial, Reverb.lastFor] at hp
      | succ j ih =>
        obtain ⟨i1, i2⟩ := linked_after hc hl h0 hn0 (hsuit j)
        obtain ⟨-, -, e, new, n1, n2, n3, -⟩ := period_linked hc hl h0 hn0 i1 i2
          (crowd_suitable (fs := fs) hn l7 (if j % 2 = 0 then 1 else 3))
        obtain ⟨m1, m2⟩ := crowd_messages hc h0 h1 hn (alternating n j) (fun y hy => (hsuit j y hy).1) (if j % 2 = 0 then 1 else 3)
        rw [after_rev] at e
        rw [period_rev, after_rev] at n1
        rw [m1] at e
        have hall : ∀ ch < n, ch ∈ new.map Prod.fst := by
          intro ch hch
          by_contra hno
          obtain ⟨p, p1, p2⟩ := m2 ch hch
          rw [n1, Reverb.lastFor_append] at p1
          have hz : Reverb.lastFor new ch = none := by
            unfold Reverb.lastFor
            rw [List.find?_eq_none.2]
            · rfl
            · intro x hx hxe
              exact hno (List.mem_map.2 ⟨x, by simpa using hx, by simpa using hxe⟩)
          rw [hz, Option.none_or] at p1
          have p3 := ih.2 ch hch p p1
          rw [abs_le] at p2 p3
          obtain ⟨a1, a2⟩ := p2
          obtain ⟨b1, b2⟩ := p3
          split at a1 <;> simp_all <;> linarith
        have hge : n ≤ new.length := by
          have : (List.range n).Subperm (new.map Prod.fst) := List.nodup_range.subperm fun x hx => hall x (List.mem_range.1 hx)
          simpa using this.length_le
        refine ⟨?_, ?_⟩
        · rw [alternating, after_append, n3 e, List.length_drop, List.length_append, ih.1]
          have : updates n maxUpdates = maxUpdates := by unfold updates; rw [if_neg hu]
          rw [this, Nat.add_mul, Nat.one_mul]
          omega
        · intro ch hch p hp
          obtain ⟨q, q1, q2⟩ := m2 ch hch
          rw [alternating, rev_append, q1] at hp
          cases hp
          have : (if (j + 1) % 2 = 0 then (3 : ℝ) else 1) = if j % 2 = 0 then 1 else 3 := by
            rcases Nat.mod_two_eq_zero_or_one j with h | h
            · rw [if_neg (by omega), if_pos h]
            · rw [if_pos (by omega), if_neg (by omega)]
          rw [this]
          exact q2
    exact (key k).1

/-! ### Concrete cases -/

/-- A renderer for two objects, with one update per period: the scene with levels 1 reaches the filters after two periods. -/
example : ∃ rc lc place, UpToDate 4 48 2 48 (fun _ _ => 0) (1 / 1000) (after rc lc [crowd 2 1, crowd 2 1]).late.sent (crowd 2 1) place := by
  obtain ⟨rc, hc⟩ := Reverb.demo_setup
  have hl := LateFilter.demo_create fun _ _ => 0
  have hs : Suitable 48 (48 : ℝ) (crowd 2 1) := crowd_suitable (by norm_num) (by norm_num) 1
  obtain ⟨place, -, h⟩ := eventual_delivery hc hl (by norm_num) (by norm_num) (by norm_num) (by norm_num) [] (by simp) (crowd 2 1) hs (by
    obtain ⟨-, h, -⟩ := backlog_grows hc hl (by norm_num) (by norm_num) (by norm_num) (by norm_num) (by norm_num) 1
    exact h [] _ [] rfl) 2 (by norm_num) (by simp [after, System.initial])
  exact ⟨rc, _, place, h⟩

/-- With two updates per period it does at once. -/
example : ∃ rc lc place, UpToDate 4 lc.len 2 48 (fun _ _ => 0) (1 / 1000) (after rc lc [crowd 2 1]).late.sent (crowd 2 1) place := by
  obtain ⟨rc, hc⟩ := Reverb.demo_setup
  have hl : LateFilter.create 2 1 48 9 0 4 (fun _ _ => 0) = .ok ⟨2, 48, 2, 48, LateFilter.noiseRow 4 48 fun _ _ => 0⟩ := by
    have := LateFilter.demo_create fun _ _ => 0
    unfold LateFilter.create LateFilter.demoCfg at *
    simp_all
  have hs : Suitable 48 (48 : ℝ) (crowd 2 1) := crowd_suitable (by norm_num) (by norm_num) 1
  obtain ⟨place, -, h⟩ := prompt_delivery hc hl (by norm_num) (by norm_num) (by norm_num) (by norm_num) (.inl rfl) [] (crowd 2 1)
    (by intro x hx; simp only [List.nil_append, List.mem_singleton] at hx; subst hx; exact hs) (by
      intro pre x post hp
      obtain ⟨rfl, rfl, rfl⟩ : pre = [] ∧ x = crowd 2 1 ∧ post = [] := by
        cases pre with
        | nil => simpa [eq_comm] using hp
        | cons a as => simp at hp
      obtain ⟨i1, i2⟩ := linked_after hc hl (by norm_num) (by norm_num) (history := []) (by simp)
      obtain ⟨-, -, e, -⟩ := period_linked hc hl (by norm_num) (by norm_num) i1 i2 hs
      rw [e, after_rev]
      exact (crowd_messages hc (by norm_num) (by norm_num) (by norm_num) [] (by simp) 1).1)
  exact ⟨rc, _, place, h⟩

end Visr.Delivery
