import Verif.SceneLink.Spec
import Mathlib.Data.List.Induction
import Mathlib.Data.List.Forall2

/-!
# C100: scenes sent to another program
-/

namespace Visr.SceneLink

open Visr Visr.ObjectVector Visr.Encode Visr.Decoder

variable {K B : Type} [DecidableEq K]

set_option linter.unusedSectionVars false

/-- A message that carries a scene. -/
def Carries (ctx : Ctx K B) (v : SceneOf K B) (m : Msg K B) : Prop :=
  ∀ w, (∀ p ∈ w, Plain ctx.env p) → updateObjectVector ctx.env m w = (.ok (), v.foldl ObjectVector.insert w)

theorem carries_encode (ctx : Ctx K B) (hctx : ctx.Good) {v : SceneOf K B} (he : ∀ o ∈ v, Encodable ctx o) :
    ∃ m, encodeObjectVector ctx v = .ok m ∧ Carries ctx v m := by
  obtain ⟨ts, h1, h2⟩ := writeObjects_ok ctx hctx v he
  exact ⟨some (some ts), by simp only [encodeObjectVector, h1, Outcome.ok_bind],
    fun w hw => updateLoop_write ctx hctx v ts he h2 w hw⟩

/-- Everything in a scene was sent. -/
structure Known (ctx : Ctx K B) (vs : List (SceneOf K B)) (w : SceneOf K B) : Prop where
  sent : ∀ o ∈ w, ∃ v ∈ vs, o ∈ v
  plain : ∀ o ∈ w, Plain ctx.env o
  ascending : Ascending w

theorem mem_foldl {v : SceneOf K B} : ∀ {w : SceneOf K B} {o : Object K B}, o ∈ v.foldl ObjectVector.insert w → o ∈ v ∨ o ∈ w := by
  induction v with
  | nil => intro w o h; exact Or.inr h
  | cons x v ih =>
    intro w o h
    rcases ih h with h | h
    · exact Or.inl (List.mem_cons_of_mem _ h)
    · rcases mem_insert h with rfl | h
      · exact Or.inl List.mem_cons_self
      · exact Or.inr h

theorem known_foldl {ctx : Ctx K B} {vs : List (SceneOf K B)} {v w : SceneOf K B} (hv : v ∈ vs)
    (he : ∀ o ∈ v, Encodable ctx o) (h : Known ctx vs w) : Known ctx vs (v.foldl ObjectVector.insert w) where
  sent o ho := by
    rcases mem_foldl ho with ho | ho
    · exact ⟨v, hv, ho⟩
    · exact h.sent o ho
  plain o ho := by
    rcases mem_foldl ho with ho | ho
    · exact (he o ho).plain
    · exact h.plain o ho
  ascending := ascending_foldl v w h.ascending

/-- The scenes applied one after the other. -/
def applied (us : List (SceneOf K B)) (w : SceneOf K B) : SceneOf K B :=
  us.foldl (fun w v => v.foldl ObjectVector.insert w) w

theorem loop_carries {ctx : Ctx K B} {vs : List (SceneOf K B)} (hvs : ∀ v ∈ vs, ∀ o ∈ v, Encodable ctx o) (obj : Bool) :
    ∀ {us : List (SceneOf K B)} {ms : List (Msg K B)} {s : Scene K (List (Section K)) (Room K B) Label},
      List.Forall₂ (Carries ctx) us ms → (∀ u ∈ us, u ∈ vs) → Known ctx vs (s.buf obj) → s.queue = ms →
      ∃ s', Scene.loop ctx.env obj ms s = (.ok (), s') ∧ s'.queue = [] ∧ s'.buf obj = applied us (s.buf obj) ∧
        Known ctx vs (s'.buf obj) ∧ s'.buf (!obj) = s.buf (!obj) ∧ s'.front = (if us.length % 2 = 0 then s.front else !s.front) := by
  intro us
  induction us with
  | nil =>
    intro ms s h _ hk hq
    cases h
    exact ⟨s, rfl, hq, rfl, hk, rfl, rfl⟩
  | cons u us ih =>
    intro ms s h hu hk hq
    cases h with
    | @cons _ m _ ms hm hms =>
      have h1 := hm (s.buf obj) hk.plain
      unfold Scene.loop
      rw [h1]
      dsimp only
      obtain ⟨s', e1, e2, e3, e4, e5, e6⟩ := ih
        (s := { buf := fun b => if b = obj then u.foldl ObjectVector.insert (s.buf obj) else s.buf b, front := !s.front,
                queue := ms, changed := true })
        hms (fun x hx => hu x (List.mem_cons_of_mem _ hx))
        (by
          simp only [if_true]
          exact known_foldl (hu u List.mem_cons_self) (hvs u (hu u List.mem_cons_self)) hk) rfl
      refine ⟨s', e1, e2, ?_, e4, ?_, ?_⟩
      · rw [e3]; simp [applied]
      · rw [e5]; cases obj <;> simp
      · rw [e6]
        dsimp only [List.length_cons]
        by_cases hl : us.length % 2 = 0
        · rw [if_pos hl, if_neg (by omega)]
        · rw [if_neg hl, if_pos (by omega), Bool.not_not]

/-- What holds between the two programs at every time. -/
structure Inv (ctx : Ctx K B) (vs : List (SceneOf K B)) (l : Link K B) : Prop where
  sent : List.Forall₂ (Carries ctx) vs l.sent
  queue : l.receiver.queue = []
  known : ∀ b, Known ctx vs (l.receiver.buf b)

theorem inv_init (ctx : Ctx K B) : Inv ctx [] init where
  sent := .nil
  queue := rfl
  known b := ⟨fun o ho => by simp [init, Scene.init] at ho, fun o ho => by simp [init, Scene.init] at ho, .nil⟩

theorem inv_send {ctx : Ctx K B} (hctx : ctx.Good) {vs : List (SceneOf K B)} {l : Link K B} (h : Inv ctx vs l)
    {v : SceneOf K B} (he : ∀ o ∈ v, Encodable ctx o) :
    ∃ l', encode ctx l v = .ok l' ∧ Inv ctx (vs ++ [v]) l' ∧ l'.receiver = l.receiver := by
  obtain ⟨m, h1, h2⟩ := carries_encode ctx hctx he
  refine ⟨{ l with sent := l.sent ++ [m] }, by unfold encode; rw [h1], ?_, rfl⟩
  refine ⟨List.rel_append h.sent (.cons h2 .nil), h.queue, fun b => ?_⟩
  have := h.known b
  exact ⟨fun o ho => by
    obtain ⟨x, hx, hox⟩ := this.sent o ho
    exact ⟨x, List.mem_append_left _ hx, hox⟩, this.plain, this.ascending⟩

theorem arrived {ctx : Ctx K B} {vs : List (SceneOf K B)} {ms : List (Msg K B)} (h : List.Forall₂ (Carries ctx) vs ms)
    (ks : List Nat) : List.Forall₂ (Carries ctx) (ks.filterMap fun k => vs[k]?) (ks.filterMap fun k => ms[k]?) := by
  induction ks with
  | nil => exact .nil
  | cons k ks ih =>
    have hl := h.length_eq
    by_cases hk : k < vs.length
    · have hk' : k < ms.length := by omega
      simp only [List.filterMap_cons, List.getElem?_eq_getElem hk, List.getElem?_eq_getElem hk']
      exact .cons (h.get hk hk') ih
    · simp only [List.filterMap_cons, List.getElem?_eq_none (by omega : vs.length ≤ k),
        List.getElem?_eq_none (by omega : ms.length ≤ k)]
      exact ih

theorem filterMap_mem {vs : List (SceneOf K B)} {ks : List Nat} {u : SceneOf K B}
    (h : u ∈ ks.filterMap fun k => vs[k]?) : u ∈ vs := by
  obtain ⟨k, -, hk⟩ := List.mem_filterMap.1 h
  exact List.mem_of_getElem? hk

theorem receive_foldl' {s : Scene K (List (Section K)) (Room K B) Label} (ms : List (Msg K B)) :
    ms.foldl Scene.receive s = { s with queue := s.queue ++ ms } := by
  induction ms generalizing s with
  | nil => simp
  | cons m ms ih => rw [List.foldl_cons, ih]; simp [Scene.receive]

/-- One block of the receiver, in terms of the scenes. -/
theorem inv_receive {ctx : Ctx K B} {vs : List (SceneOf K B)} (hvs : ∀ v ∈ vs, ∀ o ∈ v, Encodable ctx o) {l : Link K B}
    (h : Inv ctx vs l) (ks : List Nat) :
    ∃ l', decode ctx l ks = .ok l' ∧ Inv ctx vs l' ∧
      (if (ks.filterMap fun k => vs[k]?).length % 2 = 0 then
        l'.receiver.seen = l.receiver.seen ∧
          l'.receiver.buf l'.receiver.front = applied (ks.filterMap fun k => vs[k]?) (l.receiver.buf l.receiver.front)
      else l'.receiver.seen = applied (ks.filterMap fun k => vs[k]?) (l.receiver.buf l.receiver.front) ∧
          l'.receiver.buf l'.receiver.front = l.receiver.seen) := by
  obtain ⟨s', e1, e2, e3, e4, e5, e6⟩ := loop_carries hvs l.receiver.front
    (s := { l.receiver with queue := ks.filterMap fun k => l.sent[k]? }) (arrived h.sent ks)
    (fun u hu => filterMap_mem hu) (h.known _) rfl
  refine ⟨{ l with receiver := s' }, ?_, ⟨h.sent, e2, fun b => ?_⟩, ?_⟩
  · unfold decode Scene.period Scene.process
    rw [receive_foldl', h.queue, List.nil_append, e1]
  · by_cases hb : b = l.receiver.front
    · rw [hb]; exact e4
    · have : b = !l.receiver.front := by cases b <;> cases hf : l.receiver.front <;> simp_all
      rw [this]
      show Known ctx vs (s'.buf (!l.receiver.front))
      rw [e5]
      exact h.known _
  · dsimp only at e3 e5 e6 ⊢
    split_ifs at e6 ⊢ with hl
    · unfold Scene.seen
      rw [e6]
      exact ⟨e5, e3⟩
    · unfold Scene.seen
      rw [e6, Bool.not_not]
      exact ⟨e3, e5⟩

theorem run_append (ctx : Ctx K B) (l : Link K B) (as bs : List (Act K B)) :
    run ctx l (as ++ bs) = match run ctx l as with
      | .ok l' => run ctx l' bs
      | .throw e => .throw e
      | .ub => .ub := by
  induction as generalizing l with
  | nil => rfl
  | cons a as ih =>
    simp only [List.cons_append, run]
    cases step ctx l a with
    | ok l' => exact ih l'
    | throw e => rfl
    | ub => rfl

theorem scenes_append (as bs : List (Act K B)) : scenes (as ++ bs) = scenes as ++ scenes bs := by
  induction as with
  | nil => rfl
  | cons a as ih => cases a <;> simp [scenes, ih]

theorem inv_run {ctx : Ctx K B} (hctx : ctx.Good) (acts : List (Act K B)) (hs : Sendable ctx acts) :
    ∃ l, run ctx init acts = .ok l ∧ Inv ctx (scenes acts) l := by
  induction acts using List.reverseRecOn with
  | nil => exact ⟨init, rfl, inv_init ctx⟩
  | append_singleton as a ih =>
    have hs' : Sendable ctx as := fun v hv => hs v (by rw [scenes_append]; exact List.mem_append_left _ hv)
    obtain ⟨l, h1, h2⟩ := ih hs'
    rw [run_append, h1]
    cases a with
    | send v =>
      obtain ⟨l', e1, e2, -⟩ := inv_send hctx h2 (v := v)
        (hs v (by rw [scenes_append]; exact List.mem_append_right _ (by simp [scenes]))).2
      exact ⟨l', by simp only [run, step, e1], by rw [scenes_append]; exact e2⟩
    | receive ks =>
      obtain ⟨l', e1, e2, -⟩ := inv_receive (fun v hv => (hs' v hv).2) h2 ks
      refine ⟨l', by simp only [run, step, e1], ?_⟩
      rw [scenes_append]
      simpa [scenes] using e2

/-! ## The properties -/

/-- **C100.** Whatever the network does, neither program fails, all messages that arrive are used up, and each object that
the receiver shows is an object as it was in one of the sent scenes: objects are never mixed or invented, and at most one
object is shown for each number. -/
theorem only_sent_objects {ctx : Ctx K B} (hctx : ctx.Good) {acts : List (Act K B)} (hs : Sendable ctx acts) :
    ∃ l, run ctx init acts = .ok l ∧ l.receiver.queue = [] ∧ Ascending l.receiver.seen ∧
      ∀ o ∈ l.receiver.seen, ∃ v ∈ scenes acts, o ∈ v := by
  obtain ⟨l, h1, h2⟩ := inv_run hctx acts hs
  exact ⟨l, h1, h2.queue, (h2.known _).ascending, (h2.known _).sent⟩

theorem find_applied {us : List (SceneOf K B)} {v w : SceneOf K B} (hv : Ascending v) {o : Object K B} (ho : o ∈ v) :
    find (applied (us ++ [v]) w) o.id = some o := by
  unfold applied
  rw [List.foldl_append, List.foldl_cons, List.foldl_nil, find_foldl _ _ hv]
  have : find v o.id = some o := by
    induction v with
    | nil => cases ho
    | cons x v ih =>
      rw [Ascending, List.pairwise_cons] at hv
      rw [find_cons]
      rcases List.mem_cons.1 ho with rfl | ho
      · rw [if_pos rfl]
      · rw [if_neg (by have := hv.1 o ho; omega)]
        exact ih hv.2 ho
  rw [this]
  rfl

/-- **C100.** After a block in which a message arrived, the receiver shows all objects of its scene exactly as they were
sent. (Partial: the number of messages that arrived in the block has to be odd, and the message is the last of them.) -/
theorem scene_shown_partial {ctx : Ctx K B} (hctx : ctx.Good) {acts : List (Act K B)} (hs : Sendable ctx acts)
    {ks : List Nat} {k : Nat} (hks : ∀ i ∈ ks, i < (scenes acts).length) (hodd : (ks ++ [k]).length % 2 = 1)
    {v : SceneOf K B} (hk : (scenes acts)[k]? = some v) :
    ∃ l, run ctx init (acts ++ [.receive (ks ++ [k])]) = .ok l ∧ ∀ o ∈ v, find l.receiver.seen o.id = some o := by
  obtain ⟨l, h1, h2⟩ := inv_run hctx acts hs
  obtain ⟨l', e1, -, e3⟩ := inv_receive (fun v hv => (hs v hv).2) h2 (ks ++ [k])
  refine ⟨l', by rw [run_append, h1]; simp only [run, step, e1], fun o ho => ?_⟩
  have hlen : (ks.filterMap fun k => (scenes acts)[k]?).length = ks.length := by
    clear hodd e1 e3
    induction ks with
    | nil => rfl
    | cons i ks ih =>
      rw [List.filterMap_cons, List.getElem?_eq_getElem (hks i List.mem_cons_self)]
      simp [ih fun j hj => hks j (List.mem_cons_of_mem _ hj)]
  have he : ((ks ++ [k]).filterMap fun k => (scenes acts)[k]?) = (ks.filterMap fun k => (scenes acts)[k]?) ++ [v] := by
    rw [List.filterMap_append]; simp [hk]
  rw [he, if_neg (by rw [List.length_append, hlen]; simp at hodd ⊢; omega)] at e3
  rw [e3.1]
  exact find_applied (hs v (List.mem_of_getElem? hk)).1 ho

/-- **C100 (negation, two messages).** If an even number of messages arrives in a block, the receiver shows the same as
before. -/
theorem even_arrivals_invisible {ctx : Ctx K B} (hctx : ctx.Good) {acts : List (Act K B)} (hs : Sendable ctx acts)
    {ks : List Nat} (hks : (ks.filterMap fun k => (scenes acts)[k]?).length % 2 = 0) :
    ∃ l l', run ctx init acts = .ok l ∧ run ctx init (acts ++ [.receive ks]) = .ok l' ∧
      l'.receiver.seen = l.receiver.seen := by
  obtain ⟨l, h1, h2⟩ := inv_run hctx acts hs
  obtain ⟨l', e1, -, e3⟩ := inv_receive (fun v hv => (hs v hv).2) h2 ks
  rw [if_pos hks] at e3
  exact ⟨l, l', h1, by rw [run_append, h1]; simp only [run, step, e1], e3.1⟩

/-- A sender that sends a scene with an object `o` once, and then, in each block, a scene `v`; each message arrives in the
next block of the receiver. -/
def removal (o : Object K B) (v : SceneOf K B) : Nat → List (Act K B)
  | 0 => [.send [o], .receive [0]]
  | n + 1 => removal o v n ++ [.send v, .receive [n + 1]]

theorem removal_scenes (o : Object K B) (v : SceneOf K B) (n : Nat) : scenes (removal o v n) = [o] :: List.replicate n v := by
  induction n with
  | zero => rfl
  | succ n ih =>
    unfold removal
    rw [scenes_append, ih]
    simp [scenes, List.replicate_succ']

/-- **C100 (negation, removed objects).** An object that the sender has removed is never removed from the receiver: although
no message mentions it any more, it is shown again after every second message, without end. -/
theorem removed_object_returns {ctx : Ctx K B} (hctx : ctx.Good) {o : Object K B} {v : SceneOf K B}
    (ho : Encodable ctx o) (hv : Ascending v) (he : ∀ p ∈ v, Encodable ctx p) (hn : ∀ p ∈ v, p.id ≠ o.id) (n : Nat) :
    ∃ l, run ctx init (removal o v n) = .ok l ∧
      find l.receiver.seen o.id = (if n % 2 = 0 then some o else none) := by
  have hs : ∀ n, Sendable ctx (removal o v n) := by
    intro n u hu
    rw [removal_scenes] at hu
    rcases List.mem_cons.1 hu with rfl | hu
    · exact ⟨by simp [Ascending], by simpa using ho⟩
    · rw [List.eq_of_mem_replicate hu]
      exact ⟨hv, he⟩
  have hnone : find v o.id = none := by
    rw [find, List.find?_eq_none]
    intro p hp
    simpa using hn p hp
  suffices H : ∃ l, run ctx init (removal o v n) = .ok l ∧
      find l.receiver.seen o.id = (if n % 2 = 0 then some o else none) ∧
      find (l.receiver.buf l.receiver.front) o.id = (if n % 2 = 0 then none else some o) by
    obtain ⟨l, h1, h2, -⟩ := H
    exact ⟨l, h1, h2⟩
  induction n with
  | zero =>
    have hvs : ∀ u ∈ [[o]], ∀ p ∈ u, Encodable ctx p := by
      intro u hu p hp
      rw [List.mem_singleton.1 hu] at hp
      rw [List.mem_singleton.1 hp]
      exact ho
    obtain ⟨l, h1, h2, h2r⟩ := inv_send hctx (inv_init ctx) (v := [o]) (by simpa using ho)
    obtain ⟨l', e1, -, e3⟩ := inv_receive (vs := [[o]]) hvs h2 [0]
    refine ⟨l', by simp only [removal, run, step, h1, e1], ?_⟩
    rw [if_neg (by simp)] at e3
    rw [e3.1, e3.2, h2r]
    refine ⟨?_, rfl⟩
    simp only [applied, List.filterMap_cons, List.getElem?_cons_zero, List.filterMap_nil, List.foldl_cons, List.foldl_nil]
    rw [find_insert]
    simp
  | succ n ih =>
    obtain ⟨l, h1, h2, h3⟩ := ih
    obtain ⟨l0, h0, hi⟩ := inv_run hctx _ (hs n)
    rw [h1] at h0
    cases h0
    obtain ⟨l1, a1, a2, a3⟩ := inv_send hctx hi he
    have hvs : ∀ u ∈ scenes (removal o v n) ++ [v], ∀ p ∈ u, Encodable ctx p := by
      intro u hu
      rcases List.mem_append.1 hu with hu | hu
      · exact (hs n u hu).2
      · rw [List.mem_singleton.1 hu]; exact he
    obtain ⟨l2, b1, -, b3⟩ := inv_receive hvs a2 [n + 1]
    refine ⟨l2, by unfold removal; rw [run_append, h1]; simp only [run, step, a1, b1], ?_⟩
    have hm : ([n + 1].filterMap fun k => (scenes (removal o v n) ++ [v])[k]?) = [v] := by
      rw [removal_scenes]
      simp
    rw [hm, if_neg (by simp), a3] at b3
    rw [b3.1, b3.2, h2]
    simp only [applied, List.foldl_cons, List.foldl_nil]
    rw [find_foldl _ _ hv, hnone, h3]
    by_cases hp : n % 2 = 0
    · rw [if_pos hp, if_pos hp, if_neg (by omega), if_neg (by omega)]
      exact ⟨rfl, rfl⟩
    · rw [if_neg hp, if_neg hp, if_pos (by omega), if_pos (by omega)]
      exact ⟨rfl, rfl⟩

/-! ## Examples -/

/-- Three blocks: the scene of `exScene` is sent twice, one message is lost. -/
def demo : List (Act Int Nat) := [.send exScene, .receive [], .send exScene]

theorem demo_sendable : Sendable exCtx demo := by
  intro v hv
  have : v = exScene := by
    simp only [demo, scenes, List.mem_cons, List.not_mem_nil, or_false] at hv
    rcases hv with h | h <;> exact h
  rw [this]
  exact ⟨by simp [exScene, Ascending, exBase, create], exScene_encodable⟩

example : ∃ l, run exCtx init (demo ++ [.receive [1]]) = .ok l ∧ ∀ o ∈ exScene, find l.receiver.seen o.id = some o :=
  scene_shown_partial ⟨rfl, rfl⟩ demo_sendable (ks := []) (k := 1) (by simp) (by simp) rfl
example : ∃ l l', run exCtx init demo = .ok l ∧ run exCtx init (demo ++ [.receive [1, 0]]) = .ok l' ∧
    l'.receiver.seen = l.receiver.seen :=
  even_arrivals_invisible ⟨rfl, rfl⟩ demo_sendable (by simp [demo, scenes])

/-- The first object of `exScene`. -/
def first : Object Int Nat :=
  { exBase 1 .point with x := 1, y := 2, z := 3, lock := 4, eq := [⟨.peak, 100, 2, 3⟩, ⟨.lowpass, 50, 1, 0⟩] }
example (n : Nat) : ∃ l, run exCtx init (removal first exScene.tail n) = .ok l ∧
    find l.receiver.seen 1 = (if n % 2 = 0 then some first else none) :=
  removed_object_returns (o := first) ⟨rfl, rfl⟩ (exScene_encodable _ (by simp [exScene, first]))
    (by simp [exScene, Ascending, exBase, create]) (fun p hp => exScene_encodable p (List.mem_of_mem_tail hp))
    (by simp [exScene, exBase, create, first]) n

end Visr.SceneLink
