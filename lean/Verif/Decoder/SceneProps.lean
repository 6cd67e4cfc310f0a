import Verif.Decoder.SceneModel
import Verif.ObjectVector.Props
import Mathlib.Data.List.Nodup

/-!
# C50: what receivers of the scene decoder see
-/

namespace Visr.Decoder

open Visr Visr.ObjectVector

variable {K E R L : Type}

/-! ### Specification -/

/-- The scene after applying messages in order; a refused message counts with the
nodes before the refused one. -/
def applyAll (env : Env K E R L) (ms : List (Message K E R L)) (v : Vec K E R L) : Vec K E R L :=
  ms.foldl (fun v m => (updateObjectVector env m v).2) v

/-- How many of the messages are accepted when they are applied in order. -/
def accepted (env : Env K E R L) : List (Message K E R L) → Vec K E R L → Nat
  | [], _ => 0
  | m :: ms, v =>
    (if (updateObjectVector env m v).1.isOk then 1 else 0) + accepted env ms (updateObjectVector env m v).2

/-- The messages contain no channel text for which `IndexSequence` throws a C string or
overflows (see `bad_index_escapes`). -/
def Tame (ms : List (Message K E R L)) : Prop :=
  ∀ m ∈ ms, ∀ ts, m = some (some ts) → ∀ t ∈ ts, ∀ text, t.channels = .val text →
    ChannelList.parse text ≠ .ub ∧ ChannelList.parse text ≠ .throw .cString

/-! ### Lemmas -/

theorem ascending_applyAll (env : Env K E R L) (ms : List (Message K E R L)) (v : Vec K E R L)
    (hv : Ascending v) : Ascending (applyAll env ms v) := by
  induction ms generalizing v with
  | nil => exact hv
  | cons m ms ih => exact ih _ (update_eq env m v hv).2.2

theorem receive_foldl (ms : List (Message K E R L)) (s : Scene K E R L) :
    ms.foldl Scene.receive s = { s with queue := s.queue ++ ms } := by
  induction ms generalizing s with
  | nil => simp
  | cons m ms ih => simp [ih, Scene.receive]

theorem loop_eq (env : Env K E R L) (obj : Bool) (ms : List (Message K E R L)) (s : Scene K E R L)
    (hq : s.queue = ms) (hv : Ascending (s.buf obj)) (hm : Tame ms) :
    (Scene.loop env obj ms s).1 = .ok () ∧
      (Scene.loop env obj ms s).2.queue = [] ∧
      (Scene.loop env obj ms s).2.buf obj = applyAll env ms (s.buf obj) ∧
      (Scene.loop env obj ms s).2.buf (!obj) = s.buf (!obj) ∧
      (Scene.loop env obj ms s).2.front =
        (if accepted env ms (s.buf obj) % 2 = 0 then s.front else !s.front) ∧
      (Scene.loop env obj ms s).2.changed =
        (s.changed || decide (accepted env ms (s.buf obj) ≠ 0)) := by
  induction ms generalizing s with
  | nil => simp [Scene.loop, hq, applyAll, accepted]
  | cons m ms ih =>
    rw [Scene.loop]
    have ho := update_outcomes env m (s.buf obj) hv (hm m (by simp))
    have ha := (update_eq env m (s.buf obj) hv).2.2
    have htl : Tame ms := fun m' h' => hm m' (by simp [h'])
    have hne : ((!obj) = obj) = False := by simp
    simp only [applyAll, List.foldl_cons, accepted]
    rcases ho with h | h | h
    · simp only [h, Outcome.isOk, if_true]
      obtain ⟨h1, h2, h3, h4, h5, h6⟩ := ih (s := { s with
        buf := fun b => if b = obj then (updateObjectVector env m (s.buf obj)).2 else s.buf b,
        front := !s.front, changed := true, queue := ms }) rfl (by simpa using ha) htl
      simp only [if_true] at h3 h5 h6
      refine ⟨h1, h2, h3, by simpa using h4, ?_, ?_⟩
      · rw [h5]
        rcases Nat.mod_two_eq_zero_or_one (accepted env ms (updateObjectVector env m (s.buf obj)).2) with e | e
        · rw [if_pos e, if_neg (by omega)]
        · rw [if_neg (by omega), if_pos (by omega)]; simp
      · rw [h6]; simp
    · simp only [h, Outcome.isOk, Bool.false_eq_true, if_false, Nat.zero_add]
      obtain ⟨h1, h2, h3, h4, h5, h6⟩ := ih (s := { s with
        buf := fun b => if b = obj then (updateObjectVector env m (s.buf obj)).2 else s.buf b,
        queue := ms }) rfl (by simpa using ha) htl
      simp only [if_true] at h3 h5 h6
      exact ⟨h1, h2, h3, by simpa using h4, h5, h6⟩
    · simp only [h, Outcome.isOk, Bool.false_eq_true, if_false, Nat.zero_add]
      obtain ⟨h1, h2, h3, h4, h5, h6⟩ := ih (s := { s with
        buf := fun b => if b = obj then (updateObjectVector env m (s.buf obj)).2 else s.buf b,
        queue := ms }) rfl (by simpa using ha) htl
      simp only [if_true] at h3 h5 h6
      exact ⟨h1, h2, h3, by simpa using h4, h5, h6⟩

/-! ### Properties -/

/-- C50, exact behaviour of one period: `process()` consumes all messages and applies
them all to the buffer of the decoder.  If an odd number of them was accepted, the
receivers see the result; if an even number was accepted, they see what they saw
before the period, and the result stays in the decoder's buffer. -/
theorem period_exact (env : Env K E R L) (s : Scene K E R L) (ms : List (Message K E R L))
    (hq : s.queue = []) (hv : ∀ b, Ascending (s.buf b)) (hm : Tame ms) :
    (s.period env ms).1 = .ok () ∧ (s.period env ms).2.queue = [] ∧
      (∀ b, Ascending ((s.period env ms).2.buf b)) ∧
      (accepted env ms (s.buf s.front) % 2 = 1 →
        (s.period env ms).2.seen = applyAll env ms (s.buf s.front) ∧
        (s.period env ms).2.buf (s.period env ms).2.front = s.seen) ∧
      (accepted env ms (s.buf s.front) % 2 = 0 →
        (s.period env ms).2.seen = s.seen ∧
        (s.period env ms).2.buf (s.period env ms).2.front = applyAll env ms (s.buf s.front)) ∧
      (s.period env ms).2.changed = (s.changed || decide (accepted env ms (s.buf s.front) ≠ 0)) := by
  simp only [Scene.period, Scene.process, receive_foldl, hq, List.nil_append]
  obtain ⟨h1, h2, h3, h4, h5, h6⟩ := loop_eq env s.front ms { s with queue := ms } rfl (hv _) hm
  refine ⟨h1, h2, ?_, ?_, ?_, h6⟩
  · intro b
    by_cases hb : b = s.front
    · rw [hb, h3]; exact ascending_applyAll env ms _ (hv _)
    · have : b = !s.front := by cases b <;> cases hf : s.front <;> simp_all
      rw [this, h4]; exact hv _
  · intro ho
    simp only at h3 h4 h5
    simp only [Scene.seen, h5, if_neg (show ¬ accepted env ms (s.buf s.front) % 2 = 0 by omega),
      Bool.not_not]
    exact ⟨h3, h4⟩
  · intro he
    simp only at h3 h4 h5
    simp only [Scene.seen, h5, if_pos he]
    exact ⟨h4, h3⟩

/-- The receivers keep seeing objects of the decoder in ascending order of ids, and
after every period without escaping exceptions no message is left. -/
theorem periods_inv (env : Env K E R L) (hist : List (List (Message K E R L)))
    (hm : ∀ ms ∈ hist, Tame ms) :
    (hist.foldl (fun s ms => (Scene.period env s ms).2) Scene.init).queue = [] ∧
      ∀ b, Ascending ((hist.foldl (fun s ms => (Scene.period env s ms).2) Scene.init).buf b) := by
  have key : ∀ (hist : List (List (Message K E R L))) (s : Scene K E R L),
      s.queue = [] → (∀ b, Ascending (s.buf b)) → (∀ ms ∈ hist, Tame ms) →
      (hist.foldl (fun s ms => (Scene.period env s ms).2) s).queue = [] ∧
        ∀ b, Ascending ((hist.foldl (fun s ms => (Scene.period env s ms).2) s).buf b) := by
    intro hist
    induction hist with
    | nil => intro s h1 h2 _; exact ⟨h1, h2⟩
    | cons ms hist ih =>
      intro s h1 h2 h3
      obtain ⟨-, a, b, -⟩ := period_exact env s ms h1 h2 (h3 ms (by simp))
      exact ih _ a b (fun m hm => h3 m (by simp [hm]))
  exact key hist _ rfl (fun _ => List.Pairwise.nil) hm

theorem map_isOk {o : Outcome Unit} : o.isOk = true ↔ o = .ok () := by
  cases o <;> simp [Outcome.isOk]

/-- A message with one complete node stores an object under the id of the node and
under no other id. -/
theorem update_single (env : Env K E R L) (t : ObjTree K E R L) (v : Vec K E R L) (hv : Ascending v)
    (id : Nat) (hid : t.id = .val id) (hok : (updateObjectVector env (some (some [t])) v).1 = .ok ()) :
    ∃ o, find (updateObjectVector env (some (some [t])) v).2 id = some o ∧
      Matches env t (oldChannels o.typ (find v id)) o ∧
      ∀ k, k ≠ id → find (updateObjectVector env (some (some [t])) v).2 k = find v k := by
  obtain ⟨st, n, hn, h0, hl, hs, ho⟩ := update_node_by_node env [t] v hv
  have hn1 : n = 1 := ho.mp hok
  subst hn1
  obtain ⟨o, ha, hb, hc⟩ := hs 0 (by omega)
  simp only [List.getElem?_cons_zero, Option.map_some, Option.some.injEq, hid, Entry.val.injEq] at ha
  rw [← hl, hc, h0]
  refine ⟨o, by simp [ha], ?_, ?_⟩
  · rw [ha, ← h0]; exact hb t rfl
  · intro k hk; simp [← ha, hk]

/-- C50 is false as one would like it ("receivers see the scene to which all messages
have been applied"), because the two buffers are updated in turn: an object received
in one period disappears in the next period in which another object is updated. -/
theorem update_lost (env : Env K E R L) (t1 t2 : ObjTree K E R L) (ty1 ty2 : ObjType)
    (ch1 ch2 : List Nat) (h1 : t1.Complete ty1 ch1) (h2 : t2.Complete ty2 ch2) (id1 id2 : Nat)
    (hid1 : t1.id = .val id1) (hid2 : t2.id = .val id2) (hne : id1 ≠ id2) :
    (∃ o, find (applyAll env [some (some [t1]), some (some [t2])] []) id1 = some o) ∧
      find ((Scene.period env (Scene.period env Scene.init [some (some [t1])]).2
        [some (some [t2])]).2).seen id1 = none := by
  have hnil : Ascending ([] : Vec K E R L) := List.Pairwise.nil
  have ok1 : ∀ v : Vec K E R L, Ascending v → (updateObjectVector env (some (some [t1])) v).1 = .ok () :=
    fun v hv => complete_accepted env [t1] v hv (by intro t ht; simp at ht; subst ht; exact ⟨_, _, h1⟩)
  have ok2 : ∀ v : Vec K E R L, Ascending v → (updateObjectVector env (some (some [t2])) v).1 = .ok () :=
    fun v hv => complete_accepted env [t2] v hv (by intro t ht; simp at ht; subst ht; exact ⟨_, _, h2⟩)
  have tame : ∀ (t : ObjTree K E R L) ty ch, t.Complete ty ch → Tame [some (some [t])] := by
    intro t ty ch hc m hm ts hts t' ht' text htext
    simp only [List.mem_singleton] at hm
    rw [hm] at hts
    simp only [Option.some.injEq] at hts
    subst hts
    simp only [List.mem_singleton] at ht'
    subst ht'
    obtain ⟨tx, l, e1, e2, _⟩ := hc.channels
    rw [e1] at htext
    injection htext with htext
    subst htext
    rw [e2]; simp
  constructor
  · obtain ⟨o, ho, _⟩ := update_single env t1 [] hnil id1 hid1 (ok1 _ hnil)
    have hasc := (update_eq env (some (some [t1])) [] hnil).2.2
    obtain ⟨o2, _, _, h3⟩ := update_single env t2 (updateObjectVector env (some (some [t1])) []).2 hasc id2 hid2
      (ok2 _ hasc)
    refine ⟨o, ?_⟩
    simp only [applyAll, List.foldl_cons, List.foldl_nil]
    rw [h3 id1 hne, ho]
  · obtain ⟨-, q1, a1, b1, -, -⟩ := period_exact env Scene.init [some (some [t1])] rfl
      (fun _ => hnil) (tame t1 _ _ h1)
    obtain ⟨-, b1⟩ := b1 (by simp [accepted, Scene.init, ok1 _ hnil, Outcome.isOk])
    obtain ⟨-, -, -, b2, -, -⟩ := period_exact env (Scene.period env Scene.init [some (some [t1])]).2
      [some (some [t2])] q1 a1 (tame t2 _ _ h2)
    rw [b1] at b2
    have e : (Scene.init : Scene K E R L).seen = [] := rfl
    rw [e] at b2
    obtain ⟨b2, -⟩ := b2 (by simp [accepted, ok2 _ hnil, Outcome.isOk])
    rw [b2]
    obtain ⟨o, -, -, h3⟩ := update_single env t2 [] hnil id2 hid2 (ok2 _ hnil)
    simp only [applyAll, List.foldl_cons, List.foldl_nil]
    rw [h3 id1 hne]
    rfl

/-- Finding: two accepted messages in the same period are invisible: the receivers see
the scene from before (although `changed()` is set). -/
theorem two_messages_invisible (env : Env K E R L) (s : Scene K E R L) (m1 m2 : Message K E R L)
    (hq : s.queue = []) (hv : ∀ b, Ascending (s.buf b)) (hm : Tame [m1, m2])
    (ha : accepted env [m1, m2] (s.buf s.front) = 2) :
    (s.period env [m1, m2]).2.seen = s.seen ∧ (s.period env [m1, m2]).2.changed = true := by
  obtain ⟨-, -, -, -, h, h'⟩ := period_exact env s [m1, m2] hq hv hm
  exact ⟨(h (by omega)).1, by rw [h', ha]; simp⟩

theorem find_nodes (env : Env K E R L) (ts : List (ObjTree K E R L)) (v : Vec K E R L)
    (hv : Ascending v) (hd : (ts.map (fun t => t.id)).Nodup)
    (hok : (updateObjectVector env (some (some ts)) v).1 = .ok ()) (t : ObjTree K E R L) (ht : t ∈ ts) :
    ∃ o, find (updateObjectVector env (some (some ts)) v).2 o.id = some o ∧
      Matches env t (oldChannels o.typ (find v o.id)) o := by
  obtain ⟨st, n, hn, h0, hl, hs, ho⟩ := update_node_by_node env ts v hv
  have hn : n = ts.length := ho.mp hok
  subst hn
  obtain ⟨k, hk, rfl⟩ := List.getElem_of_mem ht
  obtain ⟨o, ha, hb, hc⟩ := hs k hk
  have hidk : ∀ j (hj : j < ts.length) (oj : Obj K E R L),
      (ts[j]?).map (fun t => t.id) = some (.val oj.id) → ts[j].id = .val oj.id := by
    intro j hj oj h
    simpa [List.getElem?_eq_getElem hj] using h
  have hdist : ∀ j (hj : j < ts.length) (oj : Obj K E R L), j ≠ k →
      (ts[j]?).map (fun t => t.id) = some (.val oj.id) → oj.id ≠ o.id := by
    intro j hj oj hjk h e
    have e1 := hidk j hj oj h
    have e2 := hidk k hk o ha
    apply hjk
    exact (List.Nodup.getElem_inj_iff hd (i := j) (hi := by simpa using hj) (j := k)
      (hj := by simpa using hk)).mp (by simp [e1, e2, e])
  -- before `k` the entry is untouched
  have hbefore : ∀ j, j ≤ k → st j o.id = find v o.id := by
    intro j hj
    induction j with
    | zero => rw [h0]
    | succ j ih =>
      obtain ⟨oj, hja, -, hjc⟩ := hs j (by omega)
      rw [hjc]
      have hne : ¬ o.id = oj.id := fun e => hdist j (by omega) oj (by omega) hja e.symm
      simp only [if_neg hne]
      exact ih (by omega)
  have hafter : ∀ d, k + 1 + d ≤ ts.length → st (k + 1 + d) o.id = some o := by
    intro d hd'
    induction d with
    | zero => rw [Nat.add_zero, hc]; simp
    | succ d ih =>
      obtain ⟨oj, hja, -, hjc⟩ := hs (k + 1 + d) (by omega)
      rw [show k + 1 + (d + 1) = k + 1 + d + 1 by omega, hjc]
      have hne : ¬ o.id = oj.id := fun e => hdist (k + 1 + d) (by omega) oj (by omega) hja e.symm
      simp only [if_neg hne]
      exact ih (by omega)
  refine ⟨o, ?_, ?_⟩
  · rw [← hl]
    have := hafter (ts.length - (k + 1)) (by omega)
    rwa [show k + 1 + (ts.length - (k + 1)) = ts.length by omega] at this
  · rw [← hbefore k (Nat.le_refl k)]
    exact hb _ (List.getElem?_eq_getElem hk)

/-- C50, partial: in a period with an odd number of accepted messages of which the last
one is accepted, every object listed in that last message (with distinct ids) is seen
by the receivers with the values of the message.  What is missing for the full property:
periods with an even number of accepted messages, and objects which the last message does
not list. -/
theorem last_message_visible_partial (env : Env K E R L) (s : Scene K E R L)
    (ms : List (Message K E R L)) (ts : List (ObjTree K E R L)) (hq : s.queue = [])
    (hv : ∀ b, Ascending (s.buf b)) (hm : Tame (ms ++ [some (some ts)]))
    (hodd : accepted env (ms ++ [some (some ts)]) (s.buf s.front) % 2 = 1)
    (hok : (updateObjectVector env (some (some ts)) (applyAll env ms (s.buf s.front))).1 = .ok ())
    (hd : (ts.map (fun t => t.id)).Nodup) (t : ObjTree K E R L) (ht : t ∈ ts) :
    ∃ o, find (s.period env (ms ++ [some (some ts)])).2.seen o.id = some o ∧
      Matches env t (oldChannels o.typ (find (applyAll env ms (s.buf s.front)) o.id)) o := by
  obtain ⟨-, -, -, h, -, -⟩ := period_exact env s (ms ++ [some (some ts)]) hq hv hm
  rw [(h hodd).1]
  simp only [applyAll, List.foldl_append, List.foldl_cons, List.foldl_nil]
  exact find_nodes env ts _ (ascending_applyAll env ms _ (hv _)) hd hok t ht

/-- Finding: a message with a channel text for which `IndexSequence` throws a C string
is never removed: `process()` throws, and throws again in every later period, whatever
else arrives. -/
theorem poison_message (env : Env K E R L) (s : Scene K E R L) (t : ObjTree K E R L)
    (ts : List (ObjTree K E R L)) (rest : List (Message K E R L)) (later : List (List (Message K E R L)))
    (hv : ∀ b, Ascending (s.buf b)) (hq : s.queue = some (some (t :: ts)) :: rest) (id : Nat)
    (typ : ObjType) (hid : t.id = .val id) (hty : t.typ = .val (some typ)) (hne : typ ≠ .extended)
    (is : List ChannelList.Item) (hs : ∀ i ∈ is, i.Small) (hz : ∃ i ∈ is, i.ZeroStep)
    (ht : t.channels = .val (ChannelList.text is)) (ms : List (Message K E R L)) :
    ((later.foldl (fun s ms => (Scene.period env s ms).2) s).period env ms).1 = .throw .cString := by
  have key : ∀ (later : List (List (Message K E R L))) (s : Scene K E R L) (rest : List (Message K E R L)),
      (∀ b, Ascending (s.buf b)) → s.queue = some (some (t :: ts)) :: rest →
      ∃ rest', (later.foldl (fun s ms => (Scene.period env s ms).2) s).queue =
        some (some (t :: ts)) :: rest' ∧
        ∀ b, Ascending ((later.foldl (fun s ms => (Scene.period env s ms).2) s).buf b) := by
    intro later
    induction later with
    | nil => intro s rest hv hq; exact ⟨rest, hq, hv⟩
    | cons ms later ih =>
      intro s rest hv hq
      refine ih _ (rest ++ ms) ?_ ?_
      · intro b
        simp only [Scene.period, Scene.process, receive_foldl, hq, List.cons_append, Scene.loop]
        rw [bad_index_escapes env t ts (s.buf s.front) (hv _) id typ hid hty hne is hs hz ht]
        simp only
        split_ifs
        · exact (update_eq env _ _ (hv _)).2.2
        · exact hv b
      · simp only [Scene.period, Scene.process, receive_foldl, hq, List.cons_append, Scene.loop]
        rw [bad_index_escapes env t ts (s.buf s.front) (hv _) id typ hid hty hne is hs hz ht]
  obtain ⟨rest', h1, h2⟩ := key later s rest hv hq
  generalize later.foldl (fun s ms => (Scene.period env s ms).2) s = s' at h1 h2
  simp only [Scene.period, Scene.process, receive_foldl, h1, List.cons_append, Scene.loop]
  rw [bad_index_escapes env t ts _ (h2 _) id typ hid hty hne is hs hz ht]

/-! ### The hypotheses are met -/

/-- Two complete nodes with different ids. -/
example : exPoint.Complete .point [3] ∧ exPoint.id = .val 7 ∧
    ({ exPoint with id := .val 8 } : ObjTree Int Nat Nat Nat).Complete .point [3] :=
  ⟨exPoint_complete, rfl, { exPoint_complete with id := ⟨8, rfl⟩ }⟩

/-- A period with one accepted message: `last_message_visible_partial` applies. -/
example : accepted exEnv ([] ++ [some (some [exPoint])]) ([] : Vec Int Nat Nat Nat) % 2 = 1 ∧
    (updateObjectVector exEnv (some (some [exPoint]))
      (applyAll exEnv [] ([] : Vec Int Nat Nat Nat))).1 = .ok () := by
  have h := complete_accepted exEnv [exPoint] [] List.Pairwise.nil
    (by intro t ht; simp at ht; subst ht; exact ⟨_, _, exPoint_complete⟩)
  exact ⟨by simp [accepted, Scene.init, h, Outcome.isOk], h⟩

end Visr.Decoder
