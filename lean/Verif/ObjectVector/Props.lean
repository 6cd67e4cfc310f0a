import Verif.ObjectVector.Spec
import Verif.ChannelList.Sequence
import Mathlib.Tactic.Common
import Mathlib.Tactic.SplitIfs

/-!
# C33: object vectors are maps, messages are applied object by object
-/

namespace Visr.ObjectVector

open Visr

variable {K E R L : Type}

/-! ### Helper lemmas -/

/-- Iteration order: strictly increasing ids. -/
def Ascending (v : Vec K E R L) : Prop := v.Pairwise (fun a b => a.id < b.id)

theorem find_nil (id : Nat) : find ([] : Vec K E R L) id = none := rfl

theorem find_cons (o : Obj K E R L) (v : Vec K E R L) (id : Nat) :
    find (o :: v) id = if o.id = id then some o else find v id := by
  simp only [find, List.find?_cons]
  by_cases h : o.id = id
  · simp [h]
  · rw [beq_eq_false_iff_ne.mpr h, if_neg h]

theorem find_id {v : Vec K E R L} {id : Nat} {o : Obj K E R L} (h : find v id = some o) :
    o.id = id := by
  have := List.find?_some h
  simpa using this

theorem find_setInsert (o : Obj K E R L) (v : Vec K E R L) (h : find v o.id = none) (id : Nat) :
    find (setInsert o v) id = if id = o.id then some o else find v id := by
  induction v with
  | nil =>
    simp only [setInsert, find_cons, find_nil]
    by_cases e : id = o.id
    · rw [if_pos e, if_pos e.symm]
    · rw [if_neg e, if_neg (fun x => e x.symm)]
  | cons p v ih =>
    rw [find_cons] at h
    have hne : p.id ≠ o.id := by intro e; rw [if_pos e] at h; simp at h
    rw [if_neg hne] at h
    simp only [setInsert]
    by_cases h1 : o.id < p.id
    · rw [if_pos h1]
      by_cases h2 : id = o.id
      · rw [if_pos h2, find_cons, if_pos h2.symm]
      · rw [if_neg h2, find_cons, if_neg (fun e => h2 e.symm)]
    · rw [if_neg h1, if_pos (by omega), find_cons, find_cons, ih h]
      by_cases h2 : id = o.id
      · rw [if_pos h2, if_neg (by omega), if_pos h2]
      · rw [if_neg h2, if_neg h2]

theorem find_erase (v : Vec K E R L) (id k : Nat) :
    find (erase v id) k = if k = id then none else find v k := by
  induction v with
  | nil => simp [erase, find_nil]
  | cons p v ih =>
    simp only [erase, List.filter_cons] at ih ⊢
    by_cases hp : p.id = id
    · simp only [hp, bne_self_eq_false, Bool.false_eq_true, if_false]
      rw [ih, find_cons, hp]
      split_ifs with h1 h2 <;> simp_all
    · have : (p.id != id) = true := by simpa using hp
      rw [if_pos this, find_cons, find_cons, ih]
      split_ifs with h1 h2 <;> simp_all

theorem find_insert (v : Vec K E R L) (o : Obj K E R L) (k : Nat) :
    find (insert v o) k = if k = o.id then some o else find v k := by
  simp only [insert]
  split_ifs with h1 h2 h2
  · rw [find_setInsert _ _ (by rw [find_erase, if_pos rfl]), if_pos h2]
  · rw [find_setInsert _ _ (by rw [find_erase, if_pos rfl]), if_neg h2, find_erase, if_neg h2]
  · rw [find_setInsert _ _ (by simpa using h1), if_pos h2]
  · rw [find_setInsert _ _ (by simpa using h1), if_neg h2]

theorem mem_setInsert {o p : Obj K E R L} {v : Vec K E R L} (h : p ∈ setInsert o v) :
    p = o ∨ p ∈ v := by
  induction v with
  | nil => simp only [setInsert, List.mem_singleton] at h; exact .inl h
  | cons q v ih =>
    simp only [setInsert] at h
    split_ifs at h
    · simpa using h
    · rcases List.mem_cons.mp h with rfl | h
      · simp
      · rcases ih h with h | h <;> simp [h]
    · exact .inr h

theorem ascending_setInsert {o : Obj K E R L} {v : Vec K E R L} (h : Ascending v) :
    Ascending (setInsert o v) := by
  induction v with
  | nil => simp [setInsert, Ascending]
  | cons p v ih =>
    rw [Ascending, List.pairwise_cons] at h
    simp only [setInsert]
    split_ifs with h1 h2
    · rw [Ascending, List.pairwise_cons, List.pairwise_cons]
      refine ⟨?_, h⟩
      intro q hq
      rcases List.mem_cons.mp hq with rfl | hq
      · exact h1
      · exact h1.trans (h.1 q hq)
    · rw [Ascending, List.pairwise_cons]
      refine ⟨?_, ih h.2⟩
      intro q hq
      rcases mem_setInsert hq with rfl | hq
      · exact h2
      · exact h.1 q hq
    · rw [Ascending, List.pairwise_cons]; exact h

theorem ascending_erase {v : Vec K E R L} (h : Ascending v) (id : Nat) : Ascending (erase v id) :=
  List.Pairwise.sublist List.filter_sublist h

theorem ascending_insert {v : Vec K E R L} (h : Ascending v) (o : Obj K E R L) :
    Ascending (insert v o) := by
  simp only [insert]
  split_ifs
  · exact ascending_setInsert (ascending_erase h _)
  · exact ascending_setInsert h

theorem setInsert_last {o : Obj K E R L} {v : Vec K E R L} (h : ∀ p ∈ v, p.id < o.id) :
    setInsert o v = v ++ [o] := by
  induction v with
  | nil => rfl
  | cons p v ih =>
    have hp := h p (by simp)
    simp only [setInsert]
    rw [if_neg (by omega), if_pos hp, ih (fun q hq => h q (by simp [hq]))]
    rfl

theorem assign_eq {v : Vec K E R L} (h : Ascending v) : assign v = v := by
  have key : ∀ (v acc : Vec K E R L), Ascending (acc ++ v) →
      v.foldl (fun acc o => setInsert o acc) acc = acc ++ v := by
    intro v
    induction v with
    | nil => intro acc _; simp
    | cons o v ih =>
      intro acc h
      rw [List.foldl_cons, setInsert_last, ih]
      · simp
      · simpa using h
      · intro p hp
        rw [Ascending, List.pairwise_append] at h
        exact h.2.2 p hp o (by simp)
  simpa [assign] using key v [] (by simpa using h)

theorem find_modify (v : Vec K E R L) (id k : Nat) (f : Obj K E R L → Obj K E R L) :
    find (v.map fun o => if o.id == id then { f o with id := o.id } else o) k =
      if k = id then (find v k).map (fun o => { f o with id := id }) else find v k := by
  induction v with
  | nil => simp [find_nil]
  | cons p v ih =>
    rw [List.map_cons, find_cons, find_cons, ih]
    by_cases hp : p.id = id
    · by_cases hk : k = id
      · subst hk; simp [hp]
      · have hne : ¬ id = k := fun e => hk e.symm
        simp [hp, hk, hne]
    · by_cases hk : k = id
      · subst hk; simp [hp]
      · simp [hp, hk]

theorem ascending_modify {v : Vec K E R L} (h : Ascending v) (id : Nat)
    (f : Obj K E R L → Obj K E R L) :
    Ascending (v.map fun o => if o.id == id then { f o with id := o.id } else o) := by
  rw [Ascending, List.pairwise_map]
  refine h.imp ?_
  intro a b hab
  have e : ∀ o : Obj K E R L, (if (o.id == id) = true then { f o with id := o.id } else o).id = o.id := by
    intro o; split_ifs <;> rfl
  rw [e, e]; exact hab

theorem get_ok {α : Type} {e : Entry α} {a : α} : e.get = .ok a ↔ e = .val a := by
  cases e <;> simp [Entry.get]

theorem get?_some {α : Type} {e : Entry α} {a : α} : e.get? = some a ↔ e = .val a := by
  cases e <;> simp [Entry.get?]

theorem get?_getD {α : Type} (e : Entry α) (d : α) : e.get?.getD d = e.getD d := by
  cases e <;> simp [Entry.get?, Entry.getD]

theorem bind_ok {α β : Type} {x : Outcome α} {f : α → Outcome β} {b : β} :
    (x >>= f) = .ok b ↔ ∃ a, x = .ok a ∧ f a = .ok b := by
  cases x <;> simp

theorem asInvalid_ok {α : Type} {x : Outcome α} {a : α} : asInvalid x = .ok a ↔ x = .ok a := by
  cases x with
  | ok b => simp [asInvalid]
  | throw e => cases e <;> simp [asInvalid]
  | ub => simp [asInvalid]

theorem parseChannels_ok {t : ObjTree K E R L} {o o' : Obj K E R L} (h : parseChannels t o = .ok o') :
    ∃ ch, o' = { o with channels := ch } ∧ NewChannels t.channels o.channels ch := by
  simp only [parseChannels] at h
  cases hc : t.channels with
  | val text =>
    rw [hc] at h
    cases hp : ChannelList.parse text with
    | ok l =>
      simp only [Entry.get, Outcome.ok_bind, hp, Outcome.ok.injEq] at h
      exact ⟨_, h.symm, .inl ⟨text, l, rfl, hp, rfl⟩⟩
    | throw e =>
      have : NewChannels (.val text) o.channels o.channels := by
        refine .inr ⟨?_, rfl⟩
        intro text' l e1; injection e1 with e1; subst e1; simp [hp]
      simp only [Entry.get, Outcome.ok_bind, hp] at h
      cases e <;> simp only [Outcome.ok.injEq, reduceCtorEq] at h <;>
        exact ⟨o.channels, by rw [← h], this⟩
    | ub => simp [Entry.get, hp] at h
  | missing =>
    rw [hc] at h
    simp only [Entry.get, Outcome.throw_bind, Outcome.ok.injEq] at h
    exact ⟨o.channels, by rw [← h], .inr ⟨by simp, rfl⟩⟩
  | malformed =>
    rw [hc] at h
    simp only [Entry.get, Outcome.throw_bind, Outcome.ok.injEq] at h
    exact ⟨o.channels, by rw [← h], .inr ⟨by simp, rfl⟩⟩

theorem parseBase_ok {env : Env K E R L} {t : ObjTree K E R L} {o o' : Obj K E R L}
    (h : parseBase env t o = .ok o') :
    ∃ ch g l p e, o' = { o with channels := ch, group := g, level := l, priority := p, eq := e } ∧
      NewChannels t.channels o.channels ch ∧ t.group = .val g ∧ t.level = .val l ∧
      t.priority = .val p ∧ (t.eq = .val e ∨ (t.eq = .missing ∧ e = env.eq0)) := by
  simp only [parseBase, bind_ok, get_ok] at h
  obtain ⟨o1, h1, g, hg, l, hl, p, hp, e, he, h⟩ := h
  obtain ⟨ch, rfl, hch⟩ := parseChannels_ok h1
  refine ⟨ch, g, l, p, e, ?_, hch, hg, hl, hp, ?_⟩
  · rw [Outcome.ok.injEq] at h; rw [← h]
  · cases hq : t.eq <;> simp [hq, Entry.present, Entry.get] at he ⊢ <;> simp [he]

theorem parsePosition_ok {env : Env K E R L} {p : PosTree K} {q : K × K × K}
    (h : parsePosition env p = .ok q) : GivesPosition env p q.1 q.2.1 q.2.2 := by
  simp only [parsePosition] at h
  split_ifs at h with h1 h2 h3
  · split at h
    · rename_i x y hx hy
      rw [Outcome.ok.injEq] at h; subst h
      exact .inl ⟨get?_some.mp hx, get?_some.mp hy, get?_getD _ _⟩
    · simp at h
  · split at h
    · rename_i az el ha he
      rw [Outcome.ok.injEq] at h; subst h
      exact .inr ⟨az, el, get?_some.mp ha, get?_some.mp he, by rw [get?_getD]⟩
    · simp at h

theorem parsePoint_ok {env : Env K E R L} {t : ObjTree K E R L} {o o' : Obj K E R L}
    (h : parsePoint env t o = .ok o') :
    ∃ o1 p x y z, parseBase env t o = .ok o1 ∧
      o' = { o1 with x := x, y := y, z := z, lock := t.lock.getD env.zero } ∧
      t.position = some p ∧ GivesPosition env p x y z := by
  simp only [parsePoint, bind_ok, asInvalid_ok] at h
  obtain ⟨o1, h1, q, hq, h⟩ := h
  cases hp : t.position with
  | none => simp [hp] at hq
  | some p =>
    simp only [hp] at hq
    rw [Outcome.ok.injEq] at h
    exact ⟨o1, p, _, _, _, h1, h.symm, rfl, parsePosition_ok hq⟩

/-- An object filled in by the parser of its type has the values of the node. -/
theorem describe_matches (env : Env K E R L) (t : ObjTree K E R L) (id : Nat) (typ : ObjType)
    (old : Option (Obj K E R L)) (ht : t.typ = .val (some typ)) (hid : t.id = .val id)
    (hold : ∀ o, old = some o → o.id = id) (o' : Obj K E R L)
    (h : describe env t id typ old = .ok o') :
    o'.id = id ∧ o'.typ = typ ∧ Matches env t (oldChannels typ old) o' := by
  obtain ⟨o, ho, ho1, ho2, hoc⟩ : ∃ o : Obj K E R L, startObj env id typ old = o ∧
      o.id = id ∧ o.typ = typ ∧ oldChannels typ old = o.channels := by
    refine ⟨_, rfl, ?_⟩
    cases old with
    | none => exact ⟨rfl, rfl, rfl⟩
    | some o =>
      simp only [startObj, oldChannels]
      split_ifs with hty
      · exact ⟨hold o rfl, hty, rfl⟩
      · exact ⟨rfl, rfl, rfl⟩
  rw [hoc]
  simp only [describe, ho, bind_ok] at h
  obtain ⟨parser, hp, h⟩ := h
  clear ho hoc hold
  cases typ <;> simp only [parserFor, Outcome.ok.injEq, reduceCtorEq] at hp <;> subst hp
  · obtain ⟨o1, p, x, y, z, hb, rfl, hp, hpos⟩ := parsePoint_ok h
    obtain ⟨ch, g, l, pr, e, rfl, hch, hg, hl, hpr, he⟩ := parseBase_ok hb
    refine ⟨ho1, ho2, ?_⟩
    constructor <;> simp_all
  · simp only [parseExtent, parsePointDiffuse, bind_ok, asInvalid_ok, get_ok] at h
    obtain ⟨o2, ⟨o3, h3, d, hd, h2⟩, w, hw, hh, hhh, h⟩ := h
    obtain ⟨o1, p, x, y, z, hb, rfl, hp, hpos⟩ := parsePoint_ok h3
    obtain ⟨ch, g, l, pr, e, rfl, hch, hg, hl, hpr, he⟩ := parseBase_ok hb
    rw [Outcome.ok.injEq] at h h2
    subst h2
    subst h
    refine ⟨ho1, ho2, ?_⟩
    constructor <;> simp_all
  · simp only [parsePlane, bind_ok, asInvalid_ok, get_ok] at h
    obtain ⟨o1, hb, a, ha, e1, he1, r, hr, h⟩ := h
    obtain ⟨ch, g, l, pr, e, rfl, hch, hg, hl, hpr, he⟩ := parseBase_ok hb
    rw [Outcome.ok.injEq] at h
    subst h
    refine ⟨ho1, ho2, ?_⟩
    constructor <;> simp_all
  · simp only [parseDiffuse, asInvalid_ok] at h
    obtain ⟨ch, g, l, pr, e, rfl, hch, hg, hl, hpr, he⟩ := parseBase_ok h
    refine ⟨ho1, ho2, ?_⟩
    constructor <;> simp_all
  · simp only [parsePointDiffuse, bind_ok, asInvalid_ok, get_ok] at h
    obtain ⟨o3, h3, d, hd, h2⟩ := h
    obtain ⟨o1, p, x, y, z, hb, rfl, hp, hpos⟩ := parsePoint_ok h3
    obtain ⟨ch, g, l, pr, e, rfl, hch, hg, hl, hpr, he⟩ := parseBase_ok hb
    rw [Outcome.ok.injEq] at h2
    subst h2
    refine ⟨ho1, ho2, ?_⟩
    constructor <;> simp_all
  · simp only [parseHoa, bind_ok, asInvalid_ok, get_ok] at h
    obtain ⟨o1, hb, n, hn, h⟩ := h
    obtain ⟨ch, g, l, pr, e, rfl, hch, hg, hl, hpr, he⟩ := parseBase_ok hb
    split_ifs at h with hlen
    rw [Outcome.ok.injEq] at h
    subst h
    refine ⟨ho1, ho2, ?_⟩
    constructor <;> simp_all
  · simp only [parseChannelObject, bind_ok, asInvalid_ok, get_ok] at h
    obtain ⟨o1, hb, n, hn, h⟩ := h
    obtain ⟨ch, g, l, pr, e, rfl, hch, hg, hl, hpr, he⟩ := parseBase_ok hb
    split_ifs at h with hlen
    rw [Outcome.ok.injEq] at h
    subst h
    refine ⟨ho1, ho2, ?_⟩
    constructor <;> simp_all
  · simp only [parseReverb, bind_ok, asInvalid_ok, get_ok] at h
    obtain ⟨o3, h3, d, hd, h2⟩ := h
    obtain ⟨o1, p, x, y, z, hb, rfl, hp, hpos⟩ := parsePoint_ok h3
    obtain ⟨ch, g, l, pr, e, rfl, hch, hg, hl, hpr, he⟩ := parseBase_ok hb
    rw [Outcome.ok.injEq] at h2
    subst h2
    refine ⟨ho1, ho2, ?_⟩
    constructor <;> simp_all

theorem parseObject_eq (env : Env K E R L) (t : ObjTree K E R L) (v : Vec K E R L) :
    (∃ id typ o v', t.id = .val id ∧ t.typ = .val (some typ) ∧
      describe env t id typ (find v id) = .ok o ∧ v' = insert v o ∧
      asInvalid (parseObject env t v) = .ok v' ∧ applyNode env t (find v) = .ok (find v')) ∨
    (∃ e, asInvalid (parseObject env t v) = .throw e ∧ applyNode env t (find v) = .throw e) ∨
    (asInvalid (parseObject env t v) = .ub ∧ applyNode env t (find v) = .ub) := by
  cases hty : t.typ with
  | missing => right; left; exact ⟨.invalidArgument, by simp [parseObject, hty, Entry.get, asInvalid], by simp [applyNode, hty]⟩
  | malformed => right; left; exact ⟨.invalidArgument, by simp [parseObject, hty, Entry.get, asInvalid], by simp [applyNode, hty]⟩
  | val typ? =>
    cases hid : t.id with
    | missing => right; left; exact ⟨.invalidArgument, by simp [parseObject, hty, hid, Entry.get, asInvalid], by simp [applyNode, hty, hid]⟩
    | malformed => right; left; exact ⟨.invalidArgument, by simp [parseObject, hty, hid, Entry.get, asInvalid], by simp [applyNode, hty, hid]⟩
    | val id =>
      cases typ? with
      | none => right; left; exact ⟨.invalidArgument, by simp [parseObject, hty, hid, Entry.get, asInvalid], by simp [applyNode, hty]⟩
      | some typ =>
        have hpo : parseObject env t v = (describe env t id typ (find v id) >>= fun o => .ok (insert v o)) := by
          simp only [parseObject, hty, hid, Entry.get, Outcome.ok_bind, describe]
          cases parserFor (K := K) (E := E) (R := R) (L := L) typ with
          | ok p =>
            simp only [Outcome.ok_bind, startObj]
            cases find v id <;> rfl
          | throw e => rfl
          | ub => rfl
        rw [hpo]
        cases hd : describe env t id typ (find v id) with
        | ok o =>
          left
          have ho : o.id = id :=
            (describe_matches env t id typ _ hty hid (fun o ho => find_id ho) o hd).1
          refine ⟨id, typ, o, _, rfl, rfl, hd, rfl, rfl, ?_⟩
          simp only [applyNode, hty, hid, hd]
          congr 1
          funext k
          rw [find_insert, ho]
        | throw e =>
          right; left
          cases e <;> exact ⟨_, rfl, by simp [applyNode, hty, hid, hd]⟩
        | ub => right; right; exact ⟨rfl, by simp [applyNode, hty, hid, hd]⟩

theorem updateLoop_eq (env : Env K E R L) (ts : List (ObjTree K E R L)) (v : Vec K E R L)
    (hv : Ascending v) :
    (updateLoop env ts v).1 = (applyNodes env ts (find v)).1 ∧
      find (updateLoop env ts v).2 = (applyNodes env ts (find v)).2 ∧
      Ascending (updateLoop env ts v).2 := by
  induction ts generalizing v with
  | nil => exact ⟨rfl, rfl, hv⟩
  | cons t ts ih =>
    rw [updateLoop, applyNodes]
    rcases parseObject_eq env t v with ⟨id, typ, o, v', _, _, _, rfl, h1, h2⟩ | ⟨e, h1, h2⟩ | ⟨h1, h2⟩
    · rw [h1, h2]; exact ih _ (ascending_insert hv o)
    · rw [h1, h2]; exact ⟨rfl, rfl, hv⟩
    · rw [h1, h2]; exact ⟨rfl, rfl, hv⟩

theorem update_eq (env : Env K E R L) (m : Message K E R L) (v : Vec K E R L) (hv : Ascending v) :
    (updateObjectVector env m v).1 = (applyMessage env m (find v)).1 ∧
      find (updateObjectVector env m v).2 = (applyMessage env m (find v)).2 ∧
      Ascending (updateObjectVector env m v).2 := by
  rcases m with _ | _ | ts
  · exact ⟨rfl, rfl, hv⟩
  · exact ⟨rfl, rfl, hv⟩
  · exact updateLoop_eq env ts v hv

/-- The refinement relation: every vector is iterated in ascending order of ids and
its elements are those of the map. -/
def Rel (w : World K E R L) (m : Maps K E R L) : Prop :=
  ∀ i, Ascending (w i) ∧ find (w i) = m i

theorem rel_put {w : World K E R L} {m : Maps K E R L} (h : Rel w m) (i : Nat) {v : Vec K E R L}
    {f : Nat → Option (Obj K E R L)} (hv : Ascending v) (hf : find v = f) :
    Rel (put w i v) (m.replace i f) := by
  intro j
  simp only [put, Maps.replace]
  by_cases hj : j = i
  · simp only [hj, if_true]; exact ⟨hv, hf⟩
  · simp only [if_neg hj]; exact h j

theorem set_eq_replace (m : Maps K E R L) (i id : Nat) (x : Option (Obj K E R L)) :
    m.set i id x = m.replace i (fun k => if k = id then x else m i k) := by
  funext j k
  simp only [Maps.set, Maps.replace]
  by_cases hj : j = i
  · subst hj; simp
  · simp [hj]

theorem step_rel (env : Env K E R L) {w : World K E R L} {m : Maps K E R L} (h : Rel w m)
    (op : Op K E R L) (hop : ¬ op.SelfUse) :
    Rel (step env w op).1 (specStep env m op).1 ∧ (step env w op).2 = (specStep env m op).2 := by
  have hf : ∀ i id, find (w i) id = m i id := fun i id => congrFun (h i).2 id
  cases op with
  | insert i o =>
    simp only [step, specStep]
    rw [set_eq_replace]
    refine ⟨rel_put h i (ascending_insert (h i).1 o) ?_, trivial⟩
    funext k; rw [find_insert, hf]
  | insertOwn i id => exact absurd trivial hop
  | «at» i id =>
    simp only [step, specStep, «at», hf]
    cases m i id <;> exact ⟨h, rfl⟩
  | modify i id f =>
    simp only [step, specStep, modify, hf]
    cases hm : m i id with
    | none => exact ⟨h, rfl⟩
    | some o =>
      simp only [keep]
      rw [set_eq_replace]
      refine ⟨rel_put h i (ascending_modify (h i).1 id f) ?_, trivial⟩
      funext k
      rw [find_modify, hf]
      by_cases hk : k = id
      · subst hk; simp [hm]
      · simp [hk]
  | remove i id =>
    simp only [step, specStep, remove, hf]
    cases hm : m i id with
    | none => exact ⟨h, rfl⟩
    | some o =>
      simp only [keep]
      rw [set_eq_replace]
      refine ⟨rel_put h i (ascending_erase (h i).1 id) ?_, trivial⟩
      funext k
      rw [find_erase, hf]
  | clear i =>
    exact ⟨rel_put h i List.Pairwise.nil (by funext k; rfl), rfl⟩
  | assign i j =>
    have hij : i ≠ j := hop
    simp only [step, specStep, if_neg hij]
    rw [assign_eq (h j).1]
    exact ⟨rel_put h i (h j).1 (h j).2, trivial⟩
  | swap i j =>
    refine ⟨?_, rfl⟩
    intro k
    simp only [step, specStep, Maps.replace]
    by_cases hi : k = i
    · simp only [if_pos hi]; exact h j
    · by_cases hj : k = j
      · simp only [if_neg hi, if_pos hj]; exact h i
      · simp only [if_neg hi, if_neg hj]; exact h k
  | update i msg =>
    obtain ⟨h1, h2, h3⟩ := update_eq env msg (w i) (h i).1
    rw [(h i).2] at h1 h2
    simp only [step, specStep]
    exact ⟨rel_put h i h3 h2, by rw [h1]⟩
  | fill i msg =>
    obtain ⟨h1, h2, h3⟩ := update_eq env msg ([] : Vec K E R L) List.Pairwise.nil
    have e : find ([] : Vec K E R L) = fun _ => none := rfl
    rw [e] at h1 h2
    simp only [step, specStep, fillObjectVector]
    cases hs : applyMessage env msg (fun _ => none) with
    | mk r f =>
      cases hu : updateObjectVector env msg ([] : Vec K E R L) with
      | mk r' v =>
        rw [hs, hu] at h1 h2
        rw [hu] at h3
        simp only at h1 h2 h3
        subst h1
        have hid : put w i (w i) = w := by
          funext j; simp only [put]; split_ifs with hj <;> simp [hj]
        cases r' with
        | ok u => exact ⟨rel_put h i h3 h2, rfl⟩
        | throw e => simp only [hid]; exact ⟨h, rfl⟩
        | ub => simp only [hid]; exact ⟨h, rfl⟩

/-! ### C33 -/

/-- The history of results of a sequence of operations. -/
def results {S O A : Type} (f : S → O → S × A) : S → List O → List A
  | _, [] => []
  | s, op :: ops => (f s op).2 :: results f (f s op).1 ops

/-- The state after a sequence of operations. -/
def after {S O A : Type} (f : S → O → S × A) : S → List O → S
  | s, [] => s
  | s, op :: ops => after f (f s op).1 ops

/-- C33: after any history of operations on any number of vectors, initially empty,
without the two self uses, every result is that of a map from ids to objects, the
vectors contain exactly the objects of the maps, and each is iterated in ascending
order of its ids (so no id occurs twice). -/
theorem vectors_are_maps (env : Env K E R L) (ops : List (Op K E R L))
    (hops : ∀ op ∈ ops, ¬ op.SelfUse) :
    results (step env) (fun _ => []) ops = results (specStep env) (fun _ _ => none) ops ∧
      ∀ i, find (after (step env) (fun _ => []) ops i) = after (specStep env) (fun _ _ => none) ops i ∧
        (after (step env) (fun _ => []) ops i).Pairwise (fun a b => a.id < b.id) := by
  have key : ∀ (ops : List (Op K E R L)) (w : World K E R L) (m : Maps K E R L), Rel w m →
      (∀ op ∈ ops, ¬ op.SelfUse) →
      results (step env) w ops = results (specStep env) m ops ∧
        Rel (after (step env) w ops) (after (specStep env) m ops) := by
    intro ops
    induction ops with
    | nil => intro w m h _; exact ⟨rfl, h⟩
    | cons op ops ih =>
      intro w m h hs
      obtain ⟨h1, h2⟩ := step_rel env h op (hs op (by simp))
      obtain ⟨h3, h4⟩ := ih _ _ h1 (fun o ho => hs o (by simp [ho]))
      exact ⟨by rw [results, results, h2, h3], h4⟩
  have h0 : Rel (K := K) (E := E) (R := R) (L := L) (fun _ => []) (fun _ _ => none) :=
    fun i => ⟨List.Pairwise.nil, rfl⟩
  obtain ⟨h1, h2⟩ := key ops _ _ h0 hops
  exact ⟨h1, fun i => ⟨(h2 i).2, (h2 i).1⟩⟩

/-- C33: the message is applied node by node.  Whatever the outcome, there is a
number `n` of applied nodes such that each of the first `n` nodes was accepted in
turn and stored exactly the object it describes under its id and touched nothing
else; the call succeeds exactly if all nodes were applied; otherwise the next node
was refused and changed nothing. -/
theorem update_node_by_node (env : Env K E R L) (ts : List (ObjTree K E R L)) (v : Vec K E R L)
    (hv : Ascending v) :
    ∃ states : Nat → (Nat → Option (Obj K E R L)), ∃ n ≤ ts.length,
      states 0 = find v ∧ states n = find (updateObjectVector env (some (some ts)) v).2 ∧
      (∀ k, k < n → ∃ o, (ts[k]?).map (fun t => t.id) = some (.val o.id) ∧
        (∀ t, ts[k]? = some t → Matches env t (oldChannels o.typ (states k o.id)) o) ∧
        states (k + 1) = fun id => if id = o.id then some o else states k id) ∧
      ((updateObjectVector env (some (some ts)) v).1 = .ok () ↔ n = ts.length) := by
  simp only [updateObjectVector]
  induction ts generalizing v with
  | nil => exact ⟨fun _ => find v, 0, Nat.le_refl _, rfl, rfl, by simp, by simp [updateLoop]⟩
  | cons t ts ih =>
    rw [updateLoop]
    rcases parseObject_eq env t v with ⟨id, typ, o, v', hid, hty, hd, rfl, h1, h2⟩ | ⟨e, h1, h2⟩ | ⟨h1, h2⟩
    · rw [h1]
      obtain ⟨st, n, hn, h0, hlast, hstep, hok⟩ := ih (insert v o) (ascending_insert hv o)
      obtain ⟨hoid, hoty, hm⟩ := describe_matches env t id typ _ hty hid (fun o ho => find_id ho) o hd
      refine ⟨fun k => if k = 0 then find v else st (k - 1), n + 1, by simpa using hn, rfl, ?_, ?_, ?_⟩
      · simpa using hlast
      · intro k hk
        cases k with
        | zero =>
          refine ⟨o, ?_, ?_, ?_⟩
          · simp [hid, hoid]
          · intro t' ht'
            simp only [List.getElem?_cons_zero, Option.some.injEq] at ht'
            subst ht'
            simpa [hoid, hoty] using hm
          · funext k
            simp only [Nat.zero_add, Nat.one_ne_zero, if_false, Nat.sub_self, h0, if_true]
            rw [find_insert]
        | succ k =>
          obtain ⟨o', ha, hb, hc⟩ := hstep k (by omega)
          refine ⟨o', by simpa using ha, ?_, by simpa using hc⟩
          simpa using hb
      · simpa using hok
    · rw [h1]
      exact ⟨fun _ => find v, 0, Nat.zero_le _, rfl, rfl, by simp, by simp⟩
    · rw [h1]
      exact ⟨fun _ => find v, 0, Nat.zero_le _, rfl, rfl, by simp, by simp⟩

/-- C33: objects whose id does not occur in the message are unchanged, whether the
message is accepted or refused. -/
theorem unlisted_unchanged (env : Env K E R L) (ts : List (ObjTree K E R L)) (v : Vec K E R L)
    (hv : Ascending v) (id : Nat) (hid : ∀ t ∈ ts, t.id ≠ .val id) :
    find (updateObjectVector env (some (some ts)) v).2 id = find v id := by
  obtain ⟨st, n, hn, h0, hl, hs, _⟩ := update_node_by_node env ts v hv
  rw [← hl, ← h0]
  have : ∀ k, k ≤ n → st k id = st 0 id := by
    intro k hk
    induction k with
    | zero => rfl
    | succ k ih =>
      obtain ⟨o, ha, _, hc⟩ := hs k (by omega)
      rw [hc]
      have hne : id ≠ o.id := by
        intro e
        have hk' : k < ts.length := by omega
        rw [List.getElem?_eq_getElem hk'] at ha
        simp only [Option.map_some, Option.some.injEq] at ha
        exact hid ts[k] (List.getElem_mem hk') (by rw [ha, e])
      simp only [if_neg hne]
      exact ih (by omega)
  exact this n (Nat.le_refl n)

/-- C33: `fillObjectVector` is all or nothing: if it fails, the vector is unchanged;
if it succeeds, the vector contains exactly what the message makes of an empty
vector. -/
theorem fill_all_or_nothing (env : Env K E R L) (m : Message K E R L) (v : Vec K E R L) :
    ((fillObjectVector env m v).1 ≠ .ok () → (fillObjectVector env m v).2 = v) ∧
      ((fillObjectVector env m v).1 = .ok () →
        (updateObjectVector env m []).1 = .ok () ∧
        (fillObjectVector env m v).2 = (updateObjectVector env m []).2) := by
  simp only [fillObjectVector]
  cases h : updateObjectVector env m ([] : Vec K E R L) with
  | mk r w => cases r <;> simp

/-- Neither undefined behaviour nor a C string. -/
def Std {α : Type} : Outcome α → Prop
  | .ok _ => True
  | .throw .cString => False
  | .throw _ => True
  | .ub => False

theorem std_bind {α β : Type} {x : Outcome α} {f : α → Outcome β} (hx : Std x)
    (hf : ∀ a, Std (f a)) : Std (x >>= f) := by
  cases x with
  | ok a => exact hf a
  | throw e => cases e <;> simp_all [Std]
  | ub => simp [Std] at hx

theorem std_asInvalid {α : Type} {x : Outcome α} (hx : Std x) : Std (asInvalid x) := by
  cases x with
  | ok a => trivial
  | throw e => cases e <;> simp_all [Std, asInvalid]
  | ub => simp [Std] at hx

theorem std_get {α : Type} (e : Entry α) : Std e.get := by cases e <;> trivial

theorem std_parseChannels {t : ObjTree K E R L} (o : Obj K E R L)
    (h : ∀ text, t.channels = .val text →
      ChannelList.parse text ≠ .ub ∧ ChannelList.parse text ≠ .throw .cString) :
    Std (parseChannels t o) := by
  simp only [parseChannels]
  cases hc : t.channels with
  | val text =>
    obtain ⟨h1, h2⟩ := h text hc
    simp only [Entry.get, Outcome.ok_bind]
    cases hp : ChannelList.parse text with
    | ok l => trivial
    | throw e => cases e <;> simp_all [Std]
    | ub => simp_all
  | missing => trivial
  | malformed => trivial

theorem std_parseBase (env : Env K E R L) {t : ObjTree K E R L} (o : Obj K E R L)
    (h : ∀ text, t.channels = .val text →
      ChannelList.parse text ≠ .ub ∧ ChannelList.parse text ≠ .throw .cString) :
    Std (parseBase env t o) := by
  simp only [parseBase]
  refine std_bind (std_parseChannels o h) fun o1 => std_bind (std_get _) fun _ =>
    std_bind (std_get _) fun _ => std_bind (std_get _) fun _ => std_bind ?_ fun _ => trivial
  split_ifs
  · exact std_get _
  · trivial

theorem std_parsePosition (env : Env K E R L) (p : PosTree K) : Std (parsePosition env p) := by
  simp only [parsePosition]
  split_ifs
  · trivial
  · trivial
  · split <;> trivial
  · split <;> trivial

theorem std_parsePoint (env : Env K E R L) {t : ObjTree K E R L} (o : Obj K E R L)
    (h : ∀ text, t.channels = .val text →
      ChannelList.parse text ≠ .ub ∧ ChannelList.parse text ≠ .throw .cString) :
    Std (parsePoint env t o) := by
  simp only [parsePoint]
  refine std_bind (std_parseBase env o h) fun o1 => std_asInvalid (std_bind ?_ fun _ => trivial)
  cases t.position with
  | none => trivial
  | some p => exact std_parsePosition env p

theorem std_describe (env : Env K E R L) {t : ObjTree K E R L} (id : Nat) (typ : ObjType)
    (old : Option (Obj K E R L))
    (h : ∀ text, t.channels = .val text →
      ChannelList.parse text ≠ .ub ∧ ChannelList.parse text ≠ .throw .cString) :
    Std (describe env t id typ old) := by
  have hp := fun o => std_parsePoint env (t := t) o h
  have hb := fun o => std_parseBase env (t := t) o h
  cases typ <;> simp only [describe, parserFor, Outcome.ok_bind, Outcome.throw_bind]
  · exact hp _
  · exact std_asInvalid (std_bind (std_asInvalid (std_bind (hp _) fun _ =>
      std_bind (std_get _) fun _ => trivial)) fun _ => std_bind (std_get _) fun _ =>
      std_bind (std_get _) fun _ => trivial)
  · exact std_bind (hb _) fun _ => std_asInvalid (std_bind (std_get _) fun _ =>
      std_bind (std_get _) fun _ => std_bind (std_get _) fun _ => trivial)
  · exact std_asInvalid (hb _)
  · exact std_asInvalid (std_bind (hp _) fun _ => std_bind (std_get _) fun _ => trivial)
  · trivial
  · refine std_bind (hb _) fun _ => std_asInvalid (std_bind (std_get _) fun _ => ?_)
    split_ifs <;> trivial
  · refine std_asInvalid (std_bind (hb _) fun _ => std_bind (std_get _) fun _ => ?_)
    split_ifs <;> trivial
  · exact std_asInvalid (std_bind (hp _) fun _ => std_bind (std_get _) fun _ => trivial)

theorem applyNode_std (env : Env K E R L) {t : ObjTree K E R L} (f : Nat → Option (Obj K E R L))
    (h : ∀ text, t.channels = .val text →
      ChannelList.parse text ≠ .ub ∧ ChannelList.parse text ≠ .throw .cString) :
    (∃ g, applyNode env t f = .ok g) ∨ applyNode env t f = .throw .invalidArgument := by
  simp only [applyNode]
  split
  · rename_i typ id _ _
    have := std_describe env id typ (f id) h
    split
    · exact .inl ⟨_, rfl⟩
    · simp_all [Std]
    · exact .inr rfl
    · simp_all [Std]
  · exact .inr rfl

/-- C33: a message is accepted or refused with an exception of the standard library,
unless the text of some channel entry is one of those for which `IndexSequence`
throws a C string or overflows. -/
theorem update_outcomes (env : Env K E R L) (m : Message K E R L) (v : Vec K E R L)
    (hv : Ascending v)
    (hm : ∀ ts, m = some (some ts) → ∀ t ∈ ts, ∀ text, t.channels = .val text →
      ChannelList.parse text ≠ .ub ∧ ChannelList.parse text ≠ .throw .cString) :
    (updateObjectVector env m v).1 = .ok () ∨
      (updateObjectVector env m v).1 = .throw .invalidArgument ∨
      (updateObjectVector env m v).1 = .throw .runtimeError := by
  rw [(update_eq env m v hv).1]
  rcases m with _ | _ | ts
  · exact .inr (.inl rfl)
  · exact .inr (.inr rfl)
  · have hm := hm ts rfl
    simp only [applyMessage]
    generalize find v = f
    induction ts generalizing f with
    | nil => exact .inl rfl
    | cons t ts ih =>
      rw [applyNodes]
      rcases applyNode_std env f (hm t (by simp)) with ⟨g, hg⟩ | hg
      · rw [hg]; exact ih (fun ts' h' t ht => by injection h' with h'; injection h' with h'; subst h'; exact hm t (by simp [ht])) (fun t ht => hm t (by simp [ht])) g
      · rw [hg]; exact .inr (.inl rfl)

theorem parseBase_complete {env : Env K E R L} {t : ObjTree K E R L} {typ : ObjType} {ch : List Nat}
    (h : t.Complete typ ch) (o : Obj K E R L) :
    ∃ o1, parseBase env t o = .ok o1 ∧ o1.channels = ch := by
  obtain ⟨text, l, hc, hp, hch⟩ := h.channels
  obtain ⟨g, hg⟩ := h.group
  obtain ⟨lv, hl⟩ := h.level
  obtain ⟨pr, hpr⟩ := h.priority
  have he : ∃ e, (if t.eq.present then t.eq.get else .ok env.eq0) = .ok e := by
    have := h.eq
    cases hq : t.eq <;> simp_all [Entry.present, Entry.get]
  obtain ⟨e, he⟩ := he
  refine ⟨{ o with channels := ch, group := g, level := lv, priority := pr, eq := e }, ?_, rfl⟩
  simp only [parseBase, parseChannels, hc, hg, hl, hpr, Entry.get, Outcome.ok_bind, hp, ← hch]
  simp only [Entry.get] at he
  rw [he]
  rfl

theorem parsePosition_complete (env : Env K E R L) {p : PosTree K} (h : p.Complete) :
    ∃ q, parsePosition env p = .ok q := by
  obtain ⟨x, y, z, az, el, r⟩ := p
  rcases h with ⟨⟨a, ha⟩, ⟨b, hb⟩, h1, h2, h3⟩ | ⟨⟨a, ha⟩, ⟨b, hb⟩, h1, h2, h3⟩
  · simp only at ha hb h1 h2 h3
    subst ha hb
    cases az <;> cases el <;> cases r <;> simp_all [parsePosition, Entry.get?]
  · simp only at ha hb h1 h2 h3
    subst ha hb
    cases x <;> cases y <;> cases z <;> simp_all [parsePosition, Entry.get?]

theorem parsePoint_complete {env : Env K E R L} {t : ObjTree K E R L} {typ : ObjType} {ch : List Nat}
    (h : t.Complete typ ch) (hp : ∃ p, t.position = some p ∧ p.Complete) (o : Obj K E R L) :
    ∃ o1, parsePoint env t o = .ok o1 := by
  obtain ⟨o1, h1, _⟩ := parseBase_complete (env := env) h o
  obtain ⟨p, hp, hc⟩ := hp
  obtain ⟨q, hq⟩ := parsePosition_complete env hc
  exact ⟨_, by simp only [parsePoint, h1, Outcome.ok_bind, hp, hq]; rfl⟩

/-- C33: every complete message is accepted: if every node gives what its type needs,
the update succeeds, whatever the vector contained. -/
theorem complete_accepted (env : Env K E R L) (ts : List (ObjTree K E R L)) (v : Vec K E R L)
    (hv : Ascending v) (h : ∀ t ∈ ts, ∃ typ ch, t.Complete typ ch) :
    (updateObjectVector env (some (some ts)) v).1 = .ok () := by
  rw [(update_eq env _ v hv).1]
  simp only [applyMessage]
  generalize find v = f
  induction ts generalizing f with
  | nil => rfl
  | cons t ts ih =>
    obtain ⟨typ, ch, hc⟩ := h t (by simp)
    obtain ⟨id, hid⟩ := hc.id
    have hd : ∃ o, describe env t id typ (f id) = .ok o := by
      have hb := fun o => parseBase_complete (env := env) hc o
      have hpt := fun hp o => parsePoint_complete (env := env) hc hp o
      have ha := hc.attributes
      cases typ <;> simp only [describe, parserFor, Outcome.ok_bind, Outcome.throw_bind] <;>
        simp only [ObjTree.Attributes] at ha
      · exact hpt ha _
      · obtain ⟨hp, ⟨d, hd⟩, ⟨w, hw⟩, ⟨hh, hhh⟩⟩ := ha
        obtain ⟨o1, ho1⟩ := hpt hp (startObj env id .pointExtent (f id))
        exact ⟨_, by simp only [parseExtent, parsePointDiffuse, ho1, Outcome.ok_bind, hd, hw, hhh, Entry.get, asInvalid]; rfl⟩
      · obtain ⟨⟨d, hd⟩, ⟨w, hw⟩, ⟨hh, hhh⟩⟩ := ha
        obtain ⟨o1, ho1, _⟩ := hb (startObj env id .plane (f id))
        exact ⟨_, by simp only [parsePlane, ho1, Outcome.ok_bind, hd, hw, hhh, Entry.get, asInvalid]; rfl⟩
      · obtain ⟨o1, ho1, _⟩ := hb (startObj env id .diffuse (f id))
        exact ⟨_, by simp only [parseDiffuse, ho1, asInvalid]; rfl⟩
      · obtain ⟨hp, ⟨d, hd⟩⟩ := ha
        obtain ⟨o1, ho1⟩ := hpt hp (startObj env id .pointDiffuse (f id))
        exact ⟨_, by simp only [parsePointDiffuse, ho1, Outcome.ok_bind, hd, Entry.get, asInvalid]; rfl⟩
      · obtain ⟨n, hn, hlen⟩ := ha
        obtain ⟨o1, ho1, hch⟩ := hb (startObj env id .hoa (f id))
        exact ⟨_, by simp only [parseHoa, ho1, Outcome.ok_bind, hn, Entry.get, hch, ← hlen, ne_eq, not_true_eq_false, if_false, asInvalid]; rfl⟩
      · obtain ⟨n, hn, hlen⟩ := ha
        obtain ⟨o1, ho1, hch⟩ := hb (startObj env id .channel (f id))
        exact ⟨_, by simp only [parseChannelObject, ho1, Outcome.ok_bind, hn, Entry.get, hch, hlen, ne_eq, not_true_eq_false, if_false, asInvalid]; rfl⟩
      · obtain ⟨hp, ⟨d, hd⟩⟩ := ha
        obtain ⟨o1, ho1⟩ := hpt hp (startObj env id .pointReverb (f id))
        exact ⟨_, by simp only [parseReverb, ho1, Outcome.ok_bind, hd, Entry.get, asInvalid]; rfl⟩
    obtain ⟨o, ho⟩ := hd
    rw [applyNodes]
    simp only [applyNode, hc.typ, hid, ho]
    exact ih (fun t ht => h t (by simp [ht])) _

/-! ### Findings -/

/-- Finding: assigning a vector to itself empties it (`object_vector.cpp:25-32`). -/
theorem assign_self_empties (env : Env K E R L) (w : World K E R L) (i : Nat) :
    (step env w (.assign i i)).1 i = [] := by
  simp [step, put, assignSelf, assign]

/-- Finding: inserting an element of the vector into the same vector, for example
`v.insert( v.at( id ) )`, reads an object after its destruction
(`object_vector.cpp:59-67`). -/
theorem insert_own_is_ub (env : Env K E R L) (w : World K E R L) (i id : Nat) (o : Obj K E R L)
    (h : find (w i) id = some o) : (step env w (.insertOwn i id)).2 = .ub := by
  simp [step, insertOwn, h, keep]

theorem describe_cString (env : Env K E R L) (t : ObjTree K E R L) (id : Nat) (typ : ObjType)
    (old : Option (Obj K E R L)) (text : List Char) (ht : t.channels = .val text)
    (hc : ChannelList.parse text = .throw .cString) (hty : typ ≠ .extended) :
    describe env t id typ old = .throw .cString := by
  have h1 : ∀ o, parseBase env t o = .throw .cString := by
    intro o
    simp [parseBase, parseChannels, ht, Entry.get, hc]
  have h2 : ∀ o, parsePoint env t o = .throw .cString := by
    intro o; simp [parsePoint, h1]
  cases typ <;> simp_all [describe, parserFor, parseExtent, parsePlane, parseDiffuse,
    parsePointDiffuse, parseHoa, parseChannelObject, parseReverb, asInvalid]

/-- Finding: a message whose channel text has a group with step zero (or a negative
index) makes the update throw a C string, which none of the handlers for
`std::exception` in the parsers, in `updateObjectVector` and in the scene decoder
catches. -/
theorem bad_index_escapes (env : Env K E R L) (t : ObjTree K E R L) (ts : List (ObjTree K E R L))
    (v : Vec K E R L) (hv : Ascending v) (id : Nat) (typ : ObjType) (hid : t.id = .val id)
    (hty : t.typ = .val (some typ)) (hne : typ ≠ .extended) (is : List ChannelList.Item)
    (hs : ∀ i ∈ is, i.Small) (hz : ∃ i ∈ is, i.ZeroStep)
    (ht : t.channels = .val (ChannelList.text is)) :
    (updateObjectVector env (some (some (t :: ts))) v).1 = .throw .cString := by
  rw [(update_eq env _ v hv).1]
  simp only [applyMessage, applyNodes, applyNode, hid, hty]
  rw [describe_cString env t id typ _ _ ht (ChannelList.sequence_zero_step is hs hz) hne]

/-! ### The hypotheses are met -/

/-- An environment and nodes over integers. -/
def exEnv : Env Int Nat Nat Nat where
  zero := 0
  one := 1
  eq0 := 0
  reverb0 := 0
  sph := fun a e r => (r * a, r * e, r)

/-- A node with everything missing. -/
def emptyTree : ObjTree Int Nat Nat Nat where
  typ := .missing
  id := .missing
  channels := .missing
  group := .missing
  level := .missing
  priority := .missing
  eq := .missing
  position := none
  lock := .missing
  diffuseness := .missing
  width := .missing
  height := .missing
  depth := .missing
  az := .missing
  el := .missing
  refdist := .missing
  order := .missing
  outputs := .missing
  room := .missing

/-- A point source with id 7 on channel 3. -/
def exPoint : ObjTree Int Nat Nat Nat :=
  { emptyTree with typ := .val (some .point), id := .val 7, channels := .val (ChannelList.text [.single 3]),
                   group := .val 1, level := .val 5, priority := .val 0,
                   position := some ⟨.val 1, .val 2, .missing, .missing, .missing, .missing⟩ }

theorem parse_single (n : Nat) (h : n < 2 ^ 30) :
    ChannelList.parse (ChannelList.text [.single n]) = .ok [(n : Int)] := by
  obtain ⟨l, hl, hp⟩ := ChannelList.sequence_expands [.single n] (by simpa [ChannelList.Item.Small] using h)
    (by simp [ChannelList.Item.ZeroStep])
  rw [hp]
  cases hl with
  | cons h1 h2 =>
    cases h2
    simp only [ChannelList.Denotes] at h1
    simp [h1]

theorem exPoint_complete : exPoint.Complete .point [3] where
  typ := rfl
  id := ⟨7, rfl⟩
  group := ⟨1, rfl⟩
  level := ⟨5, rfl⟩
  priority := ⟨0, rfl⟩
  eq := by simp [exPoint, emptyTree]
  channels := ⟨_, _, rfl, parse_single 3 (by decide), rfl⟩
  attributes := ⟨_, rfl, .inl ⟨⟨1, rfl⟩, ⟨2, rfl⟩, by simp, by simp, by simp⟩⟩

/-- The point source is stored with its channel, coordinates (the missing `z` is 0)
and level. -/
example : ∃ o, find (updateObjectVector exEnv (some (some [exPoint])) []).2 7 = some o ∧
    o.channels = [3] ∧ (o.x, o.y, o.z) = (1, 2, 0) ∧ o.level = 5 := by
  have hc : ChannelList.parse (ChannelList.text [.single 3]) = .ok [3] := parse_single 3 (by decide)
  simp [updateObjectVector, updateLoop, parseObject, exPoint, emptyTree, Entry.get, parserFor, find,
    create, parsePoint, parseBase, parseChannels, hc, Entry.present, parsePosition, Entry.get?,
    Entry.getD, asInvalid, insert, setInsert, exEnv]

/-- A message with a good node, a node of an unknown type and another good node: the
first is applied, the call fails, the third is not applied. -/
example : ∃ o, updateObjectVector exEnv (some (some [exPoint, { exPoint with id := .val 8, typ := .val none },
    { exPoint with id := .val 9 }])) [] = (.throw .invalidArgument, [o]) ∧ o.id = 7 := by
  have hc : ChannelList.parse (ChannelList.text [.single 3]) = .ok [3] := parse_single 3 (by decide)
  simp [updateObjectVector, updateLoop, parseObject, exPoint, emptyTree, Entry.get, parserFor, find,
    create, parsePoint, parseBase, parseChannels, hc, Entry.present, parsePosition, Entry.get?,
    Entry.getD, asInvalid, insert, setInsert, exEnv]

/-- A history without self use in which two vectors get different contents. -/
example : ∀ op ∈ [Op.update 0 (some (some [exPoint])), .assign 1 0, .remove 0 7, .at 1 7, .swap 0 1],
    ¬ op.SelfUse := by
  simp [Op.SelfUse]

/-- A channel text which escapes all handlers: `1:0:2`. -/
example : ∃ i ∈ [ChannelList.Item.stepped 1 0 2], i.ZeroStep := by simp [ChannelList.Item.ZeroStep]

end Visr.ObjectVector
