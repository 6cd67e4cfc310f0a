import Verif.Jack.Spec
import Mathlib.Data.List.Basic

/-! # The names computed from the configuration -/

namespace Visr.Jack
open Visr

/-- The vector of `n` names after the names `w` have been written. -/
def pad (n : Nat) (w : List Name) : List Name := w ++ List.replicate (n - w.length) []

theorem pad_length {n : Nat} {w : List Name} (h : w.length ≤ n) : (pad n w).length = n := by
  simp [pad]; omega

theorem putAll_pad (n : Nat) : ∀ (l w : List Name), w.length ≤ n →
    putAll (pad n w) w.length l =
      if (w ++ l).length ≤ n then .ok (pad n (w ++ l), (w ++ l).length) else .ub := by
  intro l
  induction l with
  | nil => intro w h; simp [putAll, h]
  | cons a l ih =>
    intro w h
    rw [putAll, put, pad_length h]
    by_cases hw : w.length < n
    · rw [if_pos hw]
      have e : (pad n w).set w.length a = pad n (w ++ [a]) := by
        have hr : List.replicate (n - w.length) ([] : Name) = [] :: List.replicate (n - (w.length + 1)) [] := by
          rw [← List.replicate_succ]; congr 1; omega
        simp [pad, hr]
      have := ih (w ++ [a]) (by simp; omega)
      simp only [Outcome.ok_bind, e]
      simp only [List.length_append, List.length_singleton, List.append_assoc, List.singleton_append] at this
      rw [this]
      simp [Nat.add_comm, Nat.add_left_comm, Nat.add_assoc]
    · rw [if_neg hw, if_neg (by simp; omega)]
      simp

/-- Loading the port names of one element. -/
theorem loadNames_iff {n : Nat} {t : Name} {e : PortEntry} {s s' : Load} {w : List Name} (hw : w.length ≤ n)
    (h1 : s.names = pad n w) (h2 : s.idx = w.length) :
    loadNames n t e s = .ok s' ↔ ∃ l, EntryNames n t e l ∧ (w ++ l).length ≤ n ∧
      s' = { s with names := pad n (w ++ l), idx := (w ++ l).length } := by
  have hput : ∀ l, putAll s.names s.idx l =
      if (w ++ l).length ≤ n then .ok (pad n (w ++ l), (w ++ l).length) else .ub := by
    intro l; rw [h1, h2]; exact putAll_pad n l w hw
  have hall : e.indices = none ∨ e.basename = none → (loadNames n t e s = .ok s' ↔ ∃ l, EntryNames n t e l ∧
      (w ++ l).length ≤ n ∧ s' = { s with names := pad n (w ++ l), idx := (w ++ l).length }) := by
    intro hno
    have hu : loadNames n t e s = (do
        let r ← putAll s.names s.idx ((List.range n).map fun (k : Nat) => numbered (e.basename.getD t) k)
        .ok { s with names := r.1, idx := r.2 }) := by
      unfold loadNames
      split
      · rename_i h3 h4; rw [h3, h4] at hno; simp at hno
      · rfl
    rw [hu, hput]
    constructor
    · intro h
      split_ifs at h with hl
      · simp only [Outcome.ok_bind, Outcome.ok.injEq] at h
        exact ⟨_, .all hno.symm, hl, h.symm⟩
      · simp at h
    · rintro ⟨l, hl, hlen, rfl⟩
      cases hl with
      | listed base text l hb hi _ => rw [hb, hi] at hno; simp at hno
      | all _ =>
        have hlen' : (w ++ (List.range n).map fun (k : Nat) => numbered (e.basename.getD t) k).length ≤ n := hlen
        rw [if_pos hlen']; rfl
  cases hi : e.indices with
  | none => exact hall (Or.inl hi)
  | some text =>
    cases hb : e.basename with
    | none => exact hall (Or.inr hb)
    | some base =>
      have hu : loadNames n t e s = (do
          let l ← ChannelList.parse text
          if l.length > n then .throw .invalidArgument
          else do
            let r ← putAll s.names s.idx (l.map (numbered base))
            .ok { s with names := r.1, idx := r.2 }) := by
        unfold loadNames; rw [hi, hb]
      rw [hu]
      constructor
      · intro h
        cases hp : ChannelList.parse text with
        | throw x => simp [hp] at h
        | ub => simp [hp] at h
        | ok l =>
          simp only [hp, Outcome.ok_bind] at h
          by_cases hl : l.length > n
          · rw [if_pos hl] at h; simp at h
          · rw [if_neg hl, hput] at h
            split_ifs at h with hl2
            · simp only [Outcome.ok_bind, Outcome.ok.injEq] at h
              exact ⟨_, .listed base text l hb hi hp, hl2, h.symm⟩
            · simp at h
      · rintro ⟨l, hl, hlen, rfl⟩
        cases hl with
        | listed base' text' l hb' hi' hp =>
          rw [hb] at hb'; rw [hi] at hi'
          simp only [Option.some.injEq] at hb' hi'
          subst hb' hi'
          rw [show ChannelList.parse text = .ok l from hp]
          have hlen' : (w ++ l.map (numbered base)).length ≤ n := hlen
          have : ¬ l.length > n := by simp at hlen; omega
          simp only [Outcome.ok_bind, this, if_false, hput, hlen', if_true]
          rfl
        | all hno => rw [hb, hi] at hno; simp at hno

/-- The default base name of external ports. -/
def extBase (t : Name) : Name := if t = "in_".toList then "capture_".toList else "playback_".toList

/-- The loop variables hold the values of the last `externalport` node `x`. -/
def Last (t : Name) (x : Ext) (s : Load) : Prop :=
  s.client.getD "system".toList = x.client.getD "system".toList ∧
    s.base.getD (extBase t) = x.portname.getD (extBase t) ∧ s.extIndices = x.indices

theorem readExt_last {t : Name} {e : PortEntry} {x : Ext} {s : Load} (h : Last t x s) :
    Last t (e.ext.getD x) (readExt t e s) ∧ (readExt t e s).client = some ((e.ext.getD x).client.getD "system".toList) ∧
      (readExt t e s).base = some ((e.ext.getD x).portname.getD (extBase t)) ∧
      (readExt t e s).names = s.names ∧ (readExt t e s).idx = s.idx ∧ (readExt t e s).ext = s.ext ∧
      (readExt t e s).extIdx = s.extIdx := by
  obtain ⟨h1, h2, h3⟩ := h
  cases he : e.ext with
  | none =>
    have e1 : (readExt t e s).client = some (x.client.getD "system".toList) := by
      simp only [readExt, he]; rw [← h1]
    have e2 : (readExt t e s).base = some (x.portname.getD (extBase t)) := by
      simp only [readExt, he]; rw [← h2]; rfl
    have e3 : (readExt t e s).extIndices = x.indices := by
      simp only [readExt, he]; exact h3
    refine ⟨⟨?_, ?_, e3⟩, e1, e2, ?_, ?_, ?_, ?_⟩
    · rw [e1]; rfl
    · rw [e2]; rfl
    all_goals simp only [readExt, he]
  | some y =>
    have e1 : (readExt t e s).client = some (y.client.getD "system".toList) := by
      simp only [readExt, he]
    have e2 : (readExt t e s).base = some (y.portname.getD (extBase t)) := by
      simp only [readExt, he]; rfl
    have e3 : (readExt t e s).extIndices = y.indices := by
      simp only [readExt, he]
    refine ⟨⟨?_, ?_, e3⟩, e1, e2, ?_, ?_, ?_, ?_⟩
    · rw [e1]; rfl
    · rw [e2]; rfl
    all_goals simp only [readExt, he]

/-- Loading the external names of one element. -/
theorem loadExt_iff {n : Nat} {t : Name} {e : PortEntry} {s s' : Load} {w : List Name} {x : Ext} (hw : w.length ≤ n)
    (h1 : s.ext = pad n w) (h2 : s.extIdx = w.length) (hx : Last t x s) :
    loadExt n t e s = .ok s' ↔ ∃ l, ExtNames n (extBase t) (e.ext.getD x) l ∧ (w ++ l).length ≤ n ∧
      s' = { readExt t e s with ext := pad n (w ++ l), extIdx := (w ++ l).length } := by
  obtain ⟨⟨_, _, k1⟩, k2, k3, _, _, k6, k7⟩ := readExt_last (e := e) hx
  have hput : ∀ l, putAll (readExt t e s).ext (readExt t e s).extIdx l =
      if (w ++ l).length ≤ n then .ok (pad n (w ++ l), (w ++ l).length) else .ub := by
    intro l; rw [k6, k7, h1, h2]; exact putAll_pad n l w hw
  cases hi : (e.ext.getD x).indices with
  | none =>
    rw [hi] at k1
    have hu : loadExt n t e s = (do
        let r ← putAll (readExt t e s).ext (readExt t e s).extIdx ((List.range n).map fun (k : Nat) =>
          external ((e.ext.getD x).client.getD "system".toList) ((e.ext.getD x).portname.getD (extBase t)) (k + 1 : Nat))
        .ok { readExt t e s with ext := r.1, extIdx := r.2 }) := by
      simp only [loadExt, k1, k2, k3, Option.getD_some]
    rw [hu, hput]
    constructor
    · intro h
      split_ifs at h with hl
      · simp only [Outcome.ok_bind, Outcome.ok.injEq] at h
        exact ⟨_, .all hi, hl, h.symm⟩
      · simp at h
    · rintro ⟨l, hl, hlen, rfl⟩
      cases hl with
      | listed text l hb _ => rw [hi] at hb; simp at hb
      | all _ =>
        have hlen' : (w ++ (List.range n).map fun (k : Nat) => external ((e.ext.getD x).client.getD "system".toList)
          ((e.ext.getD x).portname.getD (extBase t)) (k + 1 : Nat)).length ≤ n := hlen
        rw [if_pos hlen']; rfl
  | some text =>
    rw [hi] at k1
    have hu : loadExt n t e s = (do
        let l ← ChannelList.parse text
        let r ← putAll (readExt t e s).ext (readExt t e s).extIdx (l.map
          (external ((e.ext.getD x).client.getD "system".toList) ((e.ext.getD x).portname.getD (extBase t))))
        .ok { readExt t e s with ext := r.1, extIdx := r.2 }) := by
      simp only [loadExt, k1, k2, k3, Option.getD_some]
    rw [hu]
    constructor
    · intro h
      cases hp : ChannelList.parse text with
      | throw x => simp [hp] at h
      | ub => simp [hp] at h
      | ok l =>
        simp only [hp, Outcome.ok_bind] at h
        rw [hput] at h
        split_ifs at h with hl
        · simp only [Outcome.ok_bind, Outcome.ok.injEq] at h
          exact ⟨_, .listed text l hi hp, hl, h.symm⟩
        · simp at h
    · rintro ⟨l, hl, hlen, rfl⟩
      cases hl with
      | listed text' l hi' hp =>
        rw [hi] at hi'
        simp only [Option.some.injEq] at hi'
        subst hi'
        rw [show ChannelList.parse text = .ok l from hp]
        have hlen' : (w ++ l.map (external ((e.ext.getD x).client.getD "system".toList)
          ((e.ext.getD x).portname.getD (extBase t)))).length ≤ n := hlen
        simp only [Outcome.ok_bind, hput, hlen', if_true]
        rfl
      | all hno => rw [hi] at hno; simp at hno

/-- The `externalport` nodes in force for the elements: the last one given. -/
def effective (x : Ext) : List PortEntry → List Ext
  | [] => []
  | e :: es => e.ext.getD x :: effective (e.ext.getD x) es

/-- The state of the loop after some elements. -/
structure At (n : Nat) (t : Name) (x : Ext) (w v : List Name) (s : Load) : Prop where
  wlen : w.length ≤ n
  vlen : v.length ≤ n
  names : s.names = pad n w
  idx : s.idx = w.length
  ext : s.ext = pad n v
  extIdx : s.extIdx = v.length
  last : Last t x s

theorem fold_iff (n : Nat) (t : Name) (auto : Bool) : ∀ (es : List PortEntry) (x : Ext) (w v : List Name) (s : Load),
    At n t x w v s → ∀ W V, (∃ s', es.foldlM (loadEntry n auto t) s = .ok s' ∧ s'.names = pad n W ∧ s'.idx = W.length ∧
        W.length ≤ n ∧ s'.ext = pad n V ∧ s'.extIdx = V.length ∧ V.length ≤ n) ↔
      ∃ parts eparts, List.Forall₂ (EntryNames n t) es parts ∧ W = w ++ parts.flatten ∧ W.length ≤ n ∧
        V = v ++ eparts.flatten ∧ V.length ≤ n ∧
        if auto then List.Forall₂ (ExtNames n (extBase t)) (effective x es) eparts else eparts = [] := by
  intro es
  have pad_inj : ∀ a b : List Name, pad n a = pad n b → a.length = b.length → a = b := by
    intro a b h hl
    exact List.append_inj_left h hl
  induction es with
  | nil =>
    intro x w v s a W V
    constructor
    · rintro ⟨s', h, h1, h2, h3, h4, h5, h6⟩
      simp only [List.foldlM_nil, Outcome.pure_eq, Outcome.ok.injEq] at h
      subst h
      refine ⟨[], [], .nil, ?_, h3, ?_, h6, ?_⟩
      · simp; exact pad_inj _ _ (h1.symm.trans a.names) (h2.symm.trans a.idx)
      · simp; exact pad_inj _ _ (h4.symm.trans a.ext) (h5.symm.trans a.extIdx)
      · cases auto <;> simp [effective]
    · rintro ⟨parts, eparts, hp, rfl, h2, rfl, h4, h5⟩
      cases hp
      have he : eparts = [] := by cases auto <;> simpa [effective] using h5
      subst he
      exact ⟨s, rfl, by simp [a.names], by simp [a.idx], h2, by simp [a.ext], by simp [a.extIdx], h4⟩
  | cons e es ih =>
    intro x w v s a W V
    rw [List.foldlM_cons]
    constructor
    · rintro ⟨s', h, hr⟩
      cases h1 : loadEntry n auto t s e with
      | throw y => simp [h1] at h
      | ub => simp [h1] at h
      | ok s1 =>
        simp only [h1, Outcome.ok_bind] at h
        rw [loadEntry] at h1
        cases h2 : loadNames n t e s with
        | throw y => simp [h2] at h1
        | ub => simp [h2] at h1
        | ok s2 =>
          simp only [h2, Outcome.ok_bind] at h1
          obtain ⟨l, hl, hlen, rfl⟩ := (loadNames_iff a.wlen a.names a.idx).1 h2
          cases auto with
          | false =>
            simp only [Bool.false_eq_true, if_false, Outcome.ok.injEq] at h1
            subst h1
            have a' : At n t x (w ++ l) v { s with names := pad n (w ++ l), idx := (w ++ l).length } :=
              ⟨hlen, a.vlen, rfl, rfl, a.ext, a.extIdx, a.last⟩
            obtain ⟨parts, eparts, q1, q2, q3, q4, q5, q6⟩ := (ih x _ v _ a' W V).1 ⟨s', h, hr⟩
            refine ⟨l :: parts, eparts, .cons hl q1, by simp [q2], q3, q4, q5, ?_⟩
            simpa using q6
          | true =>
            simp only [if_true] at h1
            obtain ⟨l', hl', hlen', rfl⟩ := (loadExt_iff (n := n) (w := v) (x := x)
              (s := { s with names := pad n (w ++ l), idx := (w ++ l).length }) a.vlen a.ext a.extIdx a.last).1 h1
            obtain ⟨r1, _, _, r4, r5, _, _⟩ := readExt_last (t := t) (e := e) (x := x)
              (s := { s with names := pad n (w ++ l), idx := (w ++ l).length }) a.last
            have a' : At n t (e.ext.getD x) (w ++ l) (v ++ l')
                { readExt t e { s with names := pad n (w ++ l), idx := (w ++ l).length } with
                  ext := pad n (v ++ l'), extIdx := (v ++ l').length } := ⟨hlen, hlen', r4, r5, rfl, rfl, r1⟩
            obtain ⟨parts, eparts, q1, q2, q3, q4, q5, q6⟩ := (ih _ _ _ _ a' W V).1 ⟨s', h, hr⟩
            refine ⟨l :: parts, l' :: eparts, .cons hl q1, by simp [q2], q3, by simp [q4], q5, ?_⟩
            simp only [if_true] at q6 ⊢
            exact .cons hl' q6
    · rintro ⟨parts, eparts, q1, q2, q3, q4, q5, q6⟩
      cases q1 with
      | cons hl q1 =>
        rename_i l parts
        have hlen : (w ++ l).length ≤ n := by rw [q2] at q3; simp at q3 ⊢; omega
        have h2 : loadNames n t e s = .ok { s with names := pad n (w ++ l), idx := (w ++ l).length } :=
          (loadNames_iff a.wlen a.names a.idx).2 ⟨l, hl, hlen, rfl⟩
        cases auto with
        | false =>
          have a' : At n t x (w ++ l) v { s with names := pad n (w ++ l), idx := (w ++ l).length } :=
            ⟨hlen, a.vlen, rfl, rfl, a.ext, a.extIdx, a.last⟩
          simp only [Bool.false_eq_true, if_false] at q6
          obtain ⟨s', h, hr⟩ := (ih x _ v _ a' W V).2 ⟨parts, eparts, q1, by simp [q2], q3, q4, q5, by simpa using q6⟩
          exact ⟨s', by rw [loadEntry, h2]; exact h, hr⟩
        | true =>
          simp only [if_true] at q6
          rw [effective] at q6
          cases q6 with
          | cons hl' q6 =>
            rename_i l' eparts
            have hlen' : (v ++ l').length ≤ n := by rw [q4] at q5; simp at q5 ⊢; omega
            have h3 := (loadExt_iff (n := n) (w := v) (x := x) (t := t) (e := e)
              (s := { s with names := pad n (w ++ l), idx := (w ++ l).length }) a.vlen a.ext a.extIdx a.last).2
              ⟨l', hl', hlen', rfl⟩
            obtain ⟨r1, _, _, r4, r5, _, _⟩ := readExt_last (t := t) (e := e) (x := x)
              (s := { s with names := pad n (w ++ l), idx := (w ++ l).length }) a.last
            have a' : At n t (e.ext.getD x) (w ++ l) (v ++ l')
                { readExt t e { s with names := pad n (w ++ l), idx := (w ++ l).length } with
                  ext := pad n (v ++ l'), extIdx := (v ++ l').length } := ⟨hlen, hlen', r4, r5, rfl, rfl, r1⟩
            obtain ⟨s', h, hr⟩ := (ih _ _ _ _ a' W V).2
              ⟨parts, eparts, q1, by simp [q2], q3, by simp [q4], q5, by simpa using q6⟩
            exact ⟨s', by rw [loadEntry, h2]; simp only [Outcome.ok_bind, if_true, h3]; exact h, hr⟩

theorem entries_eq (d : Option Dir) : entries d = elements d := by
  cases d <;> rfl

theorem auto_iff (d : Option Dir) (auto : Bool) : autoConnOf d auto = true ↔ Auto d auto := by
  cases d with
  | none => rfl
  | some d =>
    simp only [autoConnOf, Auto]
    cases d.autoconnect with
    | val b => cases b <;> simp [Entry.getD]
    | _ => simp [Entry.getD]

theorem pad_full {n : Nat} {w : List Name} (h : w.length = n) : pad n w = w := by simp [pad, h]

/-- A loop that succeeds stays in the described states. -/
theorem fold_state (n : Nat) (t : Name) (auto : Bool) : ∀ (es : List PortEntry) (x : Ext) (w v : List Name)
    (s s' : Load), At n t x w v s → es.foldlM (loadEntry n auto t) s = .ok s' →
      ∃ x' W V, At n t x' W V s' := by
  intro es
  induction es with
  | nil =>
    intro x w v s s' a h
    simp only [List.foldlM_nil, Outcome.pure_eq, Outcome.ok.injEq] at h
    subst h
    exact ⟨x, w, v, a⟩
  | cons e es ih =>
    intro x w v s s' a h
    rw [List.foldlM_cons] at h
    cases h1 : loadEntry n auto t s e with
    | throw y => simp [h1] at h
    | ub => simp [h1] at h
    | ok s1 =>
      simp only [h1, Outcome.ok_bind] at h
      rw [loadEntry] at h1
      cases h2 : loadNames n t e s with
      | throw y => simp [h2] at h1
      | ub => simp [h2] at h1
      | ok s2 =>
        simp only [h2, Outcome.ok_bind] at h1
        obtain ⟨l, hl, hlen, rfl⟩ := (loadNames_iff a.wlen a.names a.idx).1 h2
        cases auto with
        | false =>
          simp only [Bool.false_eq_true, if_false, Outcome.ok.injEq] at h1
          subst h1
          exact ih x (w ++ l) v { s with names := pad n (w ++ l), idx := (w ++ l).length } s' ⟨hlen, a.vlen, rfl, rfl, a.ext, a.extIdx, a.last⟩ h
        | true =>
          simp only [if_true] at h1
          obtain ⟨l', hl', hlen', rfl⟩ := (loadExt_iff (n := n) (w := v) (x := x)
              (s := { s with names := pad n (w ++ l), idx := (w ++ l).length }) a.vlen a.ext a.extIdx a.last).1 h1
          obtain ⟨r1, _, _, r4, r5, _, _⟩ := readExt_last (t := t) (e := e) (x := x)
            (s := { s with names := pad n (w ++ l), idx := (w ++ l).length }) a.last
          have a' : At n t (e.ext.getD x) (w ++ l) (v ++ l')
              { readExt t e { s with names := pad n (w ++ l), idx := (w ++ l).length } with
                ext := pad n (v ++ l'), extIdx := (v ++ l').length } := ⟨hlen, hlen', r4, r5, rfl, rfl, r1⟩
          exact ih _ _ _ _ s' a' h

/-- The configuration of one direction is loaded exactly if the described names fill the ports. -/
theorem load_iff (d : Option Dir) (n : Nat) (auto : Bool) (t : Name) (ns es : List Name) :
    loadPortConfig d n auto t = .ok (ns, es) ↔
      DescribedNames d n t ns ∧
        if autoConnOf d auto then
          ∃ eparts, List.Forall₂ (ExtNames n (extBase t)) (effective {} (elements d)) eparts ∧ es = eparts.flatten ∧
            es.length = n
        else es = List.replicate n [] := by
  have a0 : At n t {} [] [] ⟨List.replicate n [], List.replicate n [], 0, 0, none, none, none⟩ :=
    ⟨by simp, by simp, by simp [pad], rfl, by simp [pad], rfl, rfl, rfl, rfl⟩
  have key := fold_iff n t (autoConnOf d auto) (elements d) {} [] [] _ a0
  simp only [loadPortConfig, entries_eq]
  constructor
  · intro h
    cases hf : (elements d).foldlM (loadEntry n (autoConnOf d auto) t)
        ⟨List.replicate n [], List.replicate n [], 0, 0, none, none, none⟩ with
    | throw y => simp [hf] at h
    | ub => simp [hf] at h
    | ok s =>
      simp only [hf, Outcome.ok_bind] at h
      by_cases c1 : s.idx ≠ n
      · rw [if_pos c1] at h; simp at h
      rw [if_neg c1] at h
      by_cases c2 : autoConnOf d auto = true ∧ s.extIdx ≠ n
      · rw [if_pos c2] at h; simp at h
      rw [if_neg c2] at h
      simp only [Outcome.ok.injEq, Prod.mk.injEq] at h
      obtain ⟨rfl, rfl⟩ := h
      obtain ⟨x', W, V, a⟩ := fold_state n t (autoConnOf d auto) _ _ _ _ _ s a0 hf
      have hW : W.length = n := by rw [← a.idx]; exact not_not.1 c1
      obtain ⟨parts, eparts, q1, q2, q3, q4, q5, q6⟩ :=
        (key W V).1 ⟨s, hf, a.names, a.idx, a.wlen, a.ext, a.extIdx, a.vlen⟩
      refine ⟨⟨parts, q1, ?_, ?_⟩, ?_⟩
      · rw [a.names, pad_full hW, q2]; simp
      · rw [a.names, pad_full hW, hW]
      · cases hauto : autoConnOf d auto with
        | true =>
          rw [hauto] at q6 c2
          have hV : V.length = n := by rw [← a.extIdx]; by_contra hc; exact c2 ⟨rfl, hc⟩
          simp only [if_true] at q6 ⊢
          exact ⟨eparts, q6, by rw [a.ext, pad_full hV, q4]; simp, by rw [a.ext, pad_full hV, hV]⟩
        | false =>
          rw [hauto] at q6
          simp only [Bool.false_eq_true, if_false] at q6 ⊢
          subst q6
          rw [a.ext, q4]; simp [pad]
  · rintro ⟨⟨parts, q1, q2, q3⟩, h⟩
    cases hauto : autoConnOf d auto with
    | true =>
      rw [hauto] at h key
      simp only [if_true] at h
      obtain ⟨eparts, e1, e2, e3⟩ := h
      obtain ⟨s, hf, k1, k2, k3, k4, k5, k6⟩ := (key ns es).2
        ⟨parts, eparts, q1, by simp [q2], by omega, by simp [e2], by omega, by simpa using e1⟩
      simp only [hf, Outcome.ok_bind, k2, q3, k5, e3, ne_eq, not_true_eq_false, if_false, and_false, k1, k4,
        pad_full q3, pad_full e3]
    | false =>
      rw [hauto] at h key
      simp only [Bool.false_eq_true, if_false] at h
      obtain ⟨s, hf, k1, k2, k3, k4, k5, k6⟩ := (key ns []).2
        ⟨parts, [], q1, by simp [q2], by omega, by simp, by simp, by simp⟩
      simp only [hf, Outcome.ok_bind, k2, q3, ne_eq, not_true_eq_false, if_false, Bool.false_eq_true, false_and, k1, k4,
        pad_full q3, h]
      simp [pad]

/-- If each element but the first has its own `externalport` node, these are in force. -/
theorem effective_own (x : Ext) : ∀ (es : List PortEntry), (∀ e ∈ es, e.ext ≠ none) →
    effective x es = es.map fun e => e.ext.getD {} := by
  intro es
  induction es generalizing x with
  | nil => intro _; rfl
  | cons e es ih =>
    intro h
    have he : e.ext.getD x = e.ext.getD {} := by
      cases hx : e.ext with
      | none => exact absurd hx (h e (by simp))
      | some y => rfl
    rw [effective, ih _ (fun e' he' => h e' (by simp [he']))]
    simp [he]

theorem effective_tail (es : List PortEntry) (h : ∀ e ∈ es.tail, e.ext ≠ none) :
    effective {} es = es.map fun e => e.ext.getD {} := by
  cases es with
  | nil => rfl
  | cons e es => rw [effective, effective_own _ es h]; rfl

end Visr.Jack
