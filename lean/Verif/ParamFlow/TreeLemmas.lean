import Verif.ParamFlow.Props
import Verif.Flow.Props
import Verif.Placeholder.Props

/-! # Lemmas about the parameter ports of component trees -/

namespace Visr.ParamFlow
open Visr Visr.Flow Visr.Protocol

variable {α : Type}

mutual
/-- All registered connections as pairs (receiver, sender). -/
def pairs : Comp → List (Nat × Nat)
  | .atom _ _ => []
  | .composite _ _ children _ pconns => pconns.map (fun k => (k.receiver, k.sender)) ++ pairsAll children
/-- The same for a list of components. -/
def pairsAll : List Comp → List (Nat × Nat)
  | [] => []
  | c :: cs => pairs c ++ pairsAll cs
end

mutual
theorem pairs_registered : ∀ c : Comp, (pairs c).map Prod.fst = registered c
  | .atom _ _ => rfl
  | .composite _ _ children _ pconns => by
    simp only [pairs, registered, List.map_append, List.map_map, pairsAll_registered children]
    rfl
theorem pairsAll_registered : ∀ cs : List Comp, (pairsAll cs).map Prod.fst = registeredAll cs
  | [] => rfl
  | c :: cs => by simp only [pairsAll, registeredAll, List.map_append, pairs_registered c, pairsAll_registered cs]
end

mutual
theorem mem_pairs : ∀ (c : Comp) (r s : Nat), (r, s) ∈ pairs c ↔ Connects c s r
  | .atom _ _, r, s => by
    simp only [pairs, List.not_mem_nil, false_iff]
    rintro ⟨_, _, _, _, _, h, _⟩
    cases h
  | .composite audio own children aconns pconns, r, s => by
    simp only [pairs, List.mem_append, List.mem_map, Prod.mk.injEq, mem_pairsAll children]
    constructor
    · rintro (⟨k, hk, h1, h2⟩ | ⟨c, hc, a, p, ch, ac, pc, hw, h⟩)
      · exact ⟨_, _, _, _, _, .self _, k, hk, h2, h1⟩
      · exact ⟨a, p, ch, ac, pc, .child hc hw, h⟩
    · rintro ⟨a, p, ch, ac, pc, hw, k, hk, h1, h2⟩
      cases hw with
      | self => exact Or.inl ⟨k, hk, h2, h1⟩
      | child hc hw => exact Or.inr ⟨_, hc, a, p, ch, ac, pc, hw, k, hk, h1, h2⟩
theorem mem_pairsAll : ∀ (cs : List Comp) (r s : Nat), (r, s) ∈ pairsAll cs ↔ ∃ c ∈ cs, Connects c s r
  | [], r, s => by simp [pairsAll]
  | c :: cs, r, s => by
    simp only [pairsAll, List.mem_append, mem_pairs c, mem_pairsAll cs, List.mem_cons, exists_eq_or_imp]
end

theorem fillLocal_ok {cmp : Nat → Nat → Option Bool} {sends receives : List PPort}
    (hs : ∀ p ∈ sends, ∀ q ∈ sends, p.id = q.id → p = q) (hr : ∀ p ∈ receives, ∀ q ∈ receives, p.id = q.id → p = q)
    (ks : List PConn) (h : ∀ k ∈ ks, ∃ s ∈ sends, ∃ r ∈ receives, s.id = k.sender ∧ r.id = k.receiver ∧ Matches cmp s r) :
    fillLocal cmp sends receives ks = (ks.map fun k => (k.receiver, k.sender), true) := by
  induction ks with
  | nil => rfl
  | cons k ks ih =>
    obtain ⟨s, h1, r, h2, h3, h4, h5⟩ := h k (by simp)
    have e1 := (find_port (id := PPort.id) hs).2 ⟨h1, h3⟩
    have e2 := (find_port (id := PPort.id) hr).2 ⟨h2, h4⟩
    simp only [fillLocal, e1, e2, ih fun k hk => h k (by simp [hk]), List.map_cons, Flow.compatible_iff.2 h5, Bool.and_true]

mutual
/-- In a well-connected flow all registered connections are found. -/
theorem fillTree_ok (cmp : Nat → Nat → Option Bool) : ∀ (c : Comp), DistinctAddresses c →
    (∀ audio param children aconns pconns, Within (.composite audio param children aconns pconns) c →
      ParamOK cmp param (children.map Comp.param) pconns) → fillTree cmp c = (pairs c, true)
  | .atom _ _, _, _ => rfl
  | .composite audio own children aconns pconns, hd, h => by
    have hdl := (hd _ _ _ _ _ (.self _)).2
    have hok := h _ _ _ _ _ (.self _)
    have hloc : fillLocal cmp (sendPorts PPort.input own (children.map Comp.param))
        (receivePorts PPort.input own (children.map Comp.param)) pconns = (pconns.map fun k => (k.receiver, k.sender), true) := by
      refine fillLocal_ok (fun p hp q hq => hdl.inj (mem_sendPorts.1 hp).mem (mem_sendPorts.1 hq).mem)
        (fun p hp q hq => hdl.inj (mem_receivePorts.1 hp).mem (mem_receivePorts.1 hq).mem) _ fun k hk => ?_
      obtain ⟨s, r, h1, h2, h3, h4, h5⟩ := hok.known k hk
      exact ⟨s, mem_sendPorts.2 h1, r, mem_receivePorts.2 h3, h2, h4, h5⟩
    have hf := fillForest_ok cmp children (fun c hc a p ch ac pc hw => hd a p ch ac pc (.child hc hw))
      (fun c hc a p ch ac pc hw => h a p ch ac pc (.child hc hw))
    simp only [fillTree, pairs]
    rw [hloc]
    simp only [hf]
theorem fillForest_ok (cmp : Nat → Nat → Option Bool) : ∀ (cs : List Comp), (∀ c ∈ cs, DistinctAddresses c) →
    (∀ c ∈ cs, ∀ audio param children aconns pconns, Within (.composite audio param children aconns pconns) c →
      ParamOK cmp param (children.map Comp.param) pconns) → fillForest cmp cs true = (pairsAll cs, true)
  | [], _, _ => rfl
  | c :: cs, hd, h => by
    have h1 := fillTree_ok cmp c (hd c (by simp)) (h c (by simp))
    have h2 := fillForest_ok cmp cs (fun c hc => hd c (by simp [hc])) (fun c hc => h c (by simp [hc]))
    simp only [fillForest, if_true, pairsAll, h1, h2]
end

/-! ## Ports in the tree -/

theorem mem_allParams (cs : List Comp) (p : PPort) : p ∈ allParams cs ↔ ∃ c ∈ cs, p ∈ allParam c := by
  induction cs with
  | nil => simp [allParams]
  | cons c cs ih => simp [allParams, ih]

theorem mem_compositePortsAll (cs : List Comp) (x : Nat) : x ∈ compositePortsAll cs ↔ ∃ c ∈ cs, x ∈ compositePorts c := by
  induction cs with
  | nil => simp [compositePortsAll]
  | cons c cs ih => simp [compositePortsAll, ih]

theorem param_subset (c : Comp) {p : PPort} (h : p ∈ c.param) : p ∈ allParam c := by
  cases c with
  | atom _ _ => exact h
  | composite _ _ _ _ _ => simp only [allParam, List.mem_append]; exact Or.inl h

theorem Within.trans {a b c : Comp} (h1 : Within a b) (h2 : Within b c) : Within a c := by
  induction h2 with
  | self => exact h1
  | child hd _ ih => exact .child hd ih

theorem allParam_within {c d : Comp} (h : Within c d) {p : PPort} (hp : p ∈ allParam c) : p ∈ allParam d := by
  induction h with
  | self => exact hp
  | child hd _ ih =>
    simp only [allParam, List.mem_append, mem_allParams]
    exact Or.inr ⟨_, hd, ih⟩

theorem compositePorts_within {a : List APort} {own : List PPort} {ch : List Comp} {ac : List AConn} {pc : List PConn}
    {d : Comp} (h : Within (.composite a own ch ac pc) d) {p : PPort} (hp : p ∈ own) : p.id ∈ compositePorts d := by
  generalize hc : Comp.composite a own ch ac pc = c at h
  induction h with
  | self =>
    subst hc
    simp only [compositePorts, List.mem_append, List.mem_map]
    exact Or.inl ⟨p, hp, rfl⟩
  | child hd _ ih =>
    simp only [compositePorts, List.mem_append, mem_compositePortsAll]
    exact Or.inr ⟨_, hd, ih⟩

mutual
/-- A port of a composite comes from the ports of a composite. -/
theorem compositePorts_iff : ∀ (d : Comp) (x : Nat), x ∈ compositePorts d →
    ∃ a own ch ac pc, Within (.composite a own ch ac pc) d ∧ ∃ p ∈ own, p.id = x
  | .atom _ _, x => by simp [compositePorts]
  | .composite a own ch ac pc, x => by
    simp only [compositePorts, List.mem_append, List.mem_map]
    rintro (⟨p, hp, rfl⟩ | h)
    · exact ⟨_, _, _, _, _, .self _, p, hp, rfl⟩
    · obtain ⟨c, hc, a', own', ch', ac', pc', hw, h⟩ := compositePortsAll_iff ch x h
      exact ⟨a', own', ch', ac', pc', .child hc hw, h⟩
theorem compositePortsAll_iff : ∀ (cs : List Comp) (x : Nat), x ∈ compositePortsAll cs →
    ∃ c ∈ cs, ∃ a own ch ac pc, Within (.composite a own ch ac pc) c ∧ ∃ p ∈ own, p.id = x
  | [], x => by simp [compositePortsAll]
  | c :: cs, x => by
    simp only [compositePortsAll, List.mem_append]
    rintro (h | h)
    · exact ⟨c, by simp, compositePorts_iff c x h⟩
    · obtain ⟨d, hd, h⟩ := compositePortsAll_iff cs x h
      exact ⟨d, by simp [hd], h⟩
end

/-- All components of the tree other than its root are contained in some composite. -/
theorem parent_of {c d : Comp} (h : Within c d) : c = d ∨
    ∃ a own ch ac pc, Within (.composite a own ch ac pc) d ∧ c ∈ ch := by
  induction h with
  | self => exact Or.inl rfl
  | @child d a own ch ac pc hd _ ih =>
    rcases ih with rfl | ⟨a', own', ch', ac', pc', hw, hm⟩
    · exact Or.inr ⟨a, own, ch, ac, pc, .self _, hd⟩
    · exact Or.inr ⟨a', own', ch', ac', pc', .child hd hw, hm⟩

mutual
/-- Each port belongs to a component of the tree. -/
theorem owner_of : ∀ (d : Comp) (p : PPort), p ∈ allParam d → ∃ c, Within c d ∧ p ∈ c.param
  | .atom a own, p => fun h => ⟨_, .self _, h⟩
  | .composite a own ch ac pc, p => by
    simp only [allParam, List.mem_append]
    rintro (h | h)
    · exact ⟨_, .self _, h⟩
    · obtain ⟨c, hc, c', hw, hm⟩ := owner_ofAll ch p h
      exact ⟨c', .child hc hw, hm⟩
theorem owner_ofAll : ∀ (cs : List Comp) (p : PPort), p ∈ allParams cs → ∃ c ∈ cs, ∃ c', Within c' c ∧ p ∈ c'.param
  | [], p => by simp [allParams]
  | c :: cs, p => by
    simp only [allParams, List.mem_append]
    rintro (h | h)
    · exact ⟨c, by simp, owner_of c p h⟩
    · obtain ⟨d, hd, h⟩ := owner_ofAll cs p h
      exact ⟨d, by simp [hd], h⟩
end

mutual
/-- With different addresses, the owner of a port is unique: a port of an atomic component is not a port of a composite. -/
theorem atom_not_composite : ∀ (d : Comp), ((allParam d).map PPort.id).Nodup → ∀ (a : List APort) (own : List PPort) (p : PPort),
    Within (.atom a own) d → p ∈ own → p.id ∉ compositePorts d
  | .atom _ _, _ => fun _ _ _ _ _ => by simp [compositePorts]
  | .composite a own ch ac pc, hn => by
    intro a' own' p hw hp hm
    simp only [allParam, List.map_append, List.nodup_append] at hn
    simp only [compositePorts, List.mem_append] at hm
    cases hw with
    | child hd hw =>
      rcases hm with hm | hm
      · refine hn.2.2 _ hm _ ?_ rfl
        exact List.mem_map.2 ⟨p, (mem_allParams _ _).2 ⟨_, hd, allParam_within hw hp⟩, rfl⟩
      · exact atom_not_composites ch hn.2.1 a' own' p ⟨_, hd, hw⟩ hp hm
theorem atom_not_composites : ∀ (cs : List Comp), ((allParams cs).map PPort.id).Nodup →
    ∀ (a : List APort) (own : List PPort) (p : PPort), (∃ c ∈ cs, Within (.atom a own) c) → p ∈ own → p.id ∉ compositePortsAll cs
  | [], _ => fun _ _ _ _ _ => by simp [compositePortsAll]
  | c :: cs, hn => by
    intro a own p hex hp hm
    simp only [allParams, List.map_append, List.nodup_append] at hn
    simp only [compositePortsAll, List.mem_append] at hm
    have sub : ∀ (x : Nat), x ∈ compositePorts c → x ∈ (allParam c).map PPort.id := by
      intro x hx
      obtain ⟨a', own', ch', ac', pc', hw, q, hq, rfl⟩ := compositePorts_iff c x hx
      exact List.mem_map.2 ⟨q, allParam_within hw (by simp [allParam, hq]), rfl⟩
    have sub2 : ∀ (x : Nat), x ∈ compositePortsAll cs → x ∈ (allParams cs).map PPort.id := by
      intro x hx
      obtain ⟨d, hd, a', own', ch', ac', pc', hw, q, hq, rfl⟩ := compositePortsAll_iff cs x hx
      exact List.mem_map.2 ⟨q, (mem_allParams _ _).2 ⟨d, hd, allParam_within hw (by simp [allParam, hq])⟩, rfl⟩
    obtain ⟨d, hd, hw⟩ := hex
    rcases List.mem_cons.1 hd with he | hd
    · rw [he] at hw
      rcases hm with hm | hm
      · exact atom_not_composite c hn.1 a own p hw hp hm
      · exact hn.2.2 _ (List.mem_map.2 ⟨p, allParam_within hw hp, rfl⟩) _ (sub2 _ hm) rfl
    · rcases hm with hm | hm
      · exact hn.2.2 _ (sub _ hm) _ (List.mem_map.2 ⟨p, (mem_allParams _ _).2 ⟨d, hd, allParam_within hw hp⟩, rfl⟩) rfl
      · exact atom_not_composites cs hn.2.1 a own p ⟨d, hd, hw⟩ hp hm
end

end Visr.ParamFlow
