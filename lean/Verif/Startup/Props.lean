import Verif.Startup.Spec
import Verif.Flow.Props
import Verif.Placeholder.Props
import Verif.Layout.Props
import Mathlib.Data.List.Perm.Subperm

/-!
# C23, C25 and C26 together: an accepted flow is initialised correctly
-/

namespace Visr.Startup
open Visr Visr.Flow

/-! ## Receivers and senders of a tree -/

mutual
/-- Ports of a component inside a flow that receive somewhere: all ports of composites, inputs of atoms. -/
def recvOf : Comp → List APort
  | .atom a _ => a.filter fun p => p.input
  | .composite a _ ch _ _ => a ++ recvOfL ch
def recvOfL : List Comp → List APort
  | [] => []
  | c :: cs => recvOf c ++ recvOfL cs
end

mutual
/-- Ports of a component inside a flow that send somewhere. -/
def sendOf : Comp → List APort
  | .atom a _ => a.filter fun p => !p.input
  | .composite a _ ch _ _ => a ++ sendOfL ch
def sendOfL : List Comp → List APort
  | [] => []
  | c :: cs => sendOf c ++ sendOfL cs
end

/-- Receivers of the connections inside a component. -/
def deepRecv : Comp → List APort
  | .atom _ _ => []
  | .composite a _ ch _ _ => (a.filter fun p => !p.input) ++ recvOfL ch

/-- Senders of the connections inside a component. -/
def deepSend : Comp → List APort
  | .atom _ _ => []
  | .composite a _ ch _ _ => (a.filter fun p => p.input) ++ sendOfL ch

mutual
theorem recvOf_sublist : ∀ c : Comp, (recvOf c).Sublist (allPorts c)
  | .atom a p => by simp only [recvOf, allPorts]; exact List.filter_sublist
  | .composite a p ch ac pc => by
    simp only [recvOf, allPorts]
    exact (recvOfL_sublist ch).append_left a
theorem recvOfL_sublist : ∀ cs : List Comp, (recvOfL cs).Sublist (allPortsL cs)
  | [] => by simp [recvOfL]
  | c :: cs => by
    simp only [recvOfL, allPortsL]
    exact (recvOf_sublist c).append (recvOfL_sublist cs)
end

mutual
theorem sendOf_sublist : ∀ c : Comp, (sendOf c).Sublist (allPorts c)
  | .atom a p => by simp only [sendOf, allPorts]; exact List.filter_sublist
  | .composite a p ch ac pc => by
    simp only [sendOf, allPorts]
    exact (sendOfL_sublist ch).append_left a
theorem sendOfL_sublist : ∀ cs : List Comp, (sendOfL cs).Sublist (allPortsL cs)
  | [] => by simp [sendOfL]
  | c :: cs => by
    simp only [sendOfL, allPortsL]
    exact (sendOf_sublist c).append (sendOfL_sublist cs)
end

theorem audio_sublist (c : Comp) : c.audio.Sublist (allPorts c) := by
  cases c with
  | atom a p => simp [Comp.audio, allPorts]
  | composite a p ch ac pc => simp [Comp.audio, allPorts]

theorem audioL_sublist : ∀ cs : List Comp, (cs.map Comp.audio).flatten.Sublist (allPortsL cs) := by
  intro cs
  induction cs with
  | nil => simp [allPortsL]
  | cons c cs ih =>
    simp only [List.map_cons, List.flatten_cons, allPortsL]
    exact (audio_sublist c).append ih

theorem recvOf_perm (c : Comp) : (recvOf c).Perm ((c.audio.filter fun p => p.input) ++ deepRecv c) := by
  cases c with
  | atom a p => simp [recvOf, Comp.audio, deepRecv]
  | composite a p ch ac pc =>
    simp only [recvOf, Comp.audio, deepRecv]
    rw [← List.append_assoc]
    exact (List.filter_append_perm (fun p => p.input) a).symm.append_right _

theorem recvOfL_perm : ∀ cs : List Comp,
    (recvOfL cs).Perm (((cs.map Comp.audio).flatMap fun l => l.filter fun p => p.input) ++ cs.flatMap deepRecv) := by
  intro cs
  induction cs with
  | nil => simp [recvOfL]
  | cons c cs ih =>
    simp only [recvOfL, List.map_cons, List.flatMap_cons]
    refine ((recvOf_perm c).append ih).trans ?_
    simp only [List.append_assoc]
    refine List.Perm.append_left _ ?_
    rw [← List.append_assoc, ← List.append_assoc]
    exact List.perm_append_comm.append_right _

theorem sendOf_mem (c : Comp) : (∀ p ∈ c.audio, p.input = false → p ∈ sendOf c) ∧ ∀ p ∈ deepSend c, p ∈ sendOf c := by
  cases c with
  | atom a p => simp [Comp.audio, sendOf, deepSend, List.mem_filter]; exact fun p h h' => ⟨h, h'⟩
  | composite a p ch ac pc =>
    simp only [Comp.audio, sendOf, deepSend, List.mem_append, List.mem_filter]
    exact ⟨fun p hp _ => Or.inl hp, fun p hp => hp.imp (fun h => h.1) id⟩

theorem sendOf_cases (c : Comp) : ∀ p ∈ sendOf c, (p ∈ c.audio ∧ p.input = false) ∨ p ∈ deepSend c := by
  cases c with
  | atom a p => simp [Comp.audio, sendOf, deepSend, List.mem_filter]
  | composite a p ch ac pc =>
    simp only [Comp.audio, sendOf, deepSend, List.mem_append, List.mem_filter]
    rintro q (hq | hq)
    · cases h : q.input
      · exact Or.inl ⟨hq, rfl⟩
      · exact Or.inr (Or.inl ⟨hq, rfl⟩)
    · exact Or.inr (Or.inr hq)

theorem mem_sendOfL {cs : List Comp} {p : APort} : p ∈ sendOfL cs ↔ ∃ c ∈ cs, p ∈ sendOf c := by
  induction cs with
  | nil => simp [sendOfL]
  | cons c cs ih => simp [sendOfL, ih]

theorem deepRecv_composite_perm (a : List APort) (pp : List PPort) (ch : List Comp) (ac : List AConn) (pc : List PConn) :
    (deepRecv (.composite a pp ch ac pc)).Perm (receivePorts APort.input a (ch.map Comp.audio) ++ ch.flatMap deepRecv) := by
  simp only [deepRecv, receivePorts]
  refine ((recvOfL_perm ch).append_left _).trans ?_
  rw [← List.append_assoc]
  exact List.perm_append_comm.append_right _

theorem channels_perm {l l' : List APort} (h : l.Perm l') (x : Flow.Chan) : x ∈ channels l ↔ x ∈ channels l' := by
  rw [mem_channels, mem_channels]
  constructor
  · rintro ⟨p, hp, h1⟩; exact ⟨p, h.mem_iff.1 hp, h1⟩
  · rintro ⟨p, hp, h1⟩; exact ⟨p, h.mem_iff.2 hp, h1⟩

theorem channels_append {l l' : List APort} (x : Flow.Chan) : x ∈ channels (l ++ l') ↔ x ∈ channels l ∨ x ∈ channels l' := by
  simp only [mem_channels, List.mem_append]
  constructor
  · rintro ⟨p, hp | hp, h⟩
    · exact Or.inl ⟨p, hp, h⟩
    · exact Or.inr ⟨p, hp, h⟩
  · rintro (⟨p, hp, h⟩ | ⟨p, hp, h⟩)
    · exact ⟨p, Or.inl hp, h⟩
    · exact ⟨p, Or.inr hp, h⟩

theorem channels_disjoint {l l' : List APort} (h : ((l ++ l').map APort.id).Nodup) {x : Flow.Chan} (h1 : x ∈ channels l)
    (h2 : x ∈ channels l') : False := by
  rw [mem_channels] at h1 h2
  obtain ⟨p, hp, hp', _⟩ := h1
  obtain ⟨q, hq, hq', _⟩ := h2
  rw [List.map_append, List.nodup_append] at h
  exact h.2.2 p.id (List.mem_map.2 ⟨p, hp, rfl⟩) q.id (List.mem_map.2 ⟨q, hq, rfl⟩) (by rw [hp', hq'])

/-- The connections of one composite: each of its receive channels once. -/
theorem pairs_count {own : List APort} {children : List (List APort)} {conns : List AConn}
    (hok : AudioOK own children conns) :
    (∀ x, ((pairs conns).map Prod.snd).count x = if x ∈ channels (receivePorts APort.input own children) then 1 else 0) ∧
    ∀ k ∈ pairs conns, k.1 ∈ channels (sendPorts APort.input own children) := by
  have hk : ∀ k ∈ pairs conns, k.1 ∈ channels (sendPorts APort.input own children) ∧
      k.2 ∈ channels (receivePorts APort.input own children) := by
    refine pair_known ?_
    intro c hc
    obtain ⟨s, r, h1, h2, h3, h4, h5, h6, h7⟩ := hok.known c hc
    exact ⟨s, mem_sendPorts.2 h1, r, mem_receivePorts.2 h3, h2, h4, h5, h6, h7⟩
  refine ⟨?_, fun k h => (hk k h).1⟩
  intro x
  by_cases hx : x ∈ channels (receivePorts APort.input own children)
  · rw [if_pos hx]
    rw [mem_channels] at hx
    obtain ⟨p, hp, h1, h2⟩ := hx
    have := hok.receive p (mem_receivePorts.1 hp) x.2 h2
    rw [h1] at this
    exact this
  · rw [if_neg hx, List.count_eq_zero]
    intro hm
    obtain ⟨k, hk1, rfl⟩ := List.mem_map.1 hm
    exact hx (hk k hk1).2

/-- The connections collected from a tree. -/
structure Collected (c : Comp) : Prop where
  ok : (fillRecursive c).2 = true
  count : ∀ x, ((fillRecursive c).1.map Prod.snd).count x = if x ∈ channels (deepRecv c) then 1 else 0
  send : ∀ k ∈ (fillRecursive c).1, k.1 ∈ channels (deepSend c)
  every : ∀ x ∈ channels (deepSend c), ∃ k ∈ (fillRecursive c).1, k.1 = x

structure CollectedL (cs : List Comp) : Prop where
  ok : (fillChildren cs true).2 = true
  count : ∀ x, ((fillChildren cs true).1.map Prod.snd).count x = if x ∈ channels (cs.flatMap deepRecv) then 1 else 0
  send : ∀ k ∈ (fillChildren cs true).1, k.1 ∈ channels (sendOfL cs)
  every : ∀ x ∈ channels (cs.flatMap deepSend), ∃ k ∈ (fillChildren cs true).1, k.1 = x

theorem checkAudioChildren_true : ∀ (cs : List Comp) (res : Bool), checkAudioChildren cs res = true →
    res = true ∧ ∀ c ∈ cs, checkAudio c true = true := by
  intro cs
  induction cs with
  | nil => intro res h; exact ⟨by simpa [checkAudioChildren] using h, by simp⟩
  | cons c cs ih =>
    intro res h
    rw [checkAudioChildren] at h
    obtain ⟨h1, h2⟩ := ih _ h
    rw [Bool.and_eq_true] at h1
    refine ⟨h1.1, ?_⟩
    intro d hd
    rcases List.mem_cons.1 hd with rfl | hd
    · exact h1.2
    · exact h2 d hd

theorem deepRecv_sublist (c : Comp) : (deepRecv c).Sublist (allPorts c) := by
  cases c with
  | atom a p => simp [deepRecv]
  | composite a p ch ac pc =>
    simp only [deepRecv, allPorts]
    exact List.Sublist.append List.filter_sublist (recvOfL_sublist ch)

theorem deepRecvL_sublist : ∀ cs : List Comp, (cs.flatMap deepRecv).Sublist (allPortsL cs) := by
  intro cs
  induction cs with
  | nil => simp [allPortsL]
  | cons c cs ih =>
    simp only [List.flatMap_cons, allPortsL]
    exact (deepRecv_sublist c).append ih

mutual
theorem collected : ∀ c : Comp, checkAudio c true = true → ((allPorts c).map APort.id).Nodup → Collected c
  | .atom a p, _, _ => ⟨rfl, by simp [fillRecursive, deepRecv, channels], by simp [fillRecursive],
    by simp [deepSend, channels]⟩
  | .composite a pp ch ac pc, hacc, hnd => by
    rw [checkAudio] at hacc
    simp only [if_true] at hacc
    obtain ⟨hloc, hch⟩ := checkAudioChildren_true _ _ hacc
    have hnd' : ((allPortsL ch).map APort.id).Nodup := by
      simp only [allPorts, List.map_append] at hnd
      exact (List.nodup_append.1 hnd).2.1
    have hc := collectedL ch hch hnd'
    have hdp : DistinctPorts APort.id a (ch.map Comp.audio) := by
      unfold DistinctPorts
      refine List.Nodup.sublist ?_ hnd
      simp only [allPorts]
      exact ((audioL_sublist ch).append_left a).map _
    have hok : AudioOK a (ch.map Comp.audio) ac := (checkAudioLocal_iff hdp ac).1 hloc
    have hs : ∀ p ∈ sendPorts APort.input a (ch.map Comp.audio), ∀ q ∈ sendPorts APort.input a (ch.map Comp.audio),
        p.id = q.id → p = q := fun p hp q hq => hdp.inj (mem_sendPorts.1 hp).mem (mem_sendPorts.1 hq).mem
    have hr : ∀ p ∈ receivePorts APort.input a (ch.map Comp.audio), ∀ q ∈ receivePorts APort.input a (ch.map Comp.audio),
        p.id = q.id → p = q := fun p hp q hq => hdp.inj (mem_receivePorts.1 hp).mem (mem_receivePorts.1 hq).mem
    obtain ⟨f1, f2⟩ := fillLocal_spec hs hr ac
    have hfl : (fillLocal (aSends a ch) (aReceives a ch) ac).2 = true := by
      refine f1.2 ?_
      intro c hc
      obtain ⟨s, r, h1, h2, h3, h4, h5, h6, h7⟩ := hok.known c hc
      exact ⟨s, mem_sendPorts.2 h1, r, mem_receivePorts.2 h3, h2, h4, h5, h6, h7⟩
    have hfp : (fillLocal (aSends a ch) (aReceives a ch) ac).1 = pairs ac := f2 hfl
    obtain ⟨p1, p2⟩ := pairs_count hok
    have hrec : fillRecursive (.composite a pp ch ac pc) = (pairs ac ++ (fillChildren ch true).1, (fillChildren ch true).2) := by
      rw [fillRecursive]
      simp only [hfl, hfp]
    have hperm := deepRecv_composite_perm a pp ch ac pc
    have hndr : ((receivePorts APort.input a (ch.map Comp.audio) ++ ch.flatMap deepRecv).map APort.id).Nodup := by
      rw [← (hperm.map APort.id).nodup_iff]
      exact List.Nodup.sublist ((deepRecv_sublist _).map _) hnd
    refine ⟨by rw [hrec]; exact hc.ok, ?_, ?_, ?_⟩
    · intro x
      rw [hrec]
      simp only [List.map_append, List.count_append]
      rw [p1, hc.count]
      by_cases hx1 : x ∈ channels (receivePorts APort.input a (ch.map Comp.audio))
      · rw [if_pos hx1, if_neg (fun h2 => channels_disjoint hndr hx1 h2),
          if_pos ((channels_perm hperm x).2 ((channels_append x).2 (Or.inl hx1)))]
      · by_cases hx2 : x ∈ channels (ch.flatMap deepRecv)
        · rw [if_neg hx1, if_pos hx2, if_pos ((channels_perm hperm x).2 ((channels_append x).2 (Or.inr hx2)))]
        · rw [if_neg hx1, if_neg hx2, if_neg]
          intro hx
          exact ((channels_append x).1 ((channels_perm hperm x).1 hx)).elim hx1 hx2
    · intro k hk
      rw [hrec] at hk
      simp only [deepSend]
      rw [channels_append]
      rcases List.mem_append.1 hk with hk | hk
      · have := p2 k hk
        rw [mem_channels] at this
        obtain ⟨p, hp, h1, h2⟩ := this
        rcases mem_sendPorts.1 hp with ⟨h3, h4⟩ | ⟨l, h3, h4, h5⟩
        · left
          rw [mem_channels]
          exact ⟨p, List.mem_filter.2 ⟨h3, h4⟩, h1, h2⟩
        · right
          obtain ⟨c, hc, rfl⟩ := List.mem_map.1 h3
          rw [mem_channels]
          exact ⟨p, mem_sendOfL.2 ⟨c, hc, (sendOf_mem c).1 p h4 h5⟩, h1, h2⟩
      · exact Or.inr (hc.send k hk)
    · intro x hx
      rw [mem_channels] at hx
      obtain ⟨p, hp, h1, h2⟩ := hx
      rw [hrec]
      have hlocal : CanSend APort.input a (ch.map Comp.audio) p → ∃ k ∈ pairs ac ++ (fillChildren ch true).1, k.1 = x := by
        intro hcs
        have := hok.send p hcs x.2 h2
        rw [h1] at this
        obtain ⟨k, hk, hkx⟩ := List.mem_map.1 this
        exact ⟨k, List.mem_append.2 (Or.inl hk), hkx⟩
      simp only [deepSend, List.mem_append, List.mem_filter] at hp
      rcases hp with hp | hp
      · exact hlocal (Or.inl hp)
      · obtain ⟨c, hcm, hpc⟩ := mem_sendOfL.1 hp
        rcases sendOf_cases c p hpc with ⟨h3, h4⟩ | h3
        · exact hlocal (Or.inr ⟨c.audio, List.mem_map.2 ⟨c, hcm, rfl⟩, h3, h4⟩)
        · obtain ⟨k, hk, hkx⟩ := hc.every x (by rw [mem_channels]; exact ⟨p, List.mem_flatMap.2 ⟨c, hcm, h3⟩, h1, h2⟩)
          exact ⟨k, List.mem_append.2 (Or.inr hk), hkx⟩
theorem collectedL : ∀ cs : List Comp, (∀ c ∈ cs, checkAudio c true = true) → ((allPortsL cs).map APort.id).Nodup →
    CollectedL cs
  | [], _, _ => ⟨rfl, by simp [fillChildren, channels], by simp [fillChildren], by simp [channels]⟩
  | c :: cs, hacc, hnd => by
    have hnd2 := hnd
    simp only [allPortsL, List.map_append] at hnd
    obtain ⟨n1, n2, _⟩ := List.nodup_append.1 hnd
    have h1 := collected c (hacc c (by simp)) n1
    have h2 := collectedL cs (fun d hd => hacc d (by simp [hd])) n2
    have hrec : fillChildren (c :: cs) true =
        ((fillRecursive c).1 ++ (fillChildren cs true).1, (fillChildren cs true).2) := by
      rw [fillChildren]
      simp only [if_true, h1.ok]
    have hndr : ((deepRecv c ++ cs.flatMap deepRecv).map APort.id).Nodup := by
      refine List.Nodup.sublist ?_ hnd2
      simp only [allPortsL]
      exact ((deepRecv_sublist c).append (deepRecvL_sublist cs)).map _
    refine ⟨by rw [hrec]; exact h2.ok, ?_, ?_, ?_⟩
    · intro x
      rw [hrec]
      simp only [List.map_append, List.count_append, List.flatMap_cons]
      rw [h1.count, h2.count]
      by_cases hx1 : x ∈ channels (deepRecv c)
      · rw [if_pos hx1, if_neg (fun h2 => channels_disjoint hndr hx1 h2), if_pos ((channels_append x).2 (Or.inl hx1))]
      · by_cases hx2 : x ∈ channels (cs.flatMap deepRecv)
        · rw [if_neg hx1, if_pos hx2, if_pos ((channels_append x).2 (Or.inr hx2))]
        · rw [if_neg hx1, if_neg hx2, if_neg]
          intro hx
          exact ((channels_append x).1 hx).elim hx1 hx2
    · intro k hk
      rw [hrec] at hk
      simp only [sendOfL]
      rw [channels_append]
      rcases List.mem_append.1 hk with hk | hk
      · left
        have := h1.send k hk
        rw [mem_channels] at this ⊢
        obtain ⟨p, hp, h⟩ := this
        exact ⟨p, (sendOf_mem c).2 p hp, h⟩
      · exact Or.inr (h2.send k hk)
    · intro x hx
      rw [hrec]
      rw [List.flatMap_cons, channels_append] at hx
      rcases hx with hx | hx
      · obtain ⟨k, hk, hkx⟩ := h1.every x hx
        exact ⟨k, List.mem_append.2 (Or.inl hk), hkx⟩
      · obtain ⟨k, hk, hkx⟩ := h2.every x hx
        exact ⟨k, List.mem_append.2 (Or.inr hk), hkx⟩
end

/-! ## Placeholders -/

mutual
theorem recvOf_split : ∀ (c : Comp) (p : APort), p ∈ recvOf c ↔ p ∈ placeholders c ∨ p ∈ atomInputs c
  | .atom a q, p => by simp [recvOf, placeholders, atomInputs]
  | .composite a q ch ac pc, p => by
    simp only [recvOf, placeholders, atomInputs, List.mem_append, recvOfL_split ch p, or_assoc]
theorem recvOfL_split : ∀ (cs : List Comp) (p : APort), p ∈ recvOfL cs ↔ p ∈ placeholdersL cs ∨ p ∈ atomInputsL cs
  | [], p => by simp [recvOfL, placeholdersL, atomInputsL]
  | c :: cs, p => by
    simp only [recvOfL, placeholdersL, atomInputsL, List.mem_append, recvOf_split c p, recvOfL_split cs p]
    tauto
end

mutual
/-- Outputs of the atomic components. -/
def atomOutputs : Comp → List APort
  | .atom a _ => a.filter fun p => !p.input
  | .composite _ _ ch _ _ => atomOutputsL ch
def atomOutputsL : List Comp → List APort
  | [] => []
  | c :: cs => atomOutputs c ++ atomOutputsL cs
end

mutual
theorem sendOf_split : ∀ (c : Comp) (p : APort), p ∈ sendOf c ↔ p ∈ placeholders c ∨ p ∈ atomOutputs c
  | .atom a q, p => by simp [sendOf, placeholders, atomOutputs]
  | .composite a q ch ac pc, p => by
    simp only [sendOf, placeholders, atomOutputs, List.mem_append, sendOfL_split ch p, or_assoc]
theorem sendOfL_split : ∀ (cs : List Comp) (p : APort), p ∈ sendOfL cs ↔ p ∈ placeholdersL cs ∨ p ∈ atomOutputsL cs
  | [], p => by simp [sendOfL, placeholdersL, atomOutputsL]
  | c :: cs, p => by
    simp only [sendOfL, placeholdersL, atomOutputsL, List.mem_append, sendOf_split c p, sendOfL_split cs p]
    tauto
end

mutual
theorem atoms_input : ∀ (c : Comp), (∀ p ∈ atomInputs c, p.input = true) ∧ (∀ p ∈ atomOutputs c, p.input = false)
  | .atom a q => by simp [atomInputs, atomOutputs, List.mem_filter]
  | .composite a q ch ac pc => by simpa [atomInputs, atomOutputs] using atomsL_input ch
theorem atomsL_input : ∀ (cs : List Comp), (∀ p ∈ atomInputsL cs, p.input = true) ∧ (∀ p ∈ atomOutputsL cs, p.input = false)
  | [] => by simp [atomInputsL, atomOutputsL]
  | c :: cs => by
    have h1 := atoms_input c
    have h2 := atomsL_input cs
    simp only [atomInputsL, atomOutputsL, List.mem_append]
    exact ⟨fun p hp => hp.elim (h1.1 p) (h2.1 p), fun p hp => hp.elim (h1.2 p) (h2.2 p)⟩
end

mutual
/-- No port belongs to a composite and to an atom. -/
theorem placeholders_not_atom : ∀ (c : Comp), ((allPorts c).map APort.id).Nodup → ∀ p ∈ placeholders c, ∀ q,
    (q ∈ atomInputs c ∨ q ∈ atomOutputs c) → p.id ≠ q.id
  | .atom a _, _, p, hp, q, hq => by simp [placeholders] at hp
  | .composite a _ ch ac pc, hnd, p, hp, q, hq => by
    simp only [allPorts, List.map_append] at hnd
    obtain ⟨n1, n2, n3⟩ := List.nodup_append.1 hnd
    simp only [placeholders, List.mem_append] at hp
    have hq' : q ∈ allPortsL ch := by
      rcases hq with hq | hq
      · exact (recvOfL_sublist ch).subset ((recvOfL_split ch q).2 (Or.inr hq))
      · exact (sendOfL_sublist ch).subset ((sendOfL_split ch q).2 (Or.inr hq))
    rcases hp with hp | hp
    · exact n3 p.id (List.mem_map.2 ⟨p, hp, rfl⟩) q.id (List.mem_map.2 ⟨q, hq', rfl⟩)
    · exact placeholdersL_not_atom ch n2 p hp q hq
theorem placeholdersL_not_atom : ∀ (cs : List Comp), ((allPortsL cs).map APort.id).Nodup → ∀ p ∈ placeholdersL cs, ∀ q,
    (q ∈ atomInputsL cs ∨ q ∈ atomOutputsL cs) → p.id ≠ q.id
  | [], _, p, hp, q, hq => by simp [placeholdersL] at hp
  | c :: cs, hnd, p, hp, q, hq => by
    simp only [allPortsL, List.map_append] at hnd
    obtain ⟨n1, n2, n3⟩ := List.nodup_append.1 hnd
    simp only [placeholdersL, List.mem_append] at hp
    simp only [atomInputsL, atomOutputsL, List.mem_append] at hq
    have hq' : (q ∈ allPorts c ∧ (q ∈ atomInputs c ∨ q ∈ atomOutputs c)) ∨
        (q ∈ allPortsL cs ∧ (q ∈ atomInputsL cs ∨ q ∈ atomOutputsL cs)) := by
      rcases hq with (hq | hq) | (hq | hq)
      · exact Or.inl ⟨(recvOf_sublist c).subset ((recvOf_split c q).2 (Or.inr hq)), Or.inl hq⟩
      · exact Or.inr ⟨(recvOfL_sublist cs).subset ((recvOfL_split cs q).2 (Or.inr hq)), Or.inl hq⟩
      · exact Or.inl ⟨(sendOf_sublist c).subset ((sendOf_split c q).2 (Or.inr hq)), Or.inr hq⟩
      · exact Or.inr ⟨(sendOfL_sublist cs).subset ((sendOfL_split cs q).2 (Or.inr hq)), Or.inr hq⟩
    rcases hp with hp | hp
    · have hp' := (recvOf_sublist c).subset ((recvOf_split c p).2 (Or.inl hp))
      rcases hq' with ⟨h1, h2⟩ | ⟨h1, h2⟩
      · exact placeholders_not_atom c n1 p hp q h2
      · exact n3 p.id (List.mem_map.2 ⟨p, hp', rfl⟩) q.id (List.mem_map.2 ⟨q, h1, rfl⟩)
    · have hp' := (recvOfL_sublist cs).subset ((recvOfL_split cs p).2 (Or.inl hp))
      rcases hq' with ⟨h1, h2⟩ | ⟨h1, h2⟩
      · exact fun e => n3 q.id (List.mem_map.2 ⟨q, h1, rfl⟩) p.id (List.mem_map.2 ⟨p, hp', rfl⟩) e.symm
      · exact placeholdersL_not_atom cs n2 p hp q h2
end

/-! ## The main result -/

/-- `env` describes the ports of the flow. -/
def Describes (env : Layout.Env) (flow : Comp) : Prop :=
  ∀ p ∈ allPorts flow, env.width p.id = p.width ∧ env.stype p.id = p.sampleType

/-- Following the connections backwards from `x` goes on through placeholders for ever (the connections are finitely many,
so it runs in a circle). -/
def Endless (ph : Flow.Chan → Bool) (conns : List (Flow.Chan × Flow.Chan)) (x : Flow.Chan) : Prop :=
  ∃ f : Nat → Flow.Chan, f 0 = x ∧ ∀ n, (f (n + 1), f n) ∈ conns ∧ ph (f (n + 1)) = true

/-- **C23, C25, C26 combined.** Take a composite flow that the connection check accepts, in which all connections of all
levels join ports of equal sample types. Then all connections can be collected, and one of the following holds.
* Some real receiver is connected to a closed loop of composite ports, and the resolution of these ports throws.
* The resolution succeeds: the resulting connections join each channel of each real receiver to the real sender found by
  following the connections backwards. They are well-formed, every channel of an external input and every real receiver is
  connected, and buffer assignment either gives every sender a buffer of
  its own and every receiver access to the buffer of its sender (`Layout.Correct`), or throws because signals of a sample
  type that cannot be copied would have to be copied. -/
theorem accepted_flow_initialised (cmp : Nat → Nat → Option Bool) (own : List APort) (params : List PPort)
    (children : List Comp) (aconns : List AConn) (pconns : List PConn) (flow : Comp)
    (hflow : flow = .composite own params children aconns pconns)
    (hacc : checkConnectionIntegrity cmp flow true = true)
    (hnd : ((allPorts flow).map APort.id).Nodup)
    (env : Layout.Env) (henv : Layout.EnvOK env) (hdesc : Describes env flow)
    (htypes : ∀ k ∈ (fillRecursive flow).1, env.stype k.1.1 = env.stype k.2.1) :
    (fillRecursive flow).2 = true ∧
    (((∃ e, Placeholder.resolveAudio (isPlaceholder children) (fillRecursive flow).1 = .throw e) ∧
        ∃ r, RealReceiver own children r ∧ Endless (isPlaceholder children) (fillRecursive flow).1 r) ∨
     ∃ out, Placeholder.resolveAudio (isPlaceholder children) (fillRecursive flow).1 = .ok out ∧
       (∀ s r, (s, r) ∈ out ↔ RealReceiver own children r ∧
         Placeholder.Chain (isPlaceholder children) (fun s x => (s, x) ∈ (fillRecursive flow).1) r s) ∧
       Layout.WellFormed env out ∧
       (∀ p ∈ own, p.input = true → ∀ i < p.width, ∃ κ ∈ out, κ.1 = (p.id, i)) ∧
       (∀ r, RealReceiver own children r → ∃ κ ∈ out, κ.2 = r) ∧
       ((∃ l, Layout.initialise env out = .ok l ∧ Layout.Correct env out l) ∨
        (Layout.initialise env out = .throw .invalidArgument ∧ ∃ k ∈ out, env.routable (env.stype k.1.1) = false))) := by
  have hca : checkAudio flow true = true := by
    unfold checkConnectionIntegrity at hacc
    rw [Bool.and_eq_true] at hacc
    exact hacc.1
  have hcol := collected flow hca hnd
  refine ⟨hcol.ok, ?_⟩
  generalize hm : (fillRecursive flow).1 = conns at *
  have hcount : ∀ x, (conns.map Prod.snd).count x = if x ∈ channels (deepRecv flow) then 1 else 0 := by
    rw [← hm]; exact hcol.count
  have hsend : ∀ k ∈ conns, k.1 ∈ channels (deepSend flow) := by rw [← hm]; exact hcol.send
  have hevery : ∀ x ∈ channels (deepSend flow), ∃ k ∈ conns, k.1 = x := by rw [← hm]; exact hcol.every
  have hdr : deepRecv flow = (own.filter fun p => !p.input) ++ recvOfL children := by rw [hflow]; rfl
  have hds : deepSend flow = (own.filter fun p => p.input) ++ sendOfL children := by rw [hflow]; rfl
  have hap : allPorts flow = own ++ allPortsL children := by rw [hflow]; rfl
  have hinj : ∀ p ∈ allPorts flow, ∀ q ∈ allPorts flow, p.id = q.id → p = q :=
    fun p hp q hq e => List.inj_on_of_nodup_map hnd hp hq e
  have hnd' := hnd
  rw [hap, List.map_append] at hnd'
  obtain ⟨_, hndL, hdis⟩ := List.nodup_append.1 hnd'
  have hsep : ∀ p ∈ own, ∀ q ∈ allPortsL children, p.id ≠ q.id :=
    fun p hp q hq => hdis p.id (List.mem_map.2 ⟨p, hp, rfl⟩) q.id (List.mem_map.2 ⟨q, hq, rfl⟩)
  have hownAll : ∀ p ∈ own, p ∈ allPorts flow := by intro p hp; rw [hap]; simp [hp]
  have hrecvAll : ∀ p ∈ recvOfL children, p ∈ allPortsL children := fun p hp => (recvOfL_sublist children).subset hp
  have hsendAll : ∀ p ∈ sendOfL children, p ∈ allPortsL children := fun p hp => (sendOfL_sublist children).subset hp
  have hLAll : ∀ p ∈ allPortsL children, p ∈ allPorts flow := by intro p hp; rw [hap]; simp [hp]
  -- a channel has a sender iff it is one of the receivers
  have hhas : ∀ x, (∃ s, (s, x) ∈ conns) ↔ x ∈ channels (deepRecv flow) := by
    intro x
    have h := hcount x
    constructor
    · rintro ⟨s, hs⟩
      by_contra hx
      rw [if_neg hx, List.count_eq_zero] at h
      exact h (List.mem_map.2 ⟨_, hs, rfl⟩)
    · intro hx
      rw [if_pos hx] at h
      have : x ∈ conns.map Prod.snd := by
        rw [← List.count_pos_iff]; omega
      obtain ⟨k, hk, rfl⟩ := List.mem_map.1 this
      exact ⟨k.1, hk⟩
  have huniq : Placeholder.UniqueSenders (Placeholder.Sends conns) := by
    intro s s' x h1 h2
    unfold Placeholder.Sends at h1 h2
    by_contra hne
    have h := hcount x
    rw [if_pos ((hhas x).1 ⟨s, h1⟩)] at h
    have h3 : List.count x (conns.map Prod.snd) ≥ 2 := by
      have hsub : [(s, x), (s', x)].Subperm conns := by
        refine List.subperm_of_subset (by simp [hne]) ?_
        intro y hy
        simp only [List.mem_cons, List.not_mem_nil, or_false] at hy
        rcases hy with rfl | rfl
        · exact h1
        · exact h2
      obtain ⟨l, hl1, hl2⟩ := hsub
      have := (hl2.map Prod.snd).count_le x
      rw [(hl1.map Prod.snd).count_eq] at this
      simpa using this
    omega
  -- placeholders
  have hphport : ∀ p ∈ placeholdersL children, ∀ i, isPlaceholder children (p.id, i) = true := by
    intro p hp i
    simp only [isPlaceholder, decide_eq_true_eq]
    exact List.mem_map.2 ⟨p, hp, rfl⟩
  have hreal : ∀ x, RealReceiver own children x ↔ x ∈ channels (deepRecv flow) ∧ isPlaceholder children x = false := by
    intro x
    rw [mem_channels, hdr]
    simp only [List.mem_append, List.mem_filter, Bool.not_eq_true']
    constructor
    · rintro ⟨p, hp, h1, h2⟩
      refine ⟨⟨p, ?_, h1, h2⟩, ?_⟩
      · rcases hp with hp | hp
        · exact Or.inl hp
        · exact Or.inr ((recvOfL_split children p).2 (Or.inr hp))
      · simp only [isPlaceholder, decide_eq_false_iff_not]
        intro hx
        obtain ⟨q, hq, hqx⟩ := List.mem_map.1 hx
        rcases hp with hp | hp
        · exact hsep p hp.1 q (hrecvAll q ((recvOfL_split children q).2 (Or.inl hq))) (by rw [h1, hqx])
        · exact placeholdersL_not_atom children hndL q hq p (Or.inl hp) (by rw [h1, hqx])
    · rintro ⟨⟨p, hp, h1, h2⟩, h3⟩
      refine ⟨p, ?_, h1, h2⟩
      rcases hp with hp | hp
      · exact Or.inl hp
      · rcases (recvOfL_split children p).1 hp with hp | hp
        · have := hphport p hp x.2
          rw [h1] at this
          rw [this] at h3
          cases h3
        · exact Or.inr hp
  have hrealconn : ∀ x, RealReceiver own children x ↔ (∃ s, (s, x) ∈ conns) ∧ isPlaceholder children x = false := by
    intro x; rw [hreal, hhas]
  -- a placeholder that sends also receives
  have hthrough : ∀ x, (∃ r, (x, r) ∈ conns) → isPlaceholder children x = true → ∃ s, (s, x) ∈ conns := by
    rintro x ⟨r, hr⟩ hx
    rw [hhas, mem_channels]
    have := hsend _ hr
    rw [mem_channels, hds] at this
    obtain ⟨p, hp, h1, h2⟩ := this
    simp only [isPlaceholder, decide_eq_true_eq] at hx
    obtain ⟨q, hq, hqx⟩ := List.mem_map.1 hx
    have hqr := (recvOfL_split children q).2 (Or.inl hq)
    have hpall : p ∈ allPorts flow := by
      rcases List.mem_append.1 hp with hp | hp
      · exact hownAll p (List.mem_filter.1 hp).1
      · exact hLAll p (hsendAll p hp)
    have : p = q := hinj p hpall q (hLAll q (hrecvAll q hqr)) (by rw [h1, hqx])
    refine ⟨q, by rw [hdr]; exact List.mem_append.2 (Or.inr hqr), hqx, by rw [← this]; exact h2⟩
  have hchain_conn : ∀ n x s, Placeholder.ChainN (isPlaceholder children) (Placeholder.Sends conns) n x s →
      (∃ y, (y, x) ∈ conns) ∧ (∃ r, (s, r) ∈ conns) ∧ isPlaceholder children s = false ∧ env.stype s.1 = env.stype x.1 := by
    intro n x s h
    induction h with
    | direct h1 h2 => exact ⟨⟨_, h1⟩, ⟨_, h1⟩, h2, htypes _ h1⟩
    | through h1 h2 _ ih => exact ⟨⟨_, h1⟩, ih.2.1, ih.2.2.1, ih.2.2.2.trans (htypes _ h1)⟩
  obtain ⟨r1, r2⟩ := Placeholder.audio_placeholders_resolved (isPlaceholder children) conns huniq
  by_cases hall : ∀ s r, Placeholder.Sends conns s r → isPlaceholder children r = false →
      ∃ s', Placeholder.Chain (isPlaceholder children) (Placeholder.Sends conns) r s'
  · right
    obtain ⟨out, h1, h2, h3⟩ := r1 hall
    have hiff : ∀ s r, (s, r) ∈ out ↔ RealReceiver own children r ∧
        Placeholder.Chain (isPlaceholder children) (fun s x => (s, x) ∈ conns) r s := by
      intro s r
      rw [h3, hrealconn]
      constructor
      · rintro ⟨h4, n, h5⟩
        exact ⟨⟨(hchain_conn n r s h5).1, h4⟩, n, h5⟩
      · rintro ⟨⟨_, h4⟩, h5⟩
        exact ⟨h4, h5⟩
    -- ports of final senders and receivers
    have hsport : ∀ k ∈ out, ∃ p, ((p ∈ own ∧ p.input = true) ∨ p ∈ atomOutputsL children) ∧ p.id = k.1.1 ∧
        k.1.2 < p.width := by
      intro k hk
      obtain ⟨_, n, hc⟩ := (hiff k.1 k.2).1 hk
      obtain ⟨_, ⟨r, hr⟩, hph, _⟩ := hchain_conn n _ _ hc
      have := hsend _ hr
      rw [mem_channels, hds] at this
      obtain ⟨p, hp, e1, e2⟩ := this
      refine ⟨p, ?_, e1, e2⟩
      rcases List.mem_append.1 hp with hp | hp
      · exact Or.inl (List.mem_filter.1 hp)
      · rcases (sendOfL_split children p).1 hp with hp | hp
        · have := hphport p hp k.1.2
          rw [e1] at this
          rw [this] at hph
          cases hph
        · exact Or.inr hp
    have hsall : ∀ p, ((p ∈ own ∧ p.input = true) ∨ p ∈ atomOutputsL children) → p ∈ allPorts flow := by
      rintro p (h | h)
      · exact hownAll p h.1
      · exact hLAll p (hsendAll p ((sendOfL_split children p).2 (Or.inr h)))
    have hrall : ∀ p, ((p ∈ own ∧ p.input = false) ∨ p ∈ atomInputsL children) → p ∈ allPorts flow := by
      rintro p (h | h)
      · exact hownAll p h.1
      · exact hLAll p (hrecvAll p ((recvOfL_split children p).2 (Or.inr h)))
    have hwf : Layout.WellFormed env out := by
      refine ⟨?_, ?_, ?_, ?_, ?_⟩
      · intro k hk
        obtain ⟨p, hp, e1, e2⟩ := hsport k hk
        rw [← e1, (hdesc p (hsall p hp)).1]
        exact e2
      · intro k hk
        obtain ⟨p, hp, e1, e2⟩ := ((hiff k.1 k.2).1 hk).1
        rw [← e1, (hdesc p (hrall p hp)).1]
        exact e2
      · intro k hk j hj
        obtain ⟨p, hp, e1, e2⟩ := ((hiff k.1 k.2).1 hk).1
        rw [← e1, (hdesc p (hrall p hp)).1] at hj
        have hr : RealReceiver own children (k.2.1, j) := ⟨p, hp, e1, hj⟩
        obtain ⟨g1, g2⟩ := (hreal _).1 hr
        rw [h2, List.count_filter (by simp [g2]), hcount, if_pos g1]
      · intro k hk
        obtain ⟨_, n, hc⟩ := (hiff k.1 k.2).1 hk
        exact (hchain_conn n _ _ hc).2.2.2
      · intro k hk k' hk' he
        obtain ⟨p, hp, e1, _⟩ := hsport k hk
        obtain ⟨q, hq, f1, _⟩ := ((hiff k'.1 k'.2).1 hk').1
        have hid : p.id = q.id := by rw [e1, f1, he]
        have hpq : p = q := hinj p (hsall p hp) q (hrall q hq) hid
        rcases hp with hp | hp <;> rcases hq with hq | hq
        · rw [hpq, hq.2] at hp
          cases hp.2
        · exact hsep p hp.1 q (hrecvAll q ((recvOfL_split children q).2 (Or.inr hq))) hid
        · exact hsep q hq.1 p (hsendAll p ((sendOfL_split children p).2 (Or.inr hp))) hid.symm
        · have g1 := (atomsL_input children).2 p hp
          have g2 := (atomsL_input children).1 q hq
          rw [hpq, g2] at g1
          cases g1
    refine ⟨out, h1, hiff, hwf, ?_, ?_, Layout.buffers_assigned henv hwf⟩
    · -- follow the connections forwards; they cannot go on for ever
      intro p hp hpi i hi
      by_contra hno
      have hx0 : ((p.id, i) : Flow.Chan) ∈ channels (deepSend flow) := by
        rw [mem_channels, hds]
        exact ⟨p, List.mem_append.2 (Or.inl (List.mem_filter.2 ⟨hp, hpi⟩)), rfl, hi⟩
      have hphx : isPlaceholder children (p.id, i) = false := by
        simp only [isPlaceholder, decide_eq_false_iff_not]
        intro hx
        obtain ⟨q, hq, hqx⟩ := List.mem_map.1 hx
        exact hsep p hp q (hrecvAll q ((recvOfL_split children q).2 (Or.inl hq))) hqx.symm
      -- channels whose sender, followed backwards, is the given input
      let P : Flow.Chan → Prop := fun x => (∃ k ∈ conns, k.1 = x) ∧
        (x = (p.id, i) ∨ ∃ n, Placeholder.ChainN (isPlaceholder children) (Placeholder.Sends conns) n x (p.id, i))
      have hstep : ∀ x, P x → ∃ y, (x, y) ∈ conns ∧ isPlaceholder children y = true ∧ P y := by
        rintro x ⟨⟨k, hk, rfl⟩, hx⟩
        have hch : ∃ n, Placeholder.ChainN (isPlaceholder children) (Placeholder.Sends conns) n k.2 (p.id, i) := by
          rcases hx with hx | ⟨n, hn⟩
          · exact ⟨0, .direct (show (_, _) ∈ conns by rw [← hx]; exact hk) hphx⟩
          · by_cases hph : isPlaceholder children k.1 = true
            · exact ⟨n + 1, .through (show (_, _) ∈ conns from hk) hph hn⟩
            · -- a real channel that receives and sends does not exist
              exfalso
              rw [Bool.not_eq_true] at hph
              have hr : RealReceiver own children k.1 := (hrealconn _).2 ⟨(hchain_conn n _ _ hn).1, hph⟩
              have hsd := hsend k hk
              obtain ⟨q, hq, e1, _⟩ := hr
              rw [mem_channels, hds] at hsd
              obtain ⟨q', hq', f1, _⟩ := hsd
              have hq'2 : (q' ∈ own ∧ q'.input = true) ∨ q' ∈ atomOutputsL children := by
                rcases List.mem_append.1 hq' with hq' | hq'
                · exact Or.inl (List.mem_filter.1 hq')
                · rcases (sendOfL_split children q').1 hq' with hq' | hq'
                  · have := hphport q' hq' k.1.2
                    rw [f1] at this
                    rw [this] at hph
                    cases hph
                  · exact Or.inr hq'
              have hid : q'.id = q.id := by rw [e1, f1]
              have hpq : q' = q := hinj q' (hsall q' hq'2) q (hrall q hq) hid
              rcases hq'2 with hp | hp <;> rcases hq with hq | hq
              · rw [hpq, hq.2] at hp
                cases hp.2
              · exact hsep q' hp.1 q (hrecvAll q ((recvOfL_split children q).2 (Or.inr hq))) hid
              · exact hsep q hq.1 q' (hsendAll q' ((sendOfL_split children q').2 (Or.inr hp))) hid.symm
              · have g1 := (atomsL_input children).2 q' hp
                have g2 := (atomsL_input children).1 q hq
                rw [hpq, g2] at g1
                cases g1
        obtain ⟨n, hn⟩ := hch
        by_cases hph : isPlaceholder children k.2 = true
        · refine ⟨k.2, hk, hph, ?_, Or.inr ⟨n, hn⟩⟩
          refine hevery _ ?_
          have hrx := (hhas k.2).1 ⟨_, hk⟩
          rw [mem_channels, hdr] at hrx
          obtain ⟨q, hq, e1, e2⟩ := hrx
          simp only [isPlaceholder, decide_eq_true_eq] at hph
          obtain ⟨q', hq', hqx⟩ := List.mem_map.1 hph
          have hq'r := (recvOfL_split children q').2 (Or.inl hq')
          have hqall : q ∈ allPorts flow := by
            rcases List.mem_append.1 hq with hq | hq
            · exact hownAll q (List.mem_filter.1 hq).1
            · exact hLAll q (hrecvAll q hq)
          have : q = q' := hinj q hqall q' (hLAll q' (hrecvAll q' hq'r)) (by rw [e1, hqx])
          rw [mem_channels, hds]
          refine ⟨q', List.mem_append.2 (Or.inr ((sendOfL_split children q').2 (Or.inl hq'))), hqx, by rw [← this]; exact e2⟩
        · rw [Bool.not_eq_true] at hph
          exfalso
          exact hno ⟨((p.id, i), k.2), (hiff _ _).2 ⟨(hrealconn _).2 ⟨⟨_, hk⟩, hph⟩, n, hn⟩, rfl⟩
      have hP0 : P (p.id, i) := by
        refine ⟨hevery _ hx0, Or.inl rfl⟩
      -- lengths of chains are bounded
      have hlong : ∀ n, ∃ y, P y ∧ isPlaceholder children y = true ∧
          Placeholder.ChainN (isPlaceholder children) (Placeholder.Sends conns) n y (p.id, i) := by
        intro n
        induction n with
        | zero =>
          obtain ⟨y, h4, h5, h6⟩ := hstep _ hP0
          exact ⟨y, h6, h5, .direct h4 hphx⟩
        | succ n ih =>
          obtain ⟨x, h4, h4', h5⟩ := ih
          obtain ⟨y, h6, h7, h8⟩ := hstep x h4
          exact ⟨y, h8, h7, .through h6 h4' h5⟩
      obtain ⟨y, _, _, hy⟩ := hlong conns.length
      obtain ⟨L, l1, l2, l3, _, _⟩ := hy.receivers huniq
      have : L.length ≤ (conns.map Prod.snd).length := (l1.subperm (by
        intro t ht
        obtain ⟨u, hu⟩ := l3 t ht
        exact List.mem_map.2 ⟨_, hu, rfl⟩)).length_le
      rw [l2, List.length_map] at this
      omega
    · intro r hr
      obtain ⟨⟨s, hs⟩, hph⟩ := (hrealconn r).1 hr
      obtain ⟨s', hs'⟩ := hall s r hs hph
      exact ⟨(s', r), (hiff _ _).2 ⟨hr, hs'⟩, rfl⟩
  · left
    have hex : ∃ s r, Placeholder.Sends conns s r ∧ isPlaceholder children r = false ∧
        ¬ ∃ s', Placeholder.Chain (isPlaceholder children) (Placeholder.Sends conns) r s' := by
      by_contra hno
      refine hall ?_
      intro s r h1 h2
      by_contra h3
      exact hno ⟨s, r, h1, h2, h3⟩
    refine ⟨r2 hex, ?_⟩
    obtain ⟨s, r, h1, h2, h3⟩ := hex
    refine ⟨r, (hrealconn r).2 ⟨⟨s, h1⟩, h2⟩, ?_⟩
    classical
    let g : Flow.Chan → Flow.Chan := fun x => if h : ∃ s, (s, x) ∈ conns then h.choose else x
    have hg : ∀ x, (∃ s, (s, x) ∈ conns) → (g x, x) ∈ conns := by
      intro x hx
      simp only [g, dif_pos hx]
      exact hx.choose_spec
    have hinv : ∀ n, (∃ s, (s, g^[n] r) ∈ conns) ∧
        ¬ ∃ s', Placeholder.Chain (isPlaceholder children) (Placeholder.Sends conns) (g^[n] r) s' := by
      intro n
      induction n with
      | zero => exact ⟨⟨s, h1⟩, h3⟩
      | succ n ih =>
        rw [Function.iterate_succ', Function.comp_apply]
        have hgn := hg _ ih.1
        have hph : isPlaceholder children (g (g^[n] r)) = true := by
          by_contra hf
          rw [Bool.not_eq_true] at hf
          exact ih.2 ⟨_, 0, .direct hgn hf⟩
        refine ⟨hthrough _ ⟨_, hgn⟩ hph, ?_⟩
        rintro ⟨s', m, hs'⟩
        exact ih.2 ⟨s', m + 1, .through hgn hph hs'⟩
    refine ⟨fun n => g^[n] r, rfl, ?_⟩
    intro n
    simp only [Function.iterate_succ', Function.comp_apply]
    have hgn := hg _ (hinv n).1
    refine ⟨hgn, ?_⟩
    by_contra hf
    rw [Bool.not_eq_true] at hf
    exact (hinv n).2 ⟨_, 0, .direct hgn hf⟩

/-! ## Examples -/

/-- The hypotheses hold for the flow of the connection check with equal sample types. -/
example : checkConnectionIntegrity demoCmp (demoFlow 0) true = true ∧ ((allPorts (demoFlow 0)).map APort.id).Nodup ∧
    Describes ⟨fun _ => 2, fun _ => 0, fun _ => 4, 16, 64, fun _ => true, id⟩ (demoFlow 0) := by
  refine ⟨by decide +kernel, by decide +kernel, ?_⟩
  have : ∀ p ∈ allPorts (demoFlow 0), p.width = 2 ∧ p.sampleType = 0 := by decide +kernel
  intro p hp
  exact ⟨(this p hp).1.symm, (this p hp).2.symm⟩

end Visr.Startup
