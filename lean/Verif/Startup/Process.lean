import Verif.Startup.Props
import Verif.Schedule.Props
import Verif.Execute.Props

/-!
# C22 to C27 together: an accepted flow computes its function
-/

namespace Visr.Startup
open Visr Visr.Flow

/-- **C27 (from the component tree to the processed block).** Take a composite flow that the connection check accepts and
whose construction succeeds: the composite ports are resolved (`out`), the buffers assigned (`l`) and the schedule created
(`sched`). Then each call of `process()` reports a failure of a component or computes the flow's function
(`Execute.BlockDone`). The components of the tree (`tree`) use their ports as described by `Execute.Wired`. -/
theorem accepted_flow_processes (cmp : Nat → Nat → Option Bool) (own : List APort) (params : List PPort)
    (children : List Comp) (aconns : List AConn) (pconns : List PConn) (flow : Comp)
    (hflow : flow = .composite own params children aconns pconns)
    (hacc : checkConnectionIntegrity cmp flow true = true)
    (hnd : ((allPorts flow).map APort.id).Nodup)
    (env : Layout.Env) (henv : Layout.EnvOK env) (hper : 0 < env.period) (hdesc : Describes env flow)
    (htypes : ∀ k ∈ (fillRecursive flow).1, env.stype k.1.1 = env.stype k.2.1)
    {out : List Layout.Conn} (hout : Placeholder.resolveAudio (isPlaceholder children) (fillRecursive flow).1 = .ok out)
    {l : Layout.Result} (hl : Layout.initialise env out = .ok l)
    (addr : Nat) (nodes : List Schedule.Comp) (c : Schedule.Conns) (hsw : Schedule.WellFormed (.composite addr nodes) c)
    {sched : List Nat} (hsched : Schedule.initialiseSchedule (.composite addr nodes) c = .ok sched)
    {V S : Type*} {A : Nat → Execute.Atom V S} {owner : Layout.PortRef → Schedule.Owner}
    (hown : ∀ p ∈ own, (owner (.orig p.id)).composite = true)
    (hW : Execute.Wired env out l owner A (Schedule.Comp.composite addr nodes).atoms c)
    {F : Type*} {n : Nat} (k : Execute.Codec F V n) (name : Nat → String) (exn : Exn) (q : Execute.Call F)
    (m : Execute.Machine V S) :
    let ins := (own.filter fun p => p.input).map APort.id
    let outs := (own.filter fun p => !p.input).map APort.id
    let cap := Execute.channelList (ins.map (Execute.extPort env l name))
    let play := Execute.channelList (outs.map (Execute.extPort env l name))
    let r := Execute.process k A sched cap play exn q m
    q.vout.Disjoint play.length n →
    r.2 = .throw exn ∨ ∃ res, r.2 = .ok res ∧
      Execute.BlockDone k env out l owner A (Schedule.Comp.composite addr nodes).atoms ins outs q m.state r.1.state res := by
  intro ins outs cap play r hd
  obtain ⟨_, h⟩ := accepted_flow_initialised cmp own params children aconns pconns flow hflow hacc hnd env henv hdesc htypes
  rcases h with ⟨⟨e, he⟩, _⟩ | ⟨out', h1, _, hwf, hin, hrecv, hbuf⟩
  · rw [hout] at he; cases he
  · rw [hout] at h1
    obtain rfl := Outcome.ok.inj h1
    have hC : Layout.Correct env out l := by
      rcases hbuf with ⟨l', h2, h3⟩ | ⟨h2, _⟩
      · rw [hl] at h2
        obtain rfl := Outcome.ok.inj h2
        exact h3
      · rw [hl] at h2; cases h2
    have hadm : Schedule.Admissible (Schedule.Comp.composite addr nodes).atoms c sched := by
      obtain ⟨s1, s2⟩ := Schedule.initialiseSchedule_correct _ c hsw
      by_cases hcyc : Schedule.CyclicFlow c
      · have := s2 hcyc ⟨_, _, rfl⟩
        rw [hsched] at this; cases this
      · obtain ⟨l', h2, h3⟩ := s1 hcyc
        rw [hsched] at h2
        obtain rfl := Outcome.ok.inj h2
        exact h3
    have hap : allPorts flow = own ++ allPortsL children := by rw [hflow]; rfl
    have hwidth : ∀ p ∈ own, env.width p.id = p.width := fun p hp => (hdesc p (by rw [hap]; simp [hp])).1
    have hndown : (own.map APort.id).Nodup := by
      rw [hap, List.map_append] at hnd
      exact (List.nodup_append.1 hnd).1
    have hE : Execute.ExtConnected env out owner ins outs := by
      refine ⟨?_, ?_, ?_, ?_, ?_⟩
      · intro x hx hpos
        obtain ⟨p, hp, rfl⟩ := List.mem_map.1 hx
        obtain ⟨hp1, hp2⟩ := List.mem_filter.1 hp
        rw [hwidth p hp1] at hpos
        obtain ⟨κ, hκ, he⟩ := hin p hp1 hp2 0 hpos
        exact ⟨κ, hκ, by rw [he]⟩
      · intro x hx i hi
        obtain ⟨p, hp, rfl⟩ := List.mem_map.1 hx
        obtain ⟨hp1, hp2⟩ := List.mem_filter.1 hp
        rw [hwidth p hp1] at hi
        exact hrecv (p.id, i) ⟨p, Or.inl ⟨hp1, by simpa using hp2⟩, rfl, hi⟩
      · intro x hx
        obtain ⟨p, hp, rfl⟩ := List.mem_map.1 hx
        exact hown p (List.mem_filter.1 hp).1
      · exact hndown.sublist (List.filter_sublist.map _)
      · exact hndown.sublist (List.filter_sublist.map _)
    exact Execute.process_correct k henv hper hwf hC hW hE hadm name exn q hd m

end Visr.Startup
