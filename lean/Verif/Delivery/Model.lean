import Verif.Reverb.Model
import Verif.LateFilter.Model
import Verif.Run

/-!
# From the scene to the late reverberation filters

The two components of `ReverbObjectRenderer` (`/repo/src/libreverbobject/reverb_object_renderer.cpp`) that compute the
late reverberation filters, connected by a message queue (330).
-/

namespace Visr.Delivery
open Visr

/-- The states of the parameter calculator and of the filter calculator with its input queue. -/
structure System where
  rev : Reverb.State
  late : LateFilter.State

/-- Before the first period. -/
noncomputable def System.initial (rc : Reverb.Cfg) : System := ⟨Reverb.State.initial rc, ⟨[], []⟩⟩

/-- One period: the parameter calculator processes the scene and its messages get into the queue (C03); then the filter
calculator runs. An exception in the parameter calculator ends the period (`audio_signal_flow.cpp`, C29), with the
messages sent so far in the queue. -/
noncomputable def period (rc : Reverb.Cfg) (lc : LateFilter.Cfg) (s : System) (scene : List Reverb.Obj) : System × Outcome Unit :=
  match Reverb.process rc s.rev scene with
  | (rev, r) =>
    let queue := s.late.queue ++ rev.sent.drop s.rev.sent.length
    match r with
    | .ok () =>
      match LateFilter.process lc ⟨queue, s.late.sent⟩ with
      | (late, r) => (⟨rev, late⟩, r)
    | r => (⟨rev, ⟨queue, s.late.sent⟩⟩, r)

end Visr.Delivery
