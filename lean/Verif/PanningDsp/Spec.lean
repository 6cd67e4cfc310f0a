import Verif.PanningDsp.Model
import Mathlib.Algebra.BigOperators.Group.List.Basic

/-!
# C69: documented meaning of time-stamped gain transitions

The documentation of `PanningGainMatrix` (`src/libpanningdsp/panning_gain_matrix.hpp:43-82`), written as a trajectory
in time. Nothing here refers to blocks or to the members of the component.
-/

namespace Visr.PanningDsp

variable {K : Type*} [Field K]

/-- A gain change: from gains `init` at time `start` on a straight line to the gains `target` at time `stop`, constant
afterwards. Gains are indexed by loudspeaker. -/
structure Seg (K : Type*) where
  start : Nat
  stop : Nat
  init : Nat → K
  target : Nat → K

/-- Gain of loudspeaker `l` at time `t`. -/
def Seg.value (g : Seg K) (t l : Nat) : K :=
  if t < g.stop then g.init l + ((t : K) - g.start) / ((g.stop : K) - g.start) * (g.target l - g.init l)
  else g.target l

/-- The trajectory of one object: the present gain change and at most one stored transition. -/
structure Traj (K : Type*) where
  seg : Seg K
  stored : Option (Transition K)

/-- Gains of a transition by loudspeaker. -/
def gainsOf (row : List K) (l : Nat) : K := row.getD l 0

/-- "If the start time of the stored transition is reached, it becomes the current transition": it starts from the
interpolated gains at this time. -/
def Traj.activate (s : Traj K) (t : Nat) : Traj K :=
  match s.stored with
  | none => s
  | some m => if m.start = t then ⟨⟨t, t + m.duration, s.seg.value t, gainsOf m.gains⟩, none⟩ else s

/-- A transition received at time `t`: entries without time stamp and entries in the past are ignored, all others
replace the stored transition. -/
def Traj.receive (s : Traj K) (t : Nat) (m : Transition K) : Traj K :=
  if m.start = infinity ∨ m.start < t then s else ({ s with stored := some m } : Traj K).activate t

/-- The trajectory `n` samples later. -/
def Traj.after (s : Traj K) (t : Nat) : Nat → Traj K
  | 0 => s
  | n + 1 => (s.after t n).activate (t + n + 1)

/-- Gain of loudspeaker `l` for the `n`-th sample after time `t`: the sample between the times `t + n` and `t + n + 1`
gets the gain at the end of this interval, so that the last sample of a transition has the target gain. -/
def Traj.gain (s : Traj K) (t n l : Nat) : K := (s.after t n).seg.value (t + n + 1) l

/-- Initially the gains are constant and nothing is stored. -/
def Traj.init (gains : List K) : Traj K := ⟨⟨0, 0, gainsOf gains, gainsOf gains⟩, none⟩

/-- Loudspeaker signals of one block: the sum over all objects of the object signal times the gain of this object. -/
def specOutput (numLsp period clock : Nat) (trajs : List (Traj K)) (input : List (List K)) : List (List K) :=
  (List.range numLsp).map (fun l => (List.range period).map (fun n =>
    (List.zipWith (fun (s : Traj K) (x : List K) => s.gain clock n l * x.getD n 0) trajs input).sum))

/-- What a message does to the trajectory of one object. -/
abbrev Receive (K : Type*) := Traj K → Nat → Transition K → Traj K

/-- Trajectories after a message. -/
def receiveAll (recv : Receive K) (clock : Nat) (trajs : List (Traj K)) :
    Option (List (Transition K)) → List (Traj K)
  | none => trajs
  | some m => List.zipWith (fun s t => recv s clock t) trajs m

/-- Outputs of a history of blocks. -/
def specRun (recv : Receive K) (numLsp period : Nat) : Nat → List (Traj K) → List (Op K) → List (List (List K))
  | _, _, [] => []
  | clock, trajs, op :: ops =>
    let trajs := receiveAll recv clock trajs op.message
    specOutput numLsp period clock trajs op.input ::
      specRun recv numLsp period (clock + period) (trajs.map (fun s => s.after clock period)) ops

/-- A transition received at time `t` that does not exceed the range of the time type and is not in the past (or the
entry is marked as "no change"). -/
def Valid (numLsp t : Nat) (m : Transition K) : Prop :=
  m.start = infinity ∨ (t ≤ m.start ∧ m.start + m.duration < infinity ∧ m.gains.length = numLsp)

/-- The transition does not cut off a gain change in progress: it starts when the present change is over, or it is an
immediate jump at time `t`, or it replaces a change that would start at `t` as well. -/
def NoInterruption (t : Nat) (s : Traj K) (m : Transition K) : Prop :=
  m.start = infinity ∨ s.seg.stop ≤ m.start ∨ (m.start = t ∧ (m.duration = 0 ∨ s.seg.start = t))

/-- Conditions on a history: buffers have the configured sizes, messages have one entry per object, the clock does not
overflow, and all transitions satisfy `P` when they are received. -/
def Admissible (recv : Receive K) (P : Nat → Traj K → Transition K → Prop) (numLsp period : Nat) :
    Nat → List (Traj K) → List (Op K) → Prop
  | _, _, [] => True
  | clock, trajs, op :: ops =>
    clock + period < infinity ∧
    op.input.length = trajs.length ∧
    (op.stale.length = numLsp ∧ ∀ x ∈ op.stale, x.length = period) ∧
    (∀ m, op.message = some m → List.Forall₂ (fun s t => Valid numLsp clock t ∧ P clock s t) trajs m) ∧
    Admissible recv P numLsp period (clock + period)
      ((receiveAll recv clock trajs op.message).map (fun s => s.after clock period)) ops

/-- The deviation of the code from the documentation when a transition cuts off a gain change in progress. If it starts
now, the gains jump back to those from which the cut-off change had started. If it starts later, the cut-off change is
redirected towards the gains it has now. -/
def receiveActual : Receive K := fun s t m =>
  if m.start ≠ infinity ∧ m.start = t ∧ m.duration ≠ 0 ∧ t < s.seg.stop then
    ⟨⟨t, t + m.duration, s.seg.init, gainsOf m.gains⟩, none⟩
  else if m.start ≠ infinity ∧ t < m.start ∧ m.start < s.seg.stop then
    ⟨⟨s.seg.start, m.start, s.seg.init, s.seg.value t⟩, some m⟩
  else s.receive t m

end Visr.PanningDsp
