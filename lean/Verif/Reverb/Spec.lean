import Verif.Reverb.Model

/-!
# Specification of C62 and C63: reverberation parameters of a scene
-/

namespace Visr.Reverb
open Visr Visr.Rotation

/-- The objects that are rendered with reverberation. -/
def reverbObjects (scene : List Obj) : List Obj := scene.filter fun o => o.reverb && o.channels.length == 1

/-- Slot `i` of the reflection renderer plays the reflection `r`: its gain, delay and filters, and the panning gains of
its position. -/
def Plays (cfg : Cfg) (s : State) (i : Nat) (r : Reflection) : Prop :=
  s.shown.gains i = r.level ∧ s.shown.delays i = r.delay ∧ s.shown.filters i = r.filters ∧
    ∃ g, Vbap.gains cfg.eps cfg.vbap r.pos false = .ok g ∧ ∀ l < cfg.lsp, g[l]? = some (s.pan (l * cfg.stride + i))

/-- Slot `i` of the reflection renderer is silent, with a flat filter. -/
def Mute (cfg : Cfg) (s : State) (i : Nat) : Prop :=
  s.shown.gains i = 0 ∧ s.shown.delays i = 0 ∧ (∀ k, s.shown.filters i k = ⟨1, 0, 0, 0, 0⟩) ∧
    ∀ l < cfg.lsp, s.pan (l * cfg.stride + i) = 0

/-- The receivers see the parameters of the scene, with object `id` on rendering channel `place id`: every rendering
channel gets the signal of its object and of no other; its reflections are played, and all other slots are silent. -/
structure Rendered (cfg : Cfg) (s : State) (scene : List Obj) (place : Nat → Nat) : Prop where
  range : ∀ o ∈ reverbObjects scene, place o.id < cfg.n
  injective : ∀ o ∈ reverbObjects scene, ∀ o' ∈ reverbObjects scene, place o.id = place o'.id → o = o'
  routing : ∀ e, e ∈ s.shown.routing ↔ ∃ o ∈ reverbObjects scene, o.channels = [e.input] ∧ place o.id = e.output
  reflections : ∀ o ∈ reverbObjects scene, ∀ (j : Nat) (r : Reflection), o.reflections[j]? = some r →
    j < cfg.refl ∧ Plays cfg s (place o.id * cfg.refl + j) r
  rest : ∀ o ∈ reverbObjects scene, ∀ j, o.reflections.length ≤ j → j < cfg.refl → Mute cfg s (place o.id * cfg.refl + j)
  late : ∀ o ∈ reverbObjects scene, s.shown.lateGains (place o.id) = 1 ∧ s.shown.lateDelays (place o.id) = 0
  unused : ∀ ch < cfg.n, (∀ o ∈ reverbObjects scene, place o.id ≠ ch) →
    s.shown.lateGains ch = 0 ∧ s.shown.lateDelays ch = 0 ∧ ∀ j < cfg.refl, Mute cfg s (ch * cfg.refl + j)

/-- The object can be rendered: not too many reflections, and the panner finds gains for their positions. -/
def Fits (cfg : Cfg) (o : Obj) : Prop :=
  o.reflections.length ≤ cfg.refl ∧ ∀ r ∈ o.reflections, ∃ g, Vbap.gains cfg.eps cfg.vbap r.pos false = .ok g

/-- The object ids of a scene are distinct and none is the invalid id. -/
def ValidIds (scene : List Obj) : Prop := (scene.map Obj.id).Nodup ∧ ∀ o ∈ scene, o.id ≠ 2 ^ 32 - 1

/-- All late reverb parameters differ by at most `limit`. -/
def Close (limit : ℝ) (a b : Late) : Prop :=
  |a.onset - b.onset| ≤ limit ∧ ∀ k, |a.levels k - b.levels k| ≤ limit ∧ |a.decays k - b.decays k| ≤ limit ∧
    |a.attacks k - b.attacks k| ≤ limit

/-- The last message for a channel. -/
def lastFor (msgs : List (Nat × Late)) (ch : Nat) : Option Late :=
  (msgs.reverse.find? fun m => m.1 == ch).map Prod.snd

end Visr.Reverb
