import Verif.ConvolverApp.Model
import Verif.Options.Spec

/-!
# What the user expects of the matrix convolver application

A small specification that does not use the functions which run the application.
-/

namespace Visr.ConvolverApp

open Options (Word Vars)
open Application (Device)

variable {K R : Type} [Zero K]

/-- The options are read, and no list is asked for. -/
def Asked (w : World K R) (args : List Word) (v : Vars) : Prop :=
  Options.parse options w.files args = .ok (.success, v) ∧ lists v = .ok false

/-- The application is asked for its help text, its version, the audio interfaces or the FFT libraries. -/
def Informs (w : World K R) (args : List Word) : Prop :=
  ∃ v, Options.parse options w.files args = .ok (.help, v) ∨ Options.parse options w.files args = .ok (.version, v) ∨
    (Options.parse options w.files args = .ok (.success, v) ∧ lists v = .ok true)

/-- The convolver exists, the audio interface is created with the settings, knows the signal flow and runs. -/
def Plays (w : World K R) (args : List Word) (p : Plan K R) (spec : Word) (d : Device) : Prop :=
  ∃ v, Asked w args v ∧ plan w v = .ok p ∧ w.build p = .ok () ∧ w.flow p = .ok () ∧
    Options.interfaceOptions v w.files = .ok spec ∧
    Application.create w.interfaces p.backend ⟨p.inputs, p.outputs, p.samplingRate, p.period⟩ spec = .ok d ∧
    d.register = .ok () ∧ d.start = .ok ()

/-- A letter q is among the first characters on the console. -/
def Typed (w : World K R) (reads : Nat) : Prop := ∃ k < reads, w.console k = some 113

/-- An event occurs only after another one. -/
def After (log : List Event) (e before : Event) : Prop := ∀ l r, log = l ++ e :: r → before ∈ l

end Visr.ConvolverApp
