import Verif.Application.Model
import Verif.Options.Spec

/-!
# What the user expects of an application

A small specification that does not use the functions which run the application.
-/

namespace Visr.Application

open Options (Word Settings)

/-- The application is asked for its help text or its version. -/
def Informs (w : World) (args : List Word) : Prop :=
  ∃ v, Options.parse Options.rendererOptions w.files args = .ok (.help, v) ∨
    Options.parse Options.rendererOptions w.files args = .ok (.version, v)

/-- The options are accepted and give these settings. -/
def Accepted (w : World) (args : List Word) (s : Settings) : Prop :=
  ∃ v, Options.parse Options.rendererOptions w.files args = .ok (.success, v) ∧
    Options.settings v w.files w.arrays w.table = .ok s

/-- The renderer exists, the interface is created with the settings, knows the signal flow and runs. -/
def Plays (w : World) (args : List Word) (s : Settings) (d : Device) : Prop :=
  Accepted w args s ∧ w.build s = .ok () ∧ w.flow s = .ok () ∧
    create w.interfaces s.backend ⟨s.inputs, s.outputs, s.samplingRate, s.period⟩ s.interface = .ok d ∧
    d.register = .ok () ∧ d.start = .ok ()

/-- A letter q is among the first characters on the console. -/
def Typed (w : World) (reads : Nat) : Prop := ∃ k < reads, w.console k = some 113

/-- An event occurs only after another one. -/
def After (log : List Event) (e before : Event) : Prop := ∀ l r, log = l ++ e :: r → before ∈ l

/-- A step that neither reaches undefined behaviour nor throws something that is not a `std::exception`. -/
def Sound {α : Type} (o : Outcome α) : Prop := o ≠ .ub ∧ o ≠ .throw .cString

/-- The option for the audio interface is given neither on the command line nor in the option file. -/
def NoBackend (w : World) (args : List Word) : Prop :=
  ∀ cmd file, Options.readWords Options.rendererOptions true args = .ok cmd →
    Options.FileOptions Options.rendererOptions w.files cmd file →
    Options.effective cmd file "audio-backend".toList = none

end Visr.Application
