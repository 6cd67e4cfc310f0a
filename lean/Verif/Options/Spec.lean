import Verif.Options.Model

/-!
# What command-line options mean

A small specification that does not use the functions which store values.
-/

namespace Visr.Options

/-- The words given for an option in a list of parsed options. -/
def given (os : List Occ) (n : Word) : Option (List Word) := (os.find? fun o => o.key = n).map Occ.value

/-- The command line comes first, then the option file. -/
def effective (cmd file : List Occ) (n : Word) : Option (List Word) :=
  match given cmd n with
  | some ws => some ws
  | none => given file n

/-- The number an option is set to: the one given, or the default. -/
def sizeSetting (cmd file : List Occ) (n : Word) (dflt : Nat) : Option Nat :=
  match effective cmd file n with
  | some [w] => readSize w
  | some _ => none
  | none => some dflt

/-- The text an option is set to: the one given, or the default. -/
def textSetting (cmd file : List Occ) (n : Word) (dflt : Word) : Option Word :=
  match effective cmd file n with
  | some [w] => some w
  | some _ => none
  | none => some dflt

/-- The parsed options of the option file named on the command line; none if no file is named. -/
def FileOptions (ds : List Decl) (files : Word → Option Word) (cmd file : List Occ) : Prop :=
  match given cmd optionFile with
  | some [f] => ∃ text ws, files f = some text ∧ fileWords text = .ok ws ∧ readWords ds false ws = .ok file
  | _ => file = []

/-- A word that is not written like an option. -/
def Plain (w : Word) : Prop := w.head? ≠ some '-' ∧ w.head? ≠ some '@'

/-- A name of an option which can be written on the command line. -/
def GoodName (n : Word) : Prop := n ≠ [] ∧ '=' ∉ n

/-- How a word is written in an option file: in quotes, with a backslash before quotes and backslashes. -/
def quoted (w : Word) : Word :=
  '"' :: (w.flatMap fun c => if c = '"' ∨ c = '\\' then ['\\', c] else [c]) ++ ['"']

/-- An option file in the documented format: one option with its value in each line. -/
def written (opts : List (Word × Word)) : Word :=
  opts.flatMap fun o => ['-', '-'] ++ o.1 ++ [' '] ++ quoted o.2 ++ ['\n']

/-- Characters without special meaning in option files. -/
def PlainChars (w : Word) : Prop := ∀ c ∈ w, c ≠ '\\' ∧ c ≠ '"' ∧ isSeparator c = false

end Visr.Options
