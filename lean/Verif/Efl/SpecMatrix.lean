import Verif.Efl.Matrix

/-!
# Specification of matrices

A matrix is a rectangular table of elements with a fixed alignment; there is no storage, stride or padding.
-/

namespace Visr.Efl
open Visr

/-- An abstract matrix. Only elements inside the dimensions matter. -/
structure Table (α : Type*) where
  rows : Nat
  cols : Nat
  align : Nat
  elem : Nat → Nat → α

variable {α : Type*}

/-- Alignments accepted by the constructors. -/
def LegalAlign (align : Nat) : Prop := align = 0 ∨ ∃ k, align = 2 ^ k

/-- Effect of an operation on abstract matrices: every operation changes exactly the elements it names. -/
noncomputable def tableStep [Zero α] (s : Nat → Option (Table α)) (op : MatOp α) :
    (Nat → Option (Table α)) × Outcome (Option α) :=
  open Classical in
  match op with
  | .create i rows cols align =>
    if LegalAlign align then (setObj s i ⟨rows, cols, max align 1, fun _ _ => 0⟩, .ok none)
    else (s, .throw .invalidArgument)
  | .createFrom i rows cols align vals _ =>
    if LegalAlign align ∧ vals.length = rows ∧ ∀ r ∈ vals, r.length = cols then
      (setObj s i ⟨rows, cols, max align 1, fun r c => ((vals[r]?.bind fun l => l[c]?).getD 0)⟩, .ok none)
    else (s, .throw .invalidArgument)
  | .resize i rows cols => match s i with
    | some m => (setObj s i ⟨rows, cols, m.align, fun _ _ => 0⟩, .ok none)
    | none => (s, .ok none)
  | .fill i v => match s i with
    | some m => (setObj s i { m with elem := fun _ _ => v }, .ok none)
    | none => (s, .ok none)
  | .read i row col => match s i with
    | some m => (s, if row < m.rows ∧ col < m.cols then .ok (some (m.elem row col)) else .throw .outOfRange)
    | none => (s, .ok none)
  | .write i row col v => match s i with
    | some m =>
      if row < m.rows ∧ col < m.cols then
        (setObj s i { m with elem := fun r c => if r = row ∧ c = col then v else m.elem r c }, .ok none)
      else (s, .throw .outOfRange)
    | none => (s, .ok none)
  | .setRow i row vals => match s i with
    | some m => (setObj s i { m with elem := fun r c => if r = row then vals[c]?.getD 0 else m.elem r c }, .ok none)
    | none => (s, .ok none)
  | .setColumn i col vals => match s i with
    | some m => (setObj s i { m with elem := fun r c => if c = col then vals[r]?.getD 0 else m.elem r c }, .ok none)
    | none => (s, .ok none)
  | .copy i j => match s i, s j with
    | some m, some src =>
      if m.rows = src.rows ∧ m.cols = src.cols then (setObj s i { m with elem := src.elem }, .ok none)
      else (s, .throw .invalidArgument)
    | _, _ => (s, .ok none)
  | .swap i j => match s i, s j with
    | some a, some b =>
      if a.rows = b.rows ∧ a.cols = b.cols ∧ a.align = b.align then
        (setObj (setObj s i { a with elem := b.elem }) j { b with elem := a.elem }, .ok none)
      else (s, .throw .logicError)
    | _, _ => (s, .ok none)

/-- Preconditions the unchecked functions leave to the caller: `setRow` and `setColumn` need an index inside the
dimensions and enough values, and sizes and alignments are machine numbers. -/
def Contract (s : Nat → Option (Table α)) : MatOp α → Prop
  | .create _ _ _ align => align < 2 ^ 64
  | .createFrom _ _ _ align _ _ => align < 2 ^ 64
  | .setRow i row vals => ∀ m, s i = some m → row < m.rows ∧ m.cols ≤ vals.length
  | .setColumn i col vals => ∀ m, s i = some m → col < m.cols ∧ m.rows ≤ vals.length
  | _ => True

/-- Every operation of a program respects its contract. -/
def Contracts [Zero α] (s : Nat → Option (Table α)) : List (MatOp α) → Prop
  | [] => True
  | op :: ops => Contract s op ∧ Contracts (tableStep s op).1 ops

end Visr.Efl
