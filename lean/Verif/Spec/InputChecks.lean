import Verif.Model.InputChecks

/-!
# Which collections should be accepted

Only the types of numbers, arrays, inputs and outputs are taken from the model.
-/

set_option autoImplicit false

namespace Gtda.Spec.Checks

open Gtda.Checks

variable {K : Type}

/-- No entry is NaN, and no entry is infinite if all entries must be finite. -/
def GoodEntries (finite : Bool) (l : List (Num K)) : Prop :=
  Num.nan ∉ l ∧ (finite = true → ∀ b, Num.inf b ∉ l)

/-- A point cloud, or a distance or adjacency matrix: two axes, at least one row and one column,
square if it is to be a dense matrix of distances. -/
structure GoodCloud (finite distance : Bool) (x : Arr K) : Prop where
  shape : ∃ rows cols, x.shape = [rows, cols] ∧ 1 ≤ rows ∧ 1 ≤ cols ∧
    (distance = true → x.sparse = false → rows = cols)
  entries : GoodEntries finite x.data

/-- An array whose entries are point clouds or distance matrices. -/
structure GoodArray (finite distance : Bool) (x : Arr K) : Prop where
  shape : ∃ samples rows cols, x.shape = [samples, rows, cols] ∧ 1 ≤ samples ∧
    (distance = true → rows = cols)
  entries : GoodEntries finite x.data

/-- Infinite entries are refused unless distance matrices are expected or the caller says so. -/
def mustBeFinite (distance : Bool) : Option Bool → Bool
  | some b => b
  | none => !distance

/-- The array whose entries along the first axis are given. -/
def Stacks (l : List (Arr K)) (rows cols : Nat) (out : Arr K) : Prop :=
  out.shape = [l.length, rows, cols] ∧ out.sparse = false ∧
    out.data = l.flatMap fun x => x.data

/-- An array of a collection of arrays: at least one axis, and something along it. -/
structure GoodItem (finite : Bool) (x : Arr K) : Prop where
  axes : ∃ n rest, x.shape = n :: rest ∧ 1 ≤ n ∧ (∀ m, rest = [m] → 1 ≤ m)
  entries : GoodEntries finite x.data

end Gtda.Spec.Checks
