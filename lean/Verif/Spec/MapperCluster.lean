import Mathlib.Data.List.Basic
import Mathlib.Data.List.Range
import Mathlib.Algebra.Order.Field.Basic

set_option autoImplicit false

/-!
# Specification of pullback clustering and of gaps in a dendrogram
-/

namespace Gtda.Spec

/-- The samples of a set given by a boolean column, ascending. -/
def membersOf (col : List Bool) : List Nat := (List.range col.length).filter fun i => col[i]? = some true

/-- `r` consists of the entries of `l` at the positions `S`, in this order. -/
def Picks {α : Type} (l : List α) (S : List Nat) (r : List α) : Prop := r.map some = S.map fun i => l[i]?

/-- `sub` is the part of the data belonging to the samples `S`: their rows, or (for a distance matrix) their rows and columns. -/
def IsPortion {K : Type} (distances : Bool) (X : List (List K)) (S : List Nat) (sub : List (List K)) : Prop :=
  if distances then ∃ rows, Picks X S rows ∧ List.Forall₂ (fun row r => Picks row S r) rows sub else Picks X S sub

/-- The weights passed on for the samples `S`: those of the samples if weights are given and the clusterer accepts them, nothing otherwise. -/
def IsWeights {W : Type} (accepts : Bool) (w : Option (List W)) (S : List Nat) (v : Option (List W)) : Prop :=
  match w, accepts with
  | some ws, true => ∃ r, v = some r ∧ Picks ws S r
  | _, _ => v = none

section
variable {K : Type} [Field K] [LinearOrder K]

/-- The gap before merge number `i` of a dendrogram with merge distances `ds`: the difference to the previous merge distance, or the distance itself for the first merge. -/
def gapBefore (ds : List K) (i : Nat) : K := ds.getD i 0 - (if i = 0 then 0 else ds.getD (i - 1) 0)

/-- The number of merges before and including linkage `t`. -/
def mergesUpTo (ds : List K) (t : K) : Nat := ds.countP fun d => decide (d ≤ t)

/-- Left edge of bin `i` when `[a, b]` is divided into `k` equal bins. -/
def binEdge (a b : K) (k i : Nat) : K := a + i * ((b - a) / k)

/-- Number of merges in bin `i` of `k` equal bins of `[a, b]`; all bins are half open, except the last. -/
def binCount (a b : K) (k i : Nat) (ds : List K) : Nat :=
  ds.countP fun d => decide (binEdge a b k i ≤ d ∧ (d < binEdge a b k (i + 1) ∨ i + 1 = k ∧ d ≤ b))

end

end Gtda.Spec
