import Mathlib.Data.List.Count
import Mathlib.Order.Basic

set_option autoImplicit false

/-!
# Vocabulary for C151: ranks of neighbours

`n` points, `d i j` the distance from the `i`-th to the `j`-th one. Written without reference to the model.
-/

namespace Gtda.Spec.KnnGeodesic

variable {K : Type} [LinearOrder K]

/-- How many other points are nearer to `i` than `j` is. -/
def nearer (n : Nat) (d : Nat → Nat → K) (i j : Nat) : Nat := (List.range n).countP fun l => decide (l ≠ i ∧ d i l < d i j)

/-- How many points other than `i` and `j` are at least as near to `i` as `j` is. -/
def asNear (n : Nat) (d : Nat → Nat → K) (i j : Nat) : Nat := (List.range n).countP fun l => decide (l ≠ i ∧ l ≠ j ∧ d i l ≤ d i j)

/-- No two other points are equally far from a point. -/
def NoTies (n : Nat) (d : Nat → Nat → K) : Prop := ∀ i < n, ∀ j < n, ∀ l < n, j ≠ i → l ≠ i → d i j = d i l → j = l

/-- `j` is one of the `k` nearest points of `i`. -/
def AmongNearest (n k : Nat) (d : Nat → Nat → K) (i j : Nat) : Prop := i < n ∧ j < n ∧ j ≠ i ∧ nearer n d i j < k

end Gtda.Spec.KnnGeodesic
