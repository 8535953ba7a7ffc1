import Mathlib.Data.Real.Basic
import Mathlib.Data.List.Sort

set_option autoImplicit false

/-!
# What the named features of a curve are (C161)
-/

namespace Gtda.Spec

/-- The names of features that are numbers. -/
def featureNames : List String := ["argmax", "argmin", "min", "max", "mean", "std", "median", "average"]

/-- Entry `j` of row `i`. -/
def Entry {α : Type} (A : List (List α)) (i j : Nat) (v : α) : Prop := ∃ row, A[i]? = some row ∧ row[j]? = some v

/-- `m` is the largest value of the curve `x`. -/
def IsMax (x : List ℝ) (m : ℝ) : Prop := m ∈ x ∧ ∀ a ∈ x, a ≤ m

/-- `m` is the smallest value of the curve `x`. -/
def IsMin (x : List ℝ) (m : ℝ) : Prop := m ∈ x ∧ ∀ a ∈ x, m ≤ a

/-- `v` is the first bin in which the curve `x` has the value `m`. -/
def IsFirst (x : List ℝ) (m v : ℝ) : Prop := ∃ k : Nat, v = k ∧ x[k]? = some m ∧ ∀ k' < k, x[k']? ≠ some m

/-- `v` is half way between the two middle values, with the values of `x` in increasing order. -/
def IsMedian (x : List ℝ) (v : ℝ) : Prop :=
  ∃ s : List ℝ, s.Perm x ∧ s.Pairwise (· ≤ ·) ∧ ∃ a b, s[(x.length - 1) / 2]? = some a ∧ s[x.length / 2]? = some b ∧ v = (a + b) / 2

/-- `v` is the feature named `s` of the curve `x`. -/
def IsFeature (s : String) (x : List ℝ) (v : ℝ) : Prop :=
  (s = "max" → IsMax x v) ∧ (s = "min" → IsMin x v) ∧
  (s = "argmax" → ∃ m, IsMax x m ∧ IsFirst x m v) ∧ (s = "argmin" → ∃ m, IsMin x m ∧ IsFirst x m v) ∧
  (s = "mean" ∨ s = "average" → v * x.length = x.sum) ∧
  (s = "std" → 0 ≤ v ∧ ∃ μ : ℝ, μ * x.length = x.sum ∧ v ^ 2 * x.length = (x.map fun a => (a - μ) ^ 2).sum) ∧
  (s = "median" → IsMedian x v)

/-- The curves have as many bins, and differ by at most `ε` in each. -/
def Within (ε : ℝ) (x x' : List ℝ) : Prop := List.Forall₂ (fun a b => |a - b| ≤ ε) x x'

end Gtda.Spec
