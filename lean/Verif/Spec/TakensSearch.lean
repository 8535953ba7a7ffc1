import Verif.Spec.TimeSeries
import Verif.Spec.Neighbors
import Mathlib.Analysis.SpecialFunctions.Log.Basic
import Mathlib.Algebra.BigOperators.Intervals

/-!
# Specifications for the search of parameters of Takens embeddings: plain statements about lists
-/

set_option autoImplicit false

namespace Gtda.Spec

variable {K : Type} [Field K] [LinearOrder K]

/-- The choice does not depend on the unit in which the distances are measured. -/
def ScaleFree (query : Nat → List K → List Nat) : Prop := ∀ (c : K), 0 < c → ∀ m r, query m (r.map fun x => c * x) = query m r

/-- The square of the distance of the embedded points at times `i` and `j`: the sum over the coordinates `i + k τ`. -/
def sqDelay (X : List K) (τ d i j : Nat) : K := ((List.range d).map fun (k : Nat) => (X.getD (i + k * τ) 0 - X.getD (j + k * τ) 0) ^ 2).sum

/-- The embedded points at times `i` and `j` in dimension `d` are false neighbours in the sense of Kennel, Brown and Abarbanel: the values at the next coordinate are more than
ten times as far from one another as the points. -/
def FalsePair (X : List K) (τ d i j : Nat) : Prop := 100 * sqDelay X τ d i j < (X.getD (i + d * τ) 0 - X.getD (j + d * τ) 0) ^ 2

/-- The series 0, 1, 2, … -/
def ramp (K : Type) [Field K] (n : Nat) : List K := (List.range n).map fun (i : Nat) => (i : K)

/-- The mean of the squares of the deviations from the mean. -/
def meanSquare (X : List K) : K := (X.map fun x => (x - X.sum / (X.length : K)) ^ 2).sum / (X.length : K)

/-- `k` is the number, counted from 1, of the bin of `x` if the interval from `lo` to `hi` is divided into `n` bins of equal width: bins contain their left ends, the last one also its right end. -/
def IsBin (n : Nat) (lo hi x : K) (k : Nat) : Prop :=
  1 ≤ k ∧ k ≤ n ∧ lo + ((k : K) - 1) * ((hi - lo) / n) ≤ x ∧ (x < lo + k * ((hi - lo) / n) ∨ k = n ∧ x ≤ hi)

/-- `lo` and `hi` are the least and the largest of the numbers `x 0`, …, `x (m - 1)`, or, if these are equal to one another, numbers around them one apart. -/
def IsRange (m : Nat) (x : Nat → K) (lo hi : K) : Prop :=
  (lo < hi ∧ (∃ i < m, x i = lo) ∧ (∃ i < m, x i = hi) ∧ ∀ i < m, lo ≤ x i ∧ x i ≤ hi) ∨ (∀ i < m, lo = x i - 1 / 2 ∧ hi = x i + 1 / 2)

/-- The proportion of the numbers below `m` that have a property. -/
noncomputable def proportion (m : Nat) (p : Nat → Prop) [DecidablePred p] : ℝ := (((Finset.range m).filter p).card : ℝ) / (m : ℝ)

/-- The mutual information of two classifications `a` and `b` of the numbers below `m` into classes 1 to `n`. -/
noncomputable def information (m n : Nat) (a b : Nat → Nat) : ℝ :=
  ∑ i ∈ Finset.Icc 1 n, ∑ j ∈ Finset.Icc 1 n,
    proportion m (fun t => a t = i ∧ b t = j) * Real.log (proportion m (fun t => a t = i ∧ b t = j) / (proportion m (fun t => a t = i) * proportion m (fun t => b t = j)))

end Gtda.Spec
