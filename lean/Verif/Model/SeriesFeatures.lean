import Verif.Model.Features

set_option autoImplicit false

/-!
# Model of features of time series

`gtda/time_series/features.py` (`PermutationEntropy`), `gtda/time_series/multivariate.py` (`PearsonDissimilarity`).
-/

namespace Gtda.Series
open Gtda.Py Gtda.Parallel Gtda.Diagrams

/-- `np.argsort` of a row. Ties are kept in order, as insertion sort does (numpy's default algorithm uses it on short arrays; on longer ones ties may come in another order). Used in `permutationEntropy`, gtda/time_series/features.py:52-57. -/
def argsort {K : Type} [LinearOrder K] (row : List K) : List Nat :=
  ((row.zipIdx).insertionSort fun a b => a.1 ≤ b.1).map Prod.snd

/-- `_entropy_2d`, gtda/time_series/features.py:47-50. Distinct rows are listed in the order of occurrence instead of sorted. -/
noncomputable def entropy2d (x : List (List Nat)) : Option ℝ := scipyEntropy2 (x.dedup.map fun r => ((x.count r : Nat) : ℝ))

/-- `_permutation_entropy`, gtda/time_series/features.py:52-57 (each entry is an array of one number). -/
noncomputable def permutationEntropy {K : Type} [LinearOrder K] (X : List (List (List K))) : List (List (Option ℝ)) :=
  (X.map fun x => x.map argsort).map fun x => [entropy2d x]

/-- `PermutationEntropy.transform` after validation, gtda/time_series/features.py:106-110. -/
noncomputable def permutationEntropyTransform {K : Type} [LinearOrder K] (nJobs : Nat) (X : List (List (List K))) : List (List (Option ℝ)) :=
  chunked permutationEntropy nJobs X

/-- Column `j` of a matrix given by its rows. Used in `pearsonDissimilarity`, gtda/time_series/multivariate.py:104-107. -/
def column {α : Type} (X : List (List α)) (j : Nat) : List α := X.filterMap fun r => r[j]?

/-- `x - mean(x)`. Used in `pearsonDissimilarity`, gtda/time_series/multivariate.py:104-107. -/
noncomputable def centred (x : List ℝ) : List ℝ := x.map fun a => a - x.sum / x.length

/-- Entry of `np.cov` for two variables: `Σ (x - mean) (y - mean) / (T - 1)`. Used in `pearsonDissimilarity`, gtda/time_series/multivariate.py:104-107. -/
noncomputable def cov (x y : List ℝ) : ℝ := (List.zipWith (· * ·) (centred x) (centred y)).sum / ((x.length : ℝ) - 1)

/-- Entry of `np.corrcoef` for two variables with positive variance: covariance divided by the two standard deviations, clipped to `[-1, 1]`. `none` (NaN) if a variance is zero or there
are less than two time points (`0 / 0`). Used in `pearsonDissimilarity`, gtda/time_series/multivariate.py:104-107. -/
noncomputable def corrcoef (x y : List ℝ) : Option ℝ :=
  if x.length ≤ 1 ∨ cov x x = 0 ∨ cov y y = 0 then none
  else
    let c := cov x y / Real.sqrt (cov x x) / Real.sqrt (cov y y)
    some (max (-1) (min 1 c))

/-- `PearsonDissimilarity.transform` for one sample with `m` variables, gtda/time_series/multivariate.py:104-107. -/
noncomputable def pearsonDissimilarity (absoluteValue : Bool) (m : Nat) (sample : List (List ℝ)) : List (List (Option ℝ)) :=
  (List.range m).map fun i => (List.range m).map fun j =>
    (corrcoef (column sample i) (column sample j)).map fun r => if absoluteValue then 1 - |r| else 0.5 - r / 2

/-- `PearsonDissimilarity.transform`, gtda/time_series/multivariate.py:104-109. -/
noncomputable def pearsonTransform (absoluteValue : Bool) (m : Nat) (X : List (List (List ℝ))) : List (List (List (Option ℝ))) := X.map (pearsonDissimilarity absoluteValue m)

end Gtda.Series
