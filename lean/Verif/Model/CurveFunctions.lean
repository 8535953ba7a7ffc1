import Verif.Model.CurveFeatures
import Mathlib.Data.Real.Sqrt

set_option autoImplicit false

/-!
# Model of the functions named in `gtda/curves/_functions.py` (`_implemented_function_recipes`)

NumPy's reductions of a one-dimensional array with at least one entry, without keyword arguments; arithmetic is exact. `np.average` with weights is not modelled here.
-/

namespace Gtda.CurveFunctions
open Gtda.Py Gtda.CurveFeatures

/-- `np.max`. Used in `recipe`, gtda/curves/_functions.py:26. -/
noncomputable def npMax : List ℝ → PyM ℝ
  | [] => .error .valueError
  | a :: x => .ok (x.foldl max a)

/-- `np.min`. Used in `recipe`, gtda/curves/_functions.py:25. -/
noncomputable def npMin : List ℝ → PyM ℝ
  | [] => .error .valueError
  | a :: x => .ok (x.foldl min a)

/-- `np.argmax`: the first position of the largest entry. Used in `recipe`, gtda/curves/_functions.py:23. -/
noncomputable def npArgmax (x : List ℝ) : PyM ℝ := do
  let m ← npMax x
  .ok ((x.idxOf m : Nat) : ℝ)

/-- `np.argmin`: the first position of the smallest entry. Used in `recipe`, gtda/curves/_functions.py:24. -/
noncomputable def npArgmin (x : List ℝ) : PyM ℝ := do
  let m ← npMin x
  .ok ((x.idxOf m : Nat) : ℝ)

/-- `np.mean`, and `np.average` without weights. The mean of no entries is NaN, which is not modelled. Used in `recipe`, gtda/curves/_functions.py:27. -/
noncomputable def npMean (x : List ℝ) : ℝ := x.sum / x.length

/-- `np.std`: the root of the mean of squared deviations from the mean. Used in `recipe`, gtda/curves/_functions.py:28. -/
noncomputable def npStd (x : List ℝ) : ℝ := Real.sqrt (npMean (x.map fun a => (a - npMean x) ^ 2))

/-- `np.median`: the mean of the two middle entries of the sorted array (the same one, if their number is odd). Used in `recipe`, gtda/curves/_functions.py:29. -/
noncomputable def npMedian (x : List ℝ) : ℝ :=
  let s := x.insertionSort (· ≤ ·)
  (s.getD ((x.length - 1) / 2) 0 + s.getD (x.length / 2) 0) / 2

/-- `_implemented_function_recipes`, gtda/curves/_functions.py:21-31, on one channel, without keyword arguments (with some: not modelled, an error here). Positions are numbers, as
in the array of features. -/
noncomputable def recipe (s : String) (q : Kwargs) (x : List ℝ) : PyM ℝ :=
  if q ≠ [] then .error .typeError
  else if s = "argmax" then npArgmax x
  else if s = "argmin" then npArgmin x
  else if s = "min" then npMin x
  else if s = "max" then npMax x
  else if s = "mean" then .ok (npMean x)
  else if s = "std" then .ok (npStd x)
  else if s = "median" then .ok (npMedian x)
  else if s = "average" then .ok (npMean x)
  else .error .keyError

end Gtda.CurveFunctions
