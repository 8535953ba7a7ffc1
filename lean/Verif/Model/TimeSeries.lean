import Verif.Py.Basic
import Mathlib.Algebra.Order.Field.Basic
import Mathlib.Algebra.Order.Floor.Ring
import Mathlib.Data.List.Sort

set_option autoImplicit false

/-!
# Model of `gtda/time_series`

Series are lists; time is the first axis.  Integer hyperparameters are naturals (`validate_params` restricts them to `≥ 1`;
theorems carry that hypothesis explicitly).  Input validation (`check_array`, `column_or_1d`) is not modelled: inputs are
already lists of samples.
-/

namespace Gtda.TimeSeries

open Gtda.Py

/-! ### `SlidingWindow` (gtda/time_series/embedding.py:118-277) -/

/-- `SlidingWindow._window_indices`, gtda/time_series/embedding.py:183-194. `divmod` with a positive divisor is floor
division and remainder. -/
def windowIndices (n size stride : Nat) : PyM (List (List Int)) :=
  let q : Int := ((n : Int) - size) / stride
  let offset : Int := ((n : Int) - size) % stride
  let nWindows : Int := q + 1
  if nWindows ≤ 0 then .error .valueError
  else .ok ((List.range nWindows.toNat).map fun (i : Nat) =>
    (List.range size).map fun (j : Nat) => (j : Int) + ((i : Int) * stride + offset))

/-- `SlidingWindow.slice_windows`, gtda/time_series/embedding.py:196-198: first and last index of each window, the last one
plus 1. -/
def sliceWindows (n size stride : Nat) : PyM (List (Int × Int)) := do
  let idx ← windowIndices n size stride
  idx.mapM fun row => do
    let a ← npIndex row 0
    let b ← npIndex row (-1)
    pure (a + 0, b + 1)

/-- `SlidingWindow.transform`, gtda/time_series/embedding.py:243-249. -/
def slidingTransform {α : Type _} (size stride : Nat) (X : List α) : PyM (List (List α)) := do
  let idx ← windowIndices X.length size stride
  idx.mapM (fancy X)

/-- `SlidingWindow.resample`, gtda/time_series/embedding.py:272-276: `yr[:size - 2:-stride][::-1]`. -/
def slidingResample {α : Type _} (size stride : Nat) (y : List α) : List α :=
  pySlice none none (-1) (pySlice none (some ((size : Int) - 2)) (-(stride : Int)) y)

/-! ### Takens embeddings (gtda/time_series/_utils.py:11-41, embedding.py) -/

/-- The index array of `_time_delay_embedding`, gtda/time_series/_utils.py:14-28. -/
def takensIndices (n timeDelay dimension stride : Nat) (ensureLast : Bool) : PyM (List (List Int)) :=
  let t : Int := (n : Int) - timeDelay * ((dimension : Int) - 1) - 1
  let nPoints : Int := t / stride + 1
  let offset : Int := t % stride
  if nPoints ≤ 0 then .error .valueError
  else .ok ((List.range nPoints.toNat).map fun (i : Nat) =>
    (List.range dimension).map fun (k : Nat) =>
      ((k * timeDelay : Nat) : Int) + (i : Int) * stride + (if ensureLast then offset else 0))

/-- `_time_delay_embedding` on one univariate series (1D array), gtda/time_series/_utils.py:13-30; also what it does to each
series of a 2D array or list of 1D arrays (lines 30, 36-39). -/
def takens1 {α : Type _} (timeDelay dimension stride : Nat) (ensureLast : Bool) (X : List α) : PyM (List (List α)) := do
  let idx ← takensIndices X.length timeDelay dimension stride ensureLast
  idx.mapM (fancy X)

/-- `SingleTakensEmbedding.transform`, gtda/time_series/embedding.py:475-483 (`ensure_last_value` left at its default). -/
def singleTakensTransform {α : Type _} (timeDelay dimension stride : Nat) (X : List α) : PyM (List (List α)) :=
  takens1 timeDelay dimension stride true X

/-- `SingleTakensEmbedding.resample`, gtda/time_series/embedding.py:506-511. -/
def singleTakensResample {α : Type _} (timeDelay dimension stride : Nat) (y : List α) : List α :=
  let finalIndex : Int := timeDelay * ((dimension : Int) - 1)
  pySlice none none (-1) (pySlice none (some (finalIndex - 1)) (-(stride : Int)) y)

/-- `TakensEmbedding.transform` on one multivariate entry `x` (`n_variables` rows of `n_timestamps` values each) with
`flatten = False`: `X[..., indices]`, gtda/time_series/_utils.py:30. Result axes: variable, point, coordinate. `nT` is
`X.shape[-1]`. -/
def takensMulti {α : Type _} (timeDelay dimension stride : Nat) (ensureLast : Bool) (nT : Nat) (x : List (List α)) :
    PyM (List (List (List α))) := do
  let idx ← takensIndices nT timeDelay dimension stride ensureLast
  x.mapM fun row => idx.mapM (fancy row)

/-- C-order `reshape` of a list of rows into one row of all its entries. Used in `takensMultiFlat`, gtda/time_series/_utils.py:31-34. -/
def ravel {α : Type _} (l : List (List α)) : List α := l.flatten

/-- Swap the first two axes of a nested list whose first axis entries all have length `n` (numpy `transpose`). Used in `takensMultiFlat`, gtda/time_series/_utils.py:31-34. -/
def swapAxes {α : Type _} (n : Nat) (l : List (List α)) : List (List α) :=
  (List.range n).map fun (p : Nat) => l.filterMap fun r => r[p]?

/-- `TakensEmbedding.transform` on one multivariate entry with `flatten = True`, gtda/time_series/_utils.py:31-34 with
`X.ndim = 3`: axes (variable, point, coordinate) are transposed to (point, variable, coordinate) and the last two are merged by
a C-order reshape. Tensor-valued series (`X.ndim > 3`) are not modelled. -/
def takensMultiFlat {α : Type _} (timeDelay dimension stride : Nat) (ensureLast : Bool) (nT : Nat) (x : List (List α)) :
    PyM (List (List α)) := do
  let idx ← takensIndices nT timeDelay dimension stride ensureLast
  let e ← takensMulti timeDelay dimension stride ensureLast nT x
  pure ((swapAxes idx.length e).map ravel)

/-! ### Search of optimal Takens parameters (gtda/time_series/embedding.py:90-114) -/

/-- Python's `min(l)`: the first minimal element; `ValueError` on an empty list. Used in `takensOptimal`, gtda/time_series/embedding.py:98-114. -/
def pyMin {K : Type _} [LinearOrder K] : List K → PyM K
  | [] => .error .valueError
  | a :: t => .ok (t.foldl (fun m x => if x < m then x else m) a)

/-- Python's `l.index(x)`: position of the first element equal to `x`; `ValueError` if there is none. Used in `takensOptimal`, gtda/time_series/embedding.py:98-114. -/
def pyIndex {K : Type _} [DecidableEq K] (l : List K) (x : K) : PyM Nat :=
  match l.findIdx? (· = x) with
  | some i => .ok i
  | none => .error .valueError

/-- `takens_embedding_optimal_parameters`, gtda/time_series/embedding.py:98-114, after validation. `mi τ` stands for
`_mutual_information(X, τ, n_bins=100)`, `fnn τ d` for `_false_nearest_neighbors(X, τ, d, stride)`; both are parameters.
List indexing raises `IndexError` out of range (it never is: `n_false_nbhrs_list` has `max_dimension + 2` entries). -/
def takensOptimal {K : Type _} [Field K] [LinearOrder K] (mi : Nat → K) (fnn : Nat → Nat → K)
    (maxTimeDelay maxDimension : Nat) : PyM (Nat × Nat) := do
  let miList := (List.range maxTimeDelay).map fun i => mi (i + 1)
  let m ← pyMin miList
  let timeDelay ← (· + 1) <$> pyIndex miList m
  let fl := (List.range (maxDimension + 2)).map fun i => fnn timeDelay (i + 1)
  let varList ← ((List.range (maxDimension - 1)).map (· + 2)).mapM fun (dim : Nat) => do
    let a ← npIndex fl ((dim : Int) - 1)
    let b ← npIndex fl dim
    let c ← npIndex fl ((dim : Int) + 1)
    pure (|a - 2 * b + c| / (b + 1) / (dim : K))
  let v ← pyMin varList
  let dimension ← (· + 2) <$> pyIndex varList v
  pure (timeDelay, dimension)

/-- `SingleTakensEmbedding.fit`, gtda/time_series/embedding.py:444-452: the pair `(time_delay_, dimension_)`. -/
def singleTakensFit {K : Type _} [Field K] [LinearOrder K] (search : Bool) (mi : Nat → K) (fnn : Nat → Nat → K)
    (timeDelay dimension : Nat) : PyM (Nat × Nat) :=
  if search then takensOptimal mi fnn timeDelay dimension else .ok (timeDelay, dimension)

/-! ### `Labeller` (gtda/time_series/target.py) -/

/-- `Labeller.transform`, gtda/time_series/target.py:142-149. -/
def labellerTransform {α : Type _} (size nSteps : Nat) (X : List α) : List α :=
  let Xt := pySlice none (some (-(nSteps : Int))) 1 X
  if (nSteps : Int) < (size : Int) - 1 then pySlice (some ((size : Int) - 1 - nSteps)) none 1 Xt else Xt

/-- The windowed values of `Labeller` before classification: gtda/time_series/target.py:108-114 and 172-173. `func` is applied
to every window. -/
def labellerWindowed {α β : Type _} (size : Nat) (func : List α → β) (y : List α) : PyM (List β) := do
  let w ← slidingTransform size 1 y
  pure (w.map func)

/-- One row of the one-hot matrix of `Labeller.resample`, gtda/time_series/target.py:177-182, for the value `v ≥ 0`.
`thresholds_[0]` raises `IndexError` when there are no thresholds. -/
def labellerOneHot {K : Type _} [Zero K] [LinearOrder K] (th : List K) (v : K) : PyM (List Bool) :=
  match th with
  | [] => .error .indexError
  | t0 :: _ => .ok (
      [decide (0 ≤ v) && decide (v < t0)] ++
      (th.zip th.tail).map (fun p => decide (p.1 ≤ v) && decide (v < p.2)) ++
      [decide (th.getLastD t0 ≤ v)])

/-- Indices of the `True` entries of a row (second component of `np.nonzero`). Used in `labellerClassify`, gtda/time_series/target.py:175-183. -/
def hotColumns (row : List Bool) : List Nat :=
  (List.range row.length).filter fun i => row.getD i false

/-- Classification in `Labeller.resample`, gtda/time_series/target.py:175-183: `np.nonzero(yr)[1].reshape(yr.shape[0], 1)`;
`ValueError` when the number of hot entries differs from the number of rows. -/
def labellerClassify {K : Type _} [Zero K] [LinearOrder K] (th : List K) (vs : List K) : PyM (List Nat) := do
  let rows ← vs.mapM (labellerOneHot th)
  let nz := (rows.map hotColumns).flatten
  if nz.length = rows.length then .ok nz else .error .valueError

/-- Final cut of `Labeller.resample`, gtda/time_series/target.py:185-188. -/
def labellerCut {β : Type _} (size nSteps : Nat) (yr : List β) : List β :=
  if (nSteps : Int) > (size : Int) - 1 then pySlice (some ((nSteps : Int) - size + 1)) none 1 yr else yr

/-- `Labeller.resample` with `percentiles=None` (regression), gtda/time_series/target.py:169-188. -/
def labellerResampleReg {α β : Type _} (size nSteps : Nat) (func : List α → β) (y : List α) : PyM (List β) := do
  let yr ← labellerWindowed size func y
  pure (labellerCut size nSteps yr)

/-- `np.abs`. Used in `labellerResampleClf`, gtda/time_series/target.py:169-188. -/
def absK {K : Type _} [Zero K] [Neg K] [LinearOrder K] (x : K) : K := if x < 0 then -x else x

/-- `Labeller.resample` with fitted thresholds (classification), gtda/time_series/target.py:169-188. -/
def labellerResampleClf {α K : Type _} [Field K] [LinearOrder K] (size nSteps : Nat) (func : List α → K) (th : List K)
    (y : List α) : PyM (List Nat) := do
  let yr ← labellerWindowed size func y
  let c ← labellerClassify th (yr.map absK)
  pure (labellerCut size nSteps c)

/-- `np.percentile(a, q)` with the default linear interpolation, for `a` non-empty and `0 ≤ q ≤ 100`: the value at virtual
position `q / 100 * (n - 1)` of the sorted array. Used in `labellerThresholds`, gtda/time_series/target.py:116-120. -/
def percentile {K : Type _} [Field K] [LinearOrder K] [FloorRing K] (a : List K) (q : K) : K :=
  let s := a.insertionSort (· ≤ ·)
  let pos := q / 100 * ((s.length : K) - 1)
  let i := ⌊pos⌋.toNat
  let lo := s.getD i (s.getLastD 0)
  let hi := s.getD (i + 1) (s.getLastD 0)
  lo + (hi - lo) * (pos - (i : K))

/-- `Labeller.fit` thresholds, gtda/time_series/target.py:116-120. -/
def labellerThresholds {α K : Type _} [Field K] [LinearOrder K] [FloorRing K] (size : Nat) (func : List α → K)
    (percentiles : List K) (X : List α) : PyM (List K) := do
  let v ← labellerWindowed size func X
  pure (percentiles.map (percentile (v.map absK)))

/-! ### `Resampler` and `Stationarizer` (gtda/time_series/preprocessing.py) -/

/-- `Resampler.transform`, gtda/time_series/preprocessing.py:91-98 (`Xt[: None]` copies the array unchanged). -/
def resamplerTransform {α : Type _} (period : Nat) (X : List α) : List α :=
  pySlice none none (period : Int) (pySlice none none 1 X)

/-- `Resampler.resample`, gtda/time_series/preprocessing.py:118-122. -/
def resamplerResample {α : Type _} (period : Nat) (y : List α) : List α :=
  pySlice none none (period : Int) y

/-- `np.diff(x)` along the first axis. Used in `stationReturn`, gtda/time_series/preprocessing.py:219-220. -/
def npDiff {K : Type _} [Sub K] (x : List K) : List K := List.zipWith (fun a b => b - a) x x.tail

/-- `Stationarizer.transform` with `operation='return'` on one variable, gtda/time_series/preprocessing.py:219-220. -/
def stationReturn {K : Type _} [Sub K] [Div K] (X : List K) : List K :=
  List.zipWith (· / ·) (npDiff X) (pySlice (some 1) none 1 X)

/-- `Stationarizer.transform` with `operation='log-return'` on one variable, gtda/time_series/preprocessing.py:221-222. `log` is
a parameter. -/
def stationLogReturn {K : Type _} [Sub K] (log : K → K) (X : List K) : List K := npDiff (X.map log)

/-- `Stationarizer.resample`, gtda/time_series/preprocessing.py:242-245. -/
def stationResample {α : Type _} (y : List α) : List α := pySlice (some 1) none 1 y

end Gtda.TimeSeries
