import Mathlib.Data.List.Rotate
import Mathlib.Analysis.SpecialFunctions.Log.Basic
import Verif.Model.TimeSeries
import Verif.Model.Neighbors

/-!
# Model of the search of parameters for Takens embeddings

`_mutual_information` and `_false_nearest_neighbors` (`gtda/time_series/_utils.py:44-89`) and
`takens_embedding_optimal_parameters` (`gtda/time_series/embedding.py:24-114`) after validation.
Numbers are exact; the search of nearest neighbours is a parameter.
-/

set_option autoImplicit false

namespace Gtda.TimeSeries

open Py

section

variable {K : Type} [Field K] [LinearOrder K]

/-- The square of the Euclidean distance. Used in `secondNeighbors`, gtda/time_series/_utils.py:59-62. -/
def sqDist (u v : List K) : K := ((u.zip v).map fun p => (p.1 - p.2) ^ 2).sum

/-- `indices[:, 1]` and the squares of `distances[:, 1]`, gtda/time_series/_utils.py:59-63: the second of the two nearest embedded points. -/
def secondNeighbors (query : Neighbors.Query K) (E : List (List K)) : List (Nat × K) :=
  E.map fun e =>
    let r := E.map fun f => sqDist e f
    let j := (query 2 r).getD 1 0
    (j, r.getD j 0)

/-- `np.std(X) ** 2`. Used in `falseNeighbors`, gtda/time_series/_utils.py:65. -/
def variance (X : List K) : K :=
  let mean := X.sum / (X.length : K)
  (X.map fun x => (x - mean) ^ 2).sum / (X.length : K)

/-- The difference of two arrays with one axis. Simplification: an array of length one is not broadcast, since the lengths are always equal. Used in `falseNeighbors`, gtda/time_series/_utils.py:74-76. -/
def npSub (a b : List K) : PyM (List K) :=
  if a.length = b.length then .ok (List.zipWith (· - ·) a b) else .error .valueError

/-- The two criteria for one point, gtda/time_series/_utils.py:74-88, with squares of distances and differences instead of roots: the ratio is taken to
be zero if the distance is. -/
def criteria (var diff sq : K) : Bool := decide (sq ≠ 0) && decide (100 * sq < diff ^ 2) && decide (sq < 4 * var)

/-- `_false_nearest_neighbors`, gtda/time_series/_utils.py:53-89.  `np.roll(X, -k)` is `X.rotate k`. With fewer than two embedded points the search of neighbours raises `ValueError`. -/
def falseNeighbors (query : Neighbors.Query K) (X : List K) (timeDelay dimension stride : Nat) : PyM Nat := do
  let E ← takens1 timeDelay dimension stride true X
  if E.length < 2 then .error .valueError
  else do
    let nb := secondNeighbors query E
    let distance := nb.map Prod.snd
    let first ← nb.mapM fun p => npIndex X (p.1 : Int)
    let neg : Int := -((dimension * timeDelay : Nat) : Int)
    let distanceSlice := pySlice none (some neg) 1 distance
    let rolled := X.rotate (dimension * timeDelay)
    let rolledSlice := pySlice (some ((X.length : Int) - E.length)) (some neg) 1 rolled
    let firstRolled := first.rotate (dimension * timeDelay)
    let diff ← npSub rolledSlice (pySlice none (some neg) 1 firstRolled)
    pure ((diff.zip distanceSlice).countP fun p => criteria (variance X) p.1 p.2)

/-- The edges of the bins: `np.linspace(lo, hi, n + 1)`. Used in `binIndex`, called in gtda/time_series/_utils.py:46-47. -/
def binEdges (n : Nat) (lo hi : K) : List K := (List.range (n + 1)).map fun (i : Nat) => lo + (i : K) * ((hi - lo) / (n : K))

/-- The bin of a value, counted from 1, with the right edge in the last bin: `np.histogram2d`, called in gtda/time_series/_utils.py:46-47. -/
def binIndex (n : Nat) (lo hi x : K) : Nat :=
  let c := (binEdges n lo hi).countP fun e => decide (e ≤ x)
  if x = hi then c - 1 else c

/-- The range of the bins: from the least to the largest value, enlarged if they are equal: `np.histogram2d`, called in gtda/time_series/_utils.py:46-47. -/
def binRange2d (u : List K) : K × K :=
  match u.min?, u.max? with
  | some lo, some hi => if lo = hi then (lo - 1 / 2, hi + 1 / 2) else (lo, hi)
  | _, _ => (0, 1)

/-- The bins of all values: `np.histogram2d`, called in gtda/time_series/_utils.py:46-47. -/
def binsOf (n : Nat) (u : List K) : List Nat := u.map (binIndex n (binRange2d u).1 (binRange2d u).2)

end

/-- `mutual_info_score` of the table of counts: the sum over all cells of `p_ij log(p_ij / (p_i p_j))`, at least 0; called in gtda/time_series/_utils.py:48-49. -/
noncomputable def mutualInfoScore (n : Nat) (pairs : List (Nat × Nat)) : ℝ :=
  let total : ℝ := pairs.length
  let cells := (List.range n).flatMap fun (i : Nat) => (List.range n).map fun (j : Nat) =>
    let nij : ℝ := pairs.countP fun p => decide (p = (i + 1, j + 1))
    let ni : ℝ := pairs.countP fun p => decide (p.1 = i + 1)
    let nj : ℝ := pairs.countP fun p => decide (p.2 = j + 1)
    if nij = 0 then 0 else nij / total * Real.log (nij * total / (ni * nj))
  max 0 cells.sum

/-- `_mutual_information`, gtda/time_series/_utils.py:44-50. -/
noncomputable def mutualInformation (nBins : Nat) (X : List ℝ) (timeDelay : Nat) : ℝ :=
  let u := pySlice none (some (-(timeDelay : Int))) 1 X
  let v := pySlice (some (timeDelay : Int)) none 1 X
  mutualInfoScore nBins ((binsOf nBins u).zip (binsOf nBins v))

/-- `takens_embedding_optimal_parameters` after validation, gtda/time_series/embedding.py:97-114, with both scores. -/
noncomputable def optimalParameters (query : Neighbors.Query ℝ) (X : List ℝ) (maxTimeDelay maxDimension stride : Nat) : PyM (Nat × Nat) := do
  let miList := (List.range maxTimeDelay).map fun (i : Nat) => mutualInformation 100 X (i + 1)
  let m ← pyMin miList
  let timeDelay ← (· + 1) <$> pyIndex miList m
  let fl ← (List.range (maxDimension + 2)).mapM fun (i : Nat) => falseNeighbors query X timeDelay (i + 1) stride
  let varList ← ((List.range (maxDimension - 1)).map (· + 2)).mapM fun (dim : Nat) => do
    let a ← npIndex fl ((dim : Int) - 1)
    let b ← npIndex fl dim
    let c ← npIndex fl ((dim : Int) + 1)
    pure (|(a : ℝ) - 2 * (b : ℝ) + (c : ℝ)| / ((b : ℝ) + 1) / (dim : ℝ))
  let v ← pyMin varList
  let dimension ← (· + 2) <$> pyIndex varList v
  pure (timeDelay, dimension)

end Gtda.TimeSeries
