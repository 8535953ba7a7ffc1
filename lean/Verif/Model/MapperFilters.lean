import Verif.Model.Distances
import Verif.Model.Features

set_option autoImplicit false

/-!
# Model of `gtda/mapper/filter.py` and of `transformer_from_callable_on_rows` (gtda/mapper/utils/pipeline.py)

Matrices are lists of rows. Input validation (`check_array`) is modelled where its outcome matters: matrices have at least one row and one column. NaN is `none`.
-/

namespace Gtda.Mapper
open Gtda.Py Gtda.Diagrams

/-- `Eccentricity.transform`, gtda/mapper/filter.py:95-104: `d` is the metric with its parameters; `precomputed` means that the input is the distance matrix. -/
noncomputable def eccentricity (p : ENNReal) (precomputed : Bool) (d : List ℝ → List ℝ → ℝ) (X : List (List ℝ)) : List (List ℝ) :=
  (if precomputed then X else squarePdist 0 d X).map fun r => [pNorm p r]

/-- `Entropy.transform`, gtda/mapper/filter.py:167-176: absolute values are taken of the whole matrix if any entry is negative. -/
noncomputable def entropyFilter (X : List (List ℝ)) : List (List (Option ℝ)) :=
  let Y := if X.any (fun r => r.any fun x => decide (x < 0)) then X.map (fun r => r.map fun x => |x|) else X
  Y.map fun r => [scipyEntropy2 r]

/-- The parameter `columns` of `Projection`: one column number or several. Used in `projection`, gtda/mapper/filter.py:244-248. -/
inductive Columns
  | one (j : Int)
  | many (js : List Int)

/-- `Projection.transform` on arrays, gtda/mapper/filter.py:244-248: `X[:, columns]` reshaped to `(len(X), -1)`. -/
def projection {K : Type} (cols : Columns) (X : List (List K)) : PyM (List (List K)) :=
  match cols with
  | .one j => X.mapM fun r => do let x ← npIndex r j; pure [x]
  | .many js => X.mapM fun r => fancy r js

/-- A Python callable on rows: its value on a 1D array (a number or a 1D array, all of the same length), and whether its signature has parameters `axis` and `keepdims`. Used in `callableOnRows`, gtda/mapper/utils/pipeline.py:11-60. -/
structure RowCallable (K : Type) where
  hasAxis : Bool
  hasKeepdims : Bool
  row : List K → Sum K (List K)

/-- The row of a result: a number becomes an array of length one. Used in `callableOnRows`, gtda/mapper/utils/pipeline.py:11-60. -/
def toRow {K : Type} : Sum K (List K) → List K
  | .inl x => [x]
  | .inr l => l

/-- `fit_transform` of `transformer_from_callable_on_rows(func)`, gtda/mapper/utils/pipeline.py:11-60. With a parameter `axis` the function is called as `func(X, axis=1,
keepdims=True)`, a `TypeError` if there is no parameter `keepdims`; otherwise `np.apply_along_axis(func, 1, X)`, with numbers put into a column. A function with both
parameters is assumed to be numpy's usual reduction of each row. -/
def callableOnRows {K : Type} (f : RowCallable K) (X : List (List K)) : PyM (List (List K)) :=
  if f.hasAxis then
    if f.hasKeepdims then .ok (X.map fun r => toRow (f.row r)) else .error .typeError
  else .ok (X.map fun r => toRow (f.row r))

end Gtda.Mapper
