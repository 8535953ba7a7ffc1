import Mathlib.Analysis.Real.Sqrt
import Mathlib.Data.List.Sort
import Verif.Py.Basic

set_option autoImplicit false

/-!
# Model of `gtda/point_clouds/rescaling.py` and of the edge construction of `WeakAlphaPersistence` (gtda/homology/simplicial.py)

Arithmetic is exact (real numbers for square roots). The Delaunay triangulation and the metric are parameters.
-/

namespace Gtda.PointClouds
open Gtda.Py

/-! ### Rescaling -/

/-- Where distances come from: a precomputed matrix or a metric on rows (scikit-learn's `pairwise_distances`; precomputed distances are not negative). Used in `consistentTransform`, gtda/point_clouds/rescaling.py:124-192. -/
inductive Metric (P : Type)
  | precomputed (entry : P → List ℝ)
  | func (d : P → P → ℝ)

/-- `pairwise_distances(X, metric=…)`: for a precomputed metric the rows themselves. Used in `consistentTransform`, gtda/point_clouds/rescaling.py:124-192. -/
def pairwiseDistances {P : Type} (m : Metric P) (X : List P) : List (List ℝ) :=
  match m with
  | .precomputed entry => X.map entry
  | .func d => X.map fun a => X.map (d a)

/-- `Xm[np.arange(n), np.argsort(Xm)[:, k]]`, gtda/point_clouds/rescaling.py:112-114: in each row the entry at position `k` of the increasing order. -/
noncomputable def kthInRows (k : Nat) (D : List (List ℝ)) : PyM (List ℝ) :=
  D.mapM fun r => npIndex (r.insertionSort (· ≤ ·)) k

/-- Entry `(i, j)` of a matrix, zero outside. Used in `consistentRescaling`, gtda/point_clouds/rescaling.py:108-122. -/
noncomputable def at2 (D : List (List ℝ)) (i j : Nat) : ℝ := (D.getD i []).getD j 0

/-- `ConsistentRescaling._consistent_rescaling` on a distance matrix, gtda/point_clouds/rescaling.py:108-122. -/
noncomputable def consistentRescaling (k : Nat) (D : List (List ℝ)) : PyM (List (List ℝ)) := do
  let s ← kthInRows k D
  let Xc : Nat → Nat → ℝ := fun i j => if i < j then at2 D i j / Real.sqrt (s.getD i 0 * s.getD j 0) else 0
  pure ((List.range D.length).map fun i => (List.range D.length).map fun j => Xc i j + Xc j i)

/-- `ConsistentRescaling(neighbor_rank=k).fit_transform(X)`, gtda/point_clouds/rescaling.py:124-192. -/
noncomputable def consistentTransform {P : Type} (m : Metric P) (k : Int) (X : List (List P)) : PyM (List (List (List ℝ))) :=
  if k < 1 then .error .valueError
  else X.mapM fun x => consistentRescaling k.toNat (pairwiseDistances m x)

section
variable {K : Type} [Mul K]

/-- `Xt[:, range(n - 1), range(1, n)] *= factor` for one matrix, gtda/point_clouds/rescaling.py:385. -/
def scaleConsecutive (factor : K) (D : List (List K)) : List (List K) :=
  D.mapIdx fun i r => r.mapIdx fun j x => if j = i + 1 then x * factor else x

/-- `ConsecutiveRescaling(metric='precomputed', factor=factor).fit(X).transform(X)`, gtda/point_clouds/rescaling.py:308-386: the caller's array afterwards and the result.
`check_array(copy=True)` copies the array; multiplying an array of integers in place by a floating-point factor is a `TypeError`. -/
def consecutivePrecomputed (intArray floatFactor : Bool) (factor : K) (X : List (List (List K))) : List (List (List K)) × PyM (List (List (List K))) :=
  (X, if intArray && floatFactor then .error .typeError else .ok (X.map (scaleConsecutive factor)))

/-- `ConsecutiveRescaling(metric=d, factor=factor).fit(X).transform(X)` on a collection of point clouds, gtda/point_clouds/rescaling.py:345-386: the distance matrices are computed first
(in parallel, lines 374-378; `np.array(Xt)`, line 384), so the caller's array is never written to. The matrices computed by `pairwise_distances` hold floating-point numbers. -/
def consecutivePoints {P : Type} (d : P → P → K) (factor : K) (X : List (List P)) : List (List (List K)) :=
  X.map fun x => scaleConsecutive factor (x.map fun a => x.map (d a))

end

/-! ### Edges of `WeakAlphaPersistence` -/

/-- `np.cumsum`, started at `a`. Used in `weakAlphaEdges`, gtda/homology/simplicial.py:1108-1124. -/
def cumsumFrom : Nat → List Nat → List Nat
  | _, [] => []
  | a, x :: t => (a + x) :: cumsumFrom (a + x) t

/-- `row[idx] = 1`: an index out of bounds is an `IndexError`. Used in `weakAlphaEdges`, gtda/homology/simplicial.py:1108-1124. -/
def setOnes (row : List Nat) (idx : List Nat) : PyM (List Nat) :=
  if idx.all fun i => decide (i < row.length) then .ok (idx.foldl (fun r i => r.set i 1) row) else .error .indexError

/-- `WeakAlphaPersistence._weak_alpha_diagram` up to the call of ripser, gtda/homology/simplicial.py:1108-1124: the sparse matrix as a list of (row, column, length).
`indptr` and `indices` are `vertex_neighbor_vertices` of the Delaunay triangulation, `dist u v` is the Euclidean distance of points number `u` and `v`. -/
def weakAlphaEdges {K : Type} (dist : Nat → Nat → K) (indptr indices : List Nat) : PyM (List (Nat × Nat × K)) := do
  let marks ← setOnes (List.replicate indices.length 0) indptr.tail.dropLast
  let row := cumsumFrom 0 marks
  let kept := (row.zip indices).filter fun p => decide (p.1 < p.2)
  pure (kept.map fun p => (p.1, p.2, dist p.1 p.2))

end Gtda.PointClouds
