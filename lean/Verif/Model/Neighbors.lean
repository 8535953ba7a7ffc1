import Mathlib.Data.List.Sort
import Mathlib.Algebra.Order.Field.Basic
import Verif.Model.InputChecks
import Verif.Model.MapperCluster

/-!
# Model of `gtda/graphs/kneighbors.py`

`sklearn.neighbors.kneighbors_graph` is modelled for dense input, except for the search of nearest
neighbours, which is a parameter; for sparse input it is a parameter altogether.  The exact values of
`p` and `metric_params` are part of the metric.
-/

set_option autoImplicit false

namespace Gtda.Neighbors

open Py Gtda.Checks

/-- The parameter `mode` (`kneighbors.py:84-91`). -/
inductive Mode where
  | connectivity
  | distance
  deriving DecidableEq

/-- The parameters of `KNeighborsGraph` (`kneighbors.py:84-91`); `metric` is `none` for
`'precomputed'`. -/
structure Params (K : Type) where
  nNeighbors : Int := 4
  mode : Mode := .connectivity
  metric : Option (List K → List K → K)

/-- A sparse adjacency matrix: the number of vertices, and for each row the columns and values of the
stored entries (`kneighbors.py:144-148`). -/
structure Graph (K : Type) where
  n : Nat
  rows : List (List (Nat × K))
  deriving DecidableEq

/-- The first pieces of a list, all of the same length: iteration over the first axis of an array in row-major order.
Used in `iterate`, gtda/graphs/kneighbors.py:159-160. -/
def chunks {α : Type} (size : Nat) : Nat → List α → List (List α)
  | 0, _ => []
  | n + 1, l => l.take size :: chunks size n (l.drop size)

/-- `for x in Xt` (`kneighbors.py:160`): the arrays along the first axis, or the entries of the list. -/
def iterate {K : Type} : Output K → List (Arr K)
  | .array x =>
      match x.shape with
      | n :: rest => (chunks rest.prod n x.data).map fun d => ⟨rest, d, x.sparse⟩
      | [] => []
  | .list l => l
  | .objects l => l

/-- The value of a finite entry. Used in `denseGraph`, called in gtda/graphs/kneighbors.py:154-160. -/
def value {K : Type} [Zero K] : Num K → K
  | .fin x => x
  | _ => 0

section

variable {K : Type} [Field K] [LinearOrder K]

/-- The search of neighbours: the indices of the given number of smallest entries of a row of
distances, in increasing order; with equal distances the choice is open. Stands for the search of scikit-learn in the call in gtda/graphs/kneighbors.py:154-160. -/
abbrev Query (K : Type) := Nat → List K → List Nat

/-- `NearestNeighbors.kneighbors` without query points: among the `k + 1` nearest points the point
itself is left out, or the first one if the point itself is not among them (it may have duplicates). Part of scikit-learn, called in gtda/graphs/kneighbors.py:154-160. -/
def neighbors (query : Query K) (k i : Nat) (r : List K) : List Nat :=
  let ind := query (k + 1) r
  if ind.all fun j => decide (j ≠ i) then ind.tail else ind.filter fun j => decide (j ≠ i)

/-- The value of an entry: 1 or the distance. Part of scikit-learn, called in gtda/graphs/kneighbors.py:154-160. -/
def weight (mode : Mode) (r : List K) (j : Nat) : K :=
  match mode with
  | .connectivity => 1
  | .distance => r.getD j 0

/-- The matrix of distances. Part of scikit-learn, called in gtda/graphs/kneighbors.py:154-160. -/
def distances (metric : Option (List K → List K → K)) (P : List (List K)) : List (List K) :=
  match metric with
  | none => P
  | some d => P.map fun a => P.map fun b => d a b

/-- `kneighbors_graph(x, …, include_self=False)` for dense `x`: infinite entries, empty rows, matrices which
are not square though distances are expected, and numbers of neighbours which are not positive or not less
than the number of points are refused. Part of scikit-learn, called in gtda/graphs/kneighbors.py:154-160. -/
def denseGraph (query : Query K) (p : Params K) (x : Arr K) : PyM (Graph K) :=
  match x.shape with
  | [n, c] =>
      if !x.data.all Num.isFinite then .error .valueError
      else if c < 1 then .error .valueError
      else if p.metric.isNone && decide (n ≠ c) then .error .valueError
      else if p.nNeighbors ≤ 0 then .error .valueError
      else if (n : Int) < p.nNeighbors + 1 then .error .valueError
      else
        let D := distances p.metric (chunks c n (x.data.map value))
        .ok ⟨n, D.mapIdx fun i r => (neighbors query p.nNeighbors.toNat i r).map fun j => (j, weight p.mode r j)⟩
  | _ => .error .valueError

/-- `kneighbors_graph` for dense and (as a parameter) sparse input (`kneighbors.py:154-158`). -/
def kneighborsGraph (query : Query K) (sparse : Params K → Arr K → PyM (Graph K)) (p : Params K) (x : Arr K) : PyM (Graph K) :=
  if x.sparse then sparse p x else denseGraph query p x

/-- `KNeighborsGraph.fit` (`kneighbors.py:93-122`): returns `_is_precomputed`. -/
def fit (p : Params K) (X : Input K) : PyM Bool := do
  let pre := p.metric.isNone
  let _ ← checkPointClouds true pre none X
  pure pre

/-- `KNeighborsGraph.transform` (`kneighbors.py:124-162`).  `fitted` is `_is_precomputed`, `none` before `fit`;
`order` is the order in which the tasks are executed. -/
def transform (engine : Params K → Arr K → PyM (Graph K)) (fitted : Option Bool) (p : Params K) (X : Input K) (order : List Nat) : PyM (List (Graph K)) :=
  match fitted with
  | none => .error .notFitted
  | some pre => do
      let Xt ← checkPointClouds true pre none X
      Mapper.scheduled ((iterate Xt.2).map fun x _ => engine p x) order

/-- A search of neighbours by sorting. Used in examples only; stands for the search in the call in gtda/graphs/kneighbors.py:154-160. -/
def sortQuery (m : Nat) (r : List K) : List Nat :=
  ((List.range r.length).insertionSort fun i j => r.getD i 0 ≤ r.getD j 0).take m

end

end Gtda.Neighbors
