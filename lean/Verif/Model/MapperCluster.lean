import Verif.Model.Cover
import Verif.Model.Parallel

set_option autoImplicit false

/-!
# Model of `gtda/mapper/cluster.py` and `gtda/mapper/utils/_cluster.py`

External parts are parameters: the wrapped clusterer (a function from data and sample weights to labels), scikit-learn's tree builder and `_hc_cut`.
Arithmetic is exact. A mask matrix is the list of its columns, as in `Verif.Model.Cover`.
-/

namespace Gtda.Mapper
open Gtda.Py Gtda.Parallel

/-! ### `ParallelClustering` -/

/-- What `ParallelClustering` uses of a clusterer: whether it is a `ClusterMixin`; for those of `metric`, `affinity` which are parameters of its constructor, whether they
are equal to `'precomputed'`; whether `fit` has a parameter `sample_weight`; and `clone(clusterer).fit(X, **kwargs).labels_` as a function of data and weights. Used in `validateClusterer`, gtda/mapper/cluster.py:84-105. -/
structure Clusterer (K W C : Type) where
  isMixin : Bool
  metrics : List Bool
  takesWeights : Bool
  labels : List (List K) → Option (List W) → PyM (List C)

/-- `ParallelClustering._validate_clusterer`, gtda/mapper/cluster.py:84-105: the value of `_precomputed`. -/
def validateClusterer {K W C : Type} (c : Clusterer K W C) : PyM Bool :=
  if c.isMixin then
    match c.metrics with
    | [] => .ok false
    | [b] => .ok b
    | _ => .error .notImplemented
  else .error .typeError

/-- `np.flatnonzero(column)`. Used in `parallelClusteringFit`, gtda/mapper/cluster.py:107-181. -/
def flatnonzero (col : List Bool) : List Nat := (List.range col.length).filter fun i => col[i]? = some true

/-- `X_tot[self._indices_computer(rel_indices)]`, gtda/mapper/cluster.py:27-32, 165: rows, or rows and columns (`np.ix_`) for a precomputed metric. -/
def portion {K : Type} (precomputed : Bool) (X : List (List K)) (idx : List Nat) : PyM (List (List K)) := do
  let rows ← fancy X (idx.map Int.ofNat)
  if precomputed then rows.mapM fun r => fancy r (idx.map Int.ofNat) else pure rows

/-- `_sample_weight_computer` / `_empty_dict`, gtda/mapper/cluster.py:19-24, 146-150. -/
def weightsFor {K W C : Type} (c : Clusterer K W C) (w : Option (List W)) (idx : List Nat) : PyM (Option (List W)) :=
  match w with
  | some ws => if c.takesWeights then do let v ← fancy ws (idx.map Int.ofNat); pure (some v) else pure none
  | none => pure none

/-- One task: `_labels_single` on one portion, gtda/mapper/cluster.py:164-168, 183-187. -/
def labelsSingle {K W C : Type} (c : Clusterer K W C) (pre : Bool) (X : List (List K)) (w : Option (List W)) (idx : List Nat) : PyM (List Nat × List C) := do
  let sub ← portion pre X idx
  let v ← weightsFor c w idx
  let ls ← c.labels sub v
  pure (idx, ls)

/-- `self.labels_[rel_indices] += labels_i` with `labels_i = [((i, l),) for l in partial_labels]`, gtda/mapper/cluster.py:174-179. An array of length one is broadcast,
any other difference in length is a `ValueError`. -/
def addLabels {C : Type} (i : Nat) (labels : List (List (Nat × C))) (t : List Nat × List C) : PyM (List (List (Nat × C))) :=
  if t.2.length = t.1.length then
    .ok ((t.1.zip t.2).foldl (fun acc p => acc.modify p.1 (· ++ [(i, p.2)])) labels)
  else
    match t.2 with
    | [l] => .ok (t.1.foldl (fun acc (p : Nat) => acc.modify p (· ++ [(i, l)])) labels)
    | _ => .error .valueError

/-- The loop over the portions, gtda/mapper/cluster.py:172-179. -/
def collectLabels {C : Type} : Nat → List (List Nat × List C) → List (List (Nat × C)) → PyM (List (List (Nat × C)))
  | _, [], labels => .ok labels
  | i, t :: ts, labels => do
    let labels' ← addLabels i labels t
    collectLabels (i + 1) ts labels'

/-- The result of task `k` once all tasks have run in the order `order` (each slot is filled by its own task; a task that was never run has no result). Used in `parallelClusteringFit`, gtda/mapper/cluster.py:107-181. -/
def scheduled {β : Type} (tasks : List (Unit → PyM β)) (order : List Nat) : PyM (List β) :=
  (runSchedule tasks order).mapM fun r =>
    match r with
    | some x => x
    | none => .error .stopIteration

/-- `ParallelClustering.fit` (value of `labels_`), gtda/mapper/cluster.py:107-181. `check_array` rejects arrays without rows or columns. `order` is the order in which the
parallel tasks are executed. -/
def parallelClusteringFit {K W C : Type} (c : Clusterer K W C) (order : List Nat) (X : List (List K)) (cols : List (List Bool)) (w : Option (List W)) :
    PyM (List (List (Nat × C))) :=
  if X.length = 0 ∨ (X.headD []).length = 0 then .error .valueError
  else if cols.length = 0 ∨ (cols.headD []).length = 0 then .error .valueError
  else if X.length ≠ (cols.headD []).length then .error .valueError
  else do
    let pre ← validateClusterer c
    let single ← scheduled (cols.map fun col _ => labelsSingle c pre X w (flatnonzero col)) order
    collectLabels 0 single (List.replicate X.length [])

/-! ### `FirstSimpleGap` -/

section
variable {K : Type} [Field K] [LinearOrder K] [FloorRing K]

/-- `np.ediff1d(distances, to_begin=distances[0])`, gtda/mapper/utils/_cluster.py:60. -/
def ediff (ds : List K) : List K :=
  match ds with
  | [] => []
  | d :: t => d :: List.zipWith (fun b a => b - a) t (d :: t)

/-- `_num_clusters_simple`, gtda/mapper/utils/_cluster.py:58-71. -/
def numClustersSimple (ds : List K) (minGap : K) (maxFrac : Option K) : Int :=
  match (ediff ds).findIdx? (fun g => minGap ≤ g) with
  | some g =>
    let num : Int := ds.length + 1 - g
    match maxFrac with
    | none => num
    | some f =>
      let cap : K := f * ((ds.length : K) + 1)
      if cap < (num : K) then ⌊cap⌋ else num
  | none => 1

/-- Output of scikit-learn's tree builders: `children_`, `n_leaves_`, `distances_`. Used in `firstSimpleGapFit`, gtda/mapper/cluster.py:418-458. -/
structure Dendrogram (K : Type) where
  children : List (Nat × Nat)
  leaves : Nat
  distances : List K

/-- A fitted agglomerative clusterer: `n_clusters_` and `labels_`. Used in `firstSimpleGapFit`, gtda/mapper/cluster.py:418-458. -/
structure Clusters where
  n : Int
  labels : List Nat
  deriving DecidableEq, Repr

/-- `validate_params` for a real hyperparameter with `Interval(0, 1, closed='right')`, gtda/mapper/cluster.py:405-407, 557: `None` is not a `Real`. -/
def checkFraction (x : Option K) : PyM K :=
  match x with
  | none => .error .typeError
  | some f => if 0 < f ∧ f ≤ 1 then .ok f else .error .valueError

/-- `FirstSimpleGap.fit`, gtda/mapper/cluster.py:418-458. `build` and `cut` stand for scikit-learn's tree builder and `_hc_cut`; `distances_[-1]` of an empty array is an
`IndexError` (it has one entry less than there are samples). -/
def firstSimpleGapFit {α : Type} (build : List α → PyM (Dendrogram K)) (cut : Int → Dendrogram K → PyM (List Nat)) (relGap maxFrac : Option K) (X : List α) : PyM Clusters :=
  if X.length = 0 then .error .valueError
  else do
    let f ← checkFraction maxFrac
    let r ← checkFraction relGap
    if X.length = 1 then pure ⟨1, [0]⟩
    else
      let tree ← build X
      match tree.distances.getLast? with
      | none => .error .indexError
      | some last =>
        let n := numClustersSimple tree.distances (r * last) (some f)
        let labels ← cut n tree
        pure ⟨n, labels⟩

/-! ### `FirstHistogramGap` -/

/-- The range of `np.histogram(a)`: minimum and maximum, widened by one half on both sides if they are equal. Used in `gapLoop`, gtda/mapper/utils/_cluster.py:18-26. -/
def histRange (ds : List K) : K × K :=
  match ds with
  | [] => (0, 1)
  | d :: t =>
    let lo := t.foldl min d
    let hi := t.foldl max d
    if lo = hi then (lo - 1 / 2, hi + 1 / 2) else (lo, hi)

/-- The edges of `np.histogram(a, bins=k)`. Used in `gapLoop`, gtda/mapper/utils/_cluster.py:18-26. -/
def histEdges (ds : List K) (k : Nat) : List K := linspace (histRange ds).1 (histRange ds).2 (k + 1)

/-- The counts of `np.histogram(a, bins=k)`: bins are half open, except the last one, which is closed. Used in `gapLoop`, gtda/mapper/utils/_cluster.py:18-26. -/
def histCounts (ds : List K) (k : Nat) : List Nat :=
  (List.range k).map fun (i : Nat) =>
    ds.countP fun d => decide ((histEdges ds k).getD i 0 ≤ d) &&
      (decide (d < (histEdges ds k).getD (i + 1) 0) || (decide (i + 1 = k) && decide (d ≤ (histEdges ds k).getD (i + 1) 0)))

/-- `_zero_bins` and `_bins_below_threshold`, gtda/mapper/utils/_cluster.py:11-14, 50-55: is a bin with this count a gap? -/
def isGap (thr : Nat) (count : Nat) : Bool := if thr = 0 then decide (count = 0) else decide (count < thr)

/-- The loop `while not zero_bins`, gtda/mapper/utils/_cluster.py:18-26 and 31-40: the number of merges up to the left edge of the first gap. `none`: the bound on the
number of iterations was exceeded (`C50_terminates` shows it is not). -/
def gapLoop (thr nStart : Nat) (ds : List K) : Nat → Nat → Option (Nat × Nat)
  | 0, _ => none
  | fuel + 1, i =>
    match (histCounts ds (nStart + i)).findIdx? (isGap thr) with
    | some g => some (i, ds.countP fun d => decide (d ≤ (histEdges ds (nStart + i)).getD g 0))
    | none => gapLoop thr nStart ds fuel (i + 1)

/-- `_num_clusters_histogram`, gtda/mapper/utils/_cluster.py:7-47. -/
def numClustersHistogram (fuel : Nat) (ds : List K) (thr nStart : Nat) (maxFrac : K) : Option Int :=
  if ds.length = 1 then some 1
  else
    match gapLoop thr nStart ds fuel 0 with
    | none => none
    | some (_, gapIdx) =>
      let num : Int := ds.length + 1 - gapIdx
      if maxFrac = 1 then some num
      else
        let cap : K := maxFrac * ((ds.length : K) + 1)
        if cap < (num : K) then some ⌊cap⌋ else some num

/-- `FirstHistogramGap.fit`, gtda/mapper/cluster.py:572-612 (`none`: bound on the number of loop iterations exceeded). `freq_threshold` is an integer at least 0 and
`n_bins_start` an integer at least 1 (`validate_params`). -/
def firstHistogramGapFit {α : Type} (fuel : Nat) (build : List α → PyM (Dendrogram K)) (cut : Int → Dendrogram K → PyM (List Nat)) (thr : Int) (maxFrac : Option K) (nStart : Int)
    (X : List α) : PyM (Option Clusters) :=
  if X.length = 0 then .error .valueError
  else if thr < 0 then .error .valueError
  else do
    let f ← checkFraction maxFrac
    if nStart < 1 then .error .valueError
    else if X.length = 1 then pure (some ⟨1, [0]⟩)
    else
      let tree ← build X
      match numClustersHistogram fuel tree.distances thr.toNat nStart.toNat f with
      | none => pure none
      | some n =>
        let labels ← cut n tree
        pure (some ⟨n, labels⟩)

end

end Gtda.Mapper
