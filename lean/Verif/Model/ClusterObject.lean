import Verif.Model.MapperCluster

set_option autoImplicit false

/-!
# Model of the clusterers of `gtda/mapper/cluster.py` as objects that are fitted again and again

`FirstSimpleGap`, `FirstHistogramGap` (with `Agglomerative._build_tree`) and `ParallelClustering`: all attributes that a fit sets, in the order in which they are set, with the exceptions in between.
scikit-learn's tree builders and `_hc_cut` are parameters (`Engine`); the cache of the tree builders (`memory`) is not modelled, the result of a cached call is that of the call.
-/

namespace Gtda.ClusterObject
open Gtda.Py Gtda.Mapper

variable {K α : Type}

/-- The parameters of the two stopping rules, gtda/mapper/cluster.py:402-416, 552-570: `relative_gap_size` and `max_fraction`; `freq_threshold`, `max_fraction` and `n_bins_start`. `none`: not a number. -/
inductive Rule (K : Type) where
  | simple (relGap maxFrac : Option K)
  | histogram (thr : Int) (maxFrac : Option K) (nStart : Int)
  deriving DecidableEq

/-- The constructor parameters, gtda/mapper/cluster.py:410-416, 562-570. `none`: not a string. -/
structure Params (K : Type) where
  linkage : Option String
  affinity : Option String
  rule : Rule K
  deriving DecidableEq

/-- An object: parameters, the attributes set by `_build_tree` (`children_`, `n_leaves_`, `distances_`), `n_clusters_` and `labels_`, gtda/mapper/cluster.py:319, 443-444, 450-457, 597-598, 603-611. `none`: not set. -/
structure Obj (K : Type) where
  params : Params K
  children : Option (List (Nat × Nat)) := none
  leaves : Option Nat := none
  distances : Option (List K) := none
  nClusters : Option Int := none
  labels : Option (List Nat) := none
  deriving DecidableEq

/-- scikit-learn's `ward_tree`, `linkage_tree` (with the arguments `linkage` and `affinity`) and `_hc_cut`, used at gtda/mapper/cluster.py:306-315, 456-457, 610-611. -/
structure Engine (α K : Type) where
  ward : List α → PyM (Dendrogram K)
  linkageTree : String → String → List α → PyM (Dendrogram K)
  cut : Int → Dendrogram K → PyM (List Nat)

/-- The keys of scikit-learn's `_TREE_BUILDERS`, gtda/mapper/cluster.py:303. -/
def treeBuilders : List String := ["ward", "complete", "average", "single"]

/-- `_build_tree` up to the assignment of the attributes, gtda/mapper/cluster.py:297-315. `validate_params` has checked that the parameters are strings. -/
def buildTree (e : Engine α K) (p : Params K) (X : List α) : PyM (Dendrogram K) :=
  match p.linkage, p.affinity with
  | some linkage, some affinity =>
    if linkage = "ward" ∧ affinity ≠ "euclidean" then .error .valueError
    else if linkage ∉ treeBuilders then .error .valueError
    else if linkage = "ward" then e.ward X
    else e.linkageTree linkage affinity X
  | _, _ => .error .typeError

section
variable [Field K] [LinearOrder K] [FloorRing K]

/-- `validate_params`, gtda/mapper/cluster.py:402-408, 439-440, 552-560, 593-594, in the order of `get_params` (alphabetical). -/
def checkParams (p : Params K) : PyM Unit :=
  match p.affinity with
  | none => .error .typeError
  | some _ =>
    match p.rule with
    | .simple relGap maxFrac =>
      match p.linkage with
      | none => .error .typeError
      | some _ => do
        let _ ← checkFraction maxFrac
        let _ ← checkFraction relGap
        .ok ()
    | .histogram thr maxFrac nStart =>
      if thr < 0 then .error .valueError
      else
        match p.linkage with
        | none => .error .typeError
        | some _ => do
          let _ ← checkFraction maxFrac
          if nStart < 1 then .error .valueError else .ok ()

/-- The number of clusters, gtda/mapper/cluster.py:449-451, 603-605. The loop of the histogram rule ends after at most as many iterations as there are samples (`numClusters_total`); `.stopIteration` stands for more. -/
def numClusters (r : Rule K) (ds : List K) : PyM Int :=
  match r with
  | .simple relGap maxFrac =>
    match ds.getLast? with
    | none => .error .indexError
    | some last => do
      let g ← checkFraction relGap
      .ok (numClustersSimple ds (g * last) maxFrac)
  | .histogram thr maxFrac nStart => do
    let f ← checkFraction maxFrac
    match numClustersHistogram (ds.length + 1) ds thr.toNat nStart.toNat f with
    | some n => .ok n
    | none => .error .stopIteration

/-- `FirstSimpleGap.fit` and `FirstHistogramGap.fit`, gtda/mapper/cluster.py:418-458, 572-612: the object after the call and the outcome. -/
def fit (e : Engine α K) (o : Obj K) (X : List α) : Obj K × PyM Unit :=
  if X.length = 0 then (o, .error .valueError)
  else
    match checkParams o.params with
    | .error err => (o, .error err)
    | .ok () =>
      if X.length = 1 then ({ o with labels := some [0], nClusters := some 1 }, .ok ())
      else
        match buildTree e o.params X with
        | .error err => (o, .error err)
        | .ok t =>
          let o₁ := { o with children := some t.children, leaves := some t.leaves, distances := some t.distances }
          match numClusters o.params.rule t.distances with
          | .error err => (o₁, .error err)
          | .ok n =>
            let o₂ := { o₁ with nClusters := some n }
            match e.cut n t with
            | .error err => (o₂, .error err)
            | .ok l => ({ o₂ with labels := some l }, .ok ())

/-- `fit_predict` (scikit-learn's `ClusterMixin`; a base class at gtda/mapper/cluster.py:322, 461): fit, then `labels_`. -/
def fitPredict (e : Engine α K) (o : Obj K) (X : List α) : Obj K × PyM (List Nat) :=
  match fit e o X with
  | (o', .error err) => (o', .error err)
  | (o', .ok ()) => (o', match o'.labels with
    | some l => .ok l
    | none => .error .attributeError)

/-- What can be done with an object: change parameters (scikit-learn's `set_params` for the constructor at gtda/mapper/cluster.py:410-416, 562-570) and fit. -/
inductive Op (α K : Type) where
  | setParams (p : Params K)
  | fit (X : List α)

/-- One operation, gtda/mapper/cluster.py:418-458, 572-612. -/
def step (e : Engine α K) (o : Obj K) : Op α K → Obj K
  | .setParams p => { o with params := p }
  | .fit X => (fit e o X).1

/-- A history, gtda/mapper/cluster.py:418-458, 572-612. -/
def run (e : Engine α K) (o : Obj K) (ops : List (Op α K)) : Obj K := ops.foldl (step e) o

end

/-! ### `ParallelClustering` -/

/-- A class of clusterers: is it a `ClusterMixin`; which of `metric`, `affinity` it has, and whether they are `'precomputed'`; does `fit` take weights; the state of an unfitted object; and `fit`, which returns the
new state and `labels_`. Used in gtda/mapper/cluster.py:84-105, 146-150, 183-187. -/
structure ClusterClass (Prm F K W C : Type) where
  isMixin : Bool
  metrics : Prm → List Bool
  takesWeights : Bool
  fresh : F
  fit : Prm → F → List (List K) → Option (List W) → PyM (F × List C)

/-- `clone(self.clusterer)`, gtda/mapper/cluster.py:184: same parameters, not fitted. -/
def clone {Prm F K W C : Type} (cl : ClusterClass Prm F K W C) (o : Prm × F) : Prm × F := (o.1, cl.fresh)

/-- What the parallel tasks use of the clusterer object, gtda/mapper/cluster.py:84-105, 183-187. -/
def behaviour {Prm F K W C : Type} (cl : ClusterClass Prm F K W C) (o : Prm × F) : Clusterer K W C where
  isMixin := cl.isMixin
  metrics := cl.metrics o.1
  takesWeights := cl.takesWeights
  labels := fun X w => Prod.snd <$> cl.fit (clone cl o).1 (clone cl o).2 X w

/-- A `ParallelClustering` object: its clusterer and `labels_` (`none`: no attribute, `some none`: `None`), gtda/mapper/cluster.py:79-82, 160, 172. -/
structure ParObj (Prm F C : Type) where
  clusterer : Prm × F
  labels : Option (Option (List (List (Nat × C)))) := none

/-- The loop over the portions, gtda/mapper/cluster.py:172-179, with the labels collected so far if it raises. -/
def collect {C : Type} : Nat → List (List Nat × List C) → List (List (Nat × C)) → List (List (Nat × C)) × PyM Unit
  | _, [], labels => (labels, .ok ())
  | i, t :: ts, labels =>
    match addLabels i labels t with
    | .error err => (labels, .error err)
    | .ok labels' => collect (i + 1) ts labels'

/-- `ParallelClustering.fit`, gtda/mapper/cluster.py:107-181: the object after the call and the outcome. `boolean`: the masks are of type `bool`; `cols` are their columns. -/
def parFit {Prm F K W C : Type} (cl : ClusterClass Prm F K W C) (order : List Nat) (o : ParObj Prm F C) (X : List (List K)) (cols : List (List Bool)) (boolean : Bool) (w : Option (List W)) :
    ParObj Prm F C × PyM Unit :=
  if X.length = 0 ∨ (X.headD []).length = 0 then (o, .error .valueError)
  else if cols.length = 0 ∨ (cols.headD []).length = 0 then (o, .error .valueError)
  else if ¬ boolean then (o, .error .typeError)
  else if X.length ≠ (cols.headD []).length then (o, .error .valueError)
  else
    match validateClusterer (behaviour cl o.clusterer) with
    | .error err => (o, .error err)
    | .ok pre =>
      match scheduled (cols.map fun col _ => labelsSingle (behaviour cl o.clusterer) pre X w (flatnonzero col)) order with
      | .error err => ({ o with labels := some none }, .error err)
      | .ok single =>
        let q := collect 0 single (List.replicate X.length [])
        ({ o with labels := some (some q.1) }, q.2)

/-- `fit_predict` and its alias `fit_transform`, gtda/mapper/cluster.py:189-218, 241-268. -/
def parFitTransform {Prm F K W C : Type} (cl : ClusterClass Prm F K W C) (order : List Nat) (o : ParObj Prm F C) (X : List (List K)) (cols : List (List Bool)) (boolean : Bool) (w : Option (List W)) :
    ParObj Prm F C × PyM (Option (List (List (Nat × C)))) :=
  match parFit cl order o X cols boolean w with
  | (o', .error err) => (o', .error err)
  | (o', .ok ()) => (o', match o'.labels with
    | some l => .ok l
    | none => .error .attributeError)

/-- What can be done with an object and its clusterer: replace the clusterer or change its parameters, fit the clusterer itself (its state changes), fit, gtda/mapper/cluster.py:79-181. -/
inductive ParOp (Prm F K W : Type) where
  | setClusterer (p : Prm) (f : F)
  | setParams (p : Prm)
  | fitClusterer (f : F)
  | fit (order : List Nat) (X : List (List K)) (cols : List (List Bool)) (boolean : Bool) (w : Option (List W))

/-- One operation, gtda/mapper/cluster.py:79-181. -/
def parStep {Prm F K W C : Type} (cl : ClusterClass Prm F K W C) (o : ParObj Prm F C) : ParOp Prm F K W → ParObj Prm F C
  | .setClusterer p f => { o with clusterer := (p, f) }
  | .setParams p => { o with clusterer := (p, o.clusterer.2) }
  | .fitClusterer f => { o with clusterer := (o.clusterer.1, f) }
  | .fit order X cols boolean w => (parFit cl order o X cols boolean w).1

/-- A history, gtda/mapper/cluster.py:79-181. -/
def parRun {Prm F K W C : Type} (cl : ClusterClass Prm F K W C) (o : ParObj Prm F C) (ops : List (ParOp Prm F K W)) : ParObj Prm F C := ops.foldl (parStep cl) o

end Gtda.ClusterObject
