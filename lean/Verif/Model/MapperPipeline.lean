import Verif.Model.MapperCluster
import Verif.Model.Nerve

set_option autoImplicit false

/-!
# Model of a whole Mapper pipeline (`make_mapper_pipeline`, gtda/mapper/pipeline.py:143-429)

`scaler`, `filter_func` and `clustering_preprocessing` are arbitrary functions from a matrix (list of rows) to a matrix that may raise.
-/

namespace Gtda.Mapper
open Gtda.Py

/-- Column `j` of a matrix given by rows, without rows that are too short. Used in `coverKindFitTransform`, gtda/mapper/cover.py:215-252. -/
def column {K : Type} (X : List (List K)) (j : Nat) : List K := X.filterMap fun r => r[j]?

/-- The columns of a matrix given by rows. Used in `coverKindFitTransform`, gtda/mapper/cover.py:215-252. -/
def columns {K : Type} (X : List (List K)) : List (List K) := (List.range (X.headD []).length).map (column X)

/-- The covers of the library. Used in `coverKindFitTransform`, gtda/mapper/cover.py:215-252. -/
inductive CoverKind (K : Type)
  | oneDimensional (p : CoverParams K)
  | cubical (p : CoverParams K)

section
variable {K : Type} [Field K] [LinearOrder K] [FloorRing K]

/-- `fit_transform` of a new `OneDimensionalCover` (gtda/mapper/cover.py:215-252; a matrix must have one column) or `CubicalCover` (501-547). `check_array` rejects matrices
without rows or columns. -/
def coverKindFitTransform (k : CoverKind K) (V : List (List K)) : PyM (List (List Bool)) :=
  if V.length = 0 ∨ (V.headD []).length = 0 then .error .valueError
  else
    match k with
    | .oneDimensional p => if (V.headD []).length = 1 then (coverFitTransform p ⟨none⟩ (column V 0)).2 else .error .valueError
    | .cubical p => (cubicalFitTransform p ⟨none⟩ V.length (columns V)).2

/-- `fit_transform` of the pipeline built by `make_mapper_pipeline`, gtda/mapper/pipeline.py:403-429: the list feature union (gtda/mapper/utils/_list_feature_union.py:7-29)
of `clustering_preprocessing` and (`scaler`, `filter_func`, `cover`), then `ParallelClustering` and `Nerve`. -/
def mapperFitTransform {W C : Type} [DecidableEq C] (scaler filterFunc prep : List (List K) → PyM (List (List K))) (cover : CoverKind K) (c : Clusterer K W C) (order : List Nat)
    (minInt : Int) (store contract : Bool) (fuel : Nat) (X : List (List K)) : PyM (Option (Graph Nat C)) := do
  let Y ← prep X
  let S ← scaler X
  let V ← filterFunc S
  let masks ← coverKindFitTransform cover V
  let labels ← parallelClusteringFit c order Y masks none
  nerve minInt store contract fuel labels

end

end Gtda.Mapper
