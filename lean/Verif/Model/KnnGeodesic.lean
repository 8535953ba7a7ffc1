import Verif.Model.Neighbors
import Verif.Model.Graphs

set_option autoImplicit false

/-!
# `KNeighborsGraph` followed by `GraphGeodesicDistance`

Models gtda/graphs/kneighbors.py and gtda/graphs/geodesic_distance.py, used one after the other on a point cloud.
-/

namespace Gtda.KnnGeodesic
open Gtda.Py Gtda.Checks

variable {K : Type} [Field K] [LinearOrder K]

/-- The sparse matrix `KNeighborsGraph.transform` returns for a cloud (gtda/graphs/kneighbors.py:154-162), as input of `GraphGeodesicDistance` (gtda/graphs/geodesic_distance.py:95-121). -/
def asInput (g : Neighbors.Graph K) : Graphs.GraphInput K := .sparse g.n g.n (g.rows.mapIdx fun i r => r.map fun e => ((i, e.1), e.2)).flatten

/-- One cloud through both transformers: gtda/graphs/kneighbors.py:154-160 and gtda/graphs/geodesic_distance.py:95-121. The number of vertices and the distances. -/
def knnGeodesic (query : Neighbors.Query K) (sparse : Neighbors.Params K → Arr K → PyM (Neighbors.Graph K)) (engine : Graphs.Engine K) (p : Neighbors.Params K) (gp : Graphs.GeodesicParams) (x : Arr K) :
    PyM (Nat × (Nat → Nat → WithTop K)) := do
  let g ← Neighbors.kneighborsGraph query sparse p x
  Graphs.geodesic engine gp (asInput g)

end Gtda.KnnGeodesic
