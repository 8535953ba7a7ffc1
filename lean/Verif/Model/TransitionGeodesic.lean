import Verif.Model.Graphs

set_option autoImplicit false

/-!
# `TransitionGraph` followed by `GraphGeodesicDistance`

Models gtda/graphs/transition.py and gtda/graphs/geodesic_distance.py, used one after the other on a time series.
-/

namespace Gtda.Graphs
open Gtda.Py

variable {K S : Type} [Field K] [LinearOrder K] [LinearOrder S]

/-- The sparse matrix with given entries, as input of `GraphGeodesicDistance`: entries which are not zero are stored, once each (`csr_matrix` adds up duplicates), gtda/graphs/transition.py:127-129. -/
def storedMatrix (A : List (List Nat)) : GraphInput K :=
  .sparse A.length A.length ((List.range A.length).flatMap fun i => (List.range A.length).filterMap fun j =>
    if (A.getD i []).getD j 0 = 0 then none else some ((i, j), (((A.getD i []).getD j 0 : Nat) : K)))

/-- One series through both transformers: gtda/graphs/transition.py:117-129 and gtda/graphs/geodesic_distance.py:95-121. The number of states and the distances. -/
def transitionGeodesic {C : Type} (engine : Engine K) (p : GeodesicParams) (func : List C → S) (X : List (List C)) : PyM (Nat × (Nat → Nat → WithTop K)) :=
  geodesic engine p (storedMatrix (adjacency func X))

end Gtda.Graphs
