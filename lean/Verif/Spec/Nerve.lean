import Mathlib.Data.List.Basic
import Mathlib.Data.List.Range

set_option autoImplicit false

/-!
# Specification of Mapper graphs (independent of how they are computed)

A refined cover is given by listing for each sample the clusters (pairs of a pullback set label and a cluster label) it is in.
-/

namespace Gtda.Spec

/-- The samples of a cluster, ascending. -/
def samplesOf {ν : Type} [DecidableEq ν] (X : List (List ν)) (c : ν) : List Nat :=
  (List.range X.length).filter fun i => c ∈ X.getD i []

/-- The samples two clusters share, ascending. -/
def sharedSamples {ν : Type} [DecidableEq ν] (X : List (List ν)) (c d : ν) : List Nat :=
  (List.range X.length).filter fun i => c ∈ X.getD i [] ∧ d ∈ X.getD i []

end Gtda.Spec
