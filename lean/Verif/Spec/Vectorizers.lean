import Verif.Spec.Vectorization
import Verif.Model.Vectorizers

set_option autoImplicit false

/-!
# Specification vocabulary for vector representations as estimators
-/

namespace Gtda.Spec.Vectorizers
open Gtda.Diagrams

variable {K Q : Type}

/-- A collection that can be passed to `fit` and `transform`: at least one diagram, all of the same length, no point below the diagonal. -/
def Valid [LE K] (X : List (List (Pt K Q))) : Prop :=
  X ≠ [] ∧ (∀ D ∈ X, ∀ D' ∈ X, D.length = D'.length) ∧ ∀ D ∈ X, ∀ p ∈ D, p.b ≤ p.d

/-- `dims` lists the homology dimensions of the first diagram in increasing order. -/
def DimsOfFirst [LinearOrder Q] (dims : List Q) (X : List (List (Pt K Q))) : Prop :=
  dims.Pairwise (· < ·) ∧ ∀ q, q ∈ dims ↔ ∃ D, X[0]? = some D ∧ ∃ p ∈ D, p.q = q

/-- A training collection: valid, its first diagram has a point, and the number of points in any dimension of the first diagram is the same in all diagrams. -/
def Training [LE K] [DecidableEq Q] (X : List (List (Pt K Q))) : Prop :=
  Valid X ∧ ∀ D, X[0]? = some D → D ≠ [] ∧ ∀ p ∈ D, EqualCounts X p.q

/-- `n` equally spaced values, at distance `step`, from the smallest birth in dimension `q` to the largest death in dimension `q`, or, if these are equal, to the largest death in any of the dimensions
`dims`. -/
def Grid [Field K] [LinearOrder K] (X : List (List (Pt K Q))) (dims : List Q) (q : Q) (n : Nat) (s : List K) (step : K) : Prop :=
  ∃ lo hi last, IsLeast (births X q) lo ∧ IsGreatest (deaths X q) hi ∧ EquallySpaced s n lo last step ∧ 0 ≤ step ∧
    (lo ≠ hi → last = hi) ∧ (lo = hi → IsGreatest {y | ∃ q ∈ dims, IsGreatest (deaths X q) y} last)

/-- Births sampled as in `Grid`, between smallest and largest birth. -/
def BirthGrid [Field K] [LinearOrder K] (X : List (List (Pt K Q))) (dims : List Q) (q : Q) (n : Nat) (s : List K) (step : K) : Prop :=
  ∃ lo hi last, IsLeast (births X q) lo ∧ IsGreatest (births X q) hi ∧ EquallySpaced s n lo last step ∧ 0 ≤ step ∧
    (lo ≠ hi → last = hi) ∧ (lo = hi → IsGreatest {y | ∃ q ∈ dims, IsGreatest (births X q) y} last)

/-- Lifetimes sampled as in `Grid`, between smallest and largest lifetime. -/
def LifetimeGrid [Field K] [LinearOrder K] (X : List (List (Pt K Q))) (dims : List Q) (q : Q) (n : Nat) (s : List K) (step : K) : Prop :=
  ∃ lo hi last, IsLeast (lifetimes X q) lo ∧ IsGreatest (lifetimes X q) hi ∧ EquallySpaced s n lo last step ∧ 0 ≤ step ∧
    (lo ≠ hi → last = hi) ∧ (lo = hi → IsGreatest {y | ∃ q ∈ dims, IsGreatest (lifetimes X q) y} last)

/-- An engine whose smoothing filter keeps the size of images. -/
def KeepsSize (E : Gtda.Vectorizers.Engine K) : Prop := ∀ a b n I, SquareImage n I → SquareImage n (E.smooth a b I)

/-- The parameters after a sequence of operations: those set last. -/
def lastSet (P : Gtda.Vectorizers.Params K) : List (Gtda.Vectorizers.Op K Q) → Gtda.Vectorizers.Params K
  | [] => P
  | .fit _ :: ops => lastSet P ops
  | .set P' :: ops => lastSet P' ops

end Gtda.Spec.Vectorizers
