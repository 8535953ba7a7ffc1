import Verif.Spec.Distances

set_option autoImplicit false

/-!
# Specification: joined diagrams

Two collections with the same number of diagrams are joined by putting the points of the `i`-th diagrams together.
-/

namespace Gtda.Spec.Joined
open Gtda.Diagrams

variable {K Q : Type}

/-- The collection whose `i`-th diagram has the points of both `i`-th diagrams. -/
def joined (X X' : List (List (Pt K Q))) : List (List (Pt K Q)) := List.zipWith (· ++ ·) X X'

/-- Two non-empty collections with the same number of diagrams, each as the transformers accept them: as many points in every diagram, for each dimension. -/
structure Joinable [DecidableEq Q] (dims : List Q) (X X' : List (List (Pt K Q))) : Prop where
  dims_ne : dims ≠ []
  ne : X ≠ []
  length : X.length = X'.length
  left : ∀ q ∈ dims, EqualCounts X q
  right : ∀ q ∈ dims, EqualCounts X' q

/-- Sum of two images, pixel by pixel. -/
def plus [Add K] (I J : List (List K)) : List (List K) := List.zipWith (List.zipWith (· + ·)) I J

/-- The filter `G` maps `n × n` images to `n × n` images and sums to sums, as Gaussian smoothing does. -/
structure Additive [Add K] (n : Nat) (G : List (List K) → List (List K)) : Prop where
  size : ∀ I, SquareImage n I → SquareImage n (G I)
  plus : ∀ I J, SquareImage n I → SquareImage n J → G (plus I J) = plus (G I) (G J)

/-- The diagram with all points in dimension `q₀`. -/
def forgotten (q₀ : Q) (D : List (Pt K Q)) : List (Pt K Q) := D.map fun p => ⟨p.b, p.d, q₀⟩

end Gtda.Spec.Joined
