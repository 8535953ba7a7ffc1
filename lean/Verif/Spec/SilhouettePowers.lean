import Verif.Spec.Vectorization
import Mathlib.Data.Real.Basic

set_option autoImplicit false

/-!
# Specification for C158: unweighted averages of tent functions
-/

namespace Gtda.Spec.SilhouettePowers
open Gtda.Diagrams

variable {Q : Type} [DecidableEq Q]

open Classical in
/-- The points of `D` in homology dimension `q` than which no other has a longer lifetime. -/
noncomputable def longest (D : List (Pt ℝ Q)) (q : Q) : List (Pt ℝ Q) := (pointsIn D q).filter fun p => decide (∀ p' ∈ pointsIn D q, p'.d - p'.b ≤ p.d - p.b)

open Classical in
/-- The off-diagonal points of `D` in homology dimension `q`. -/
noncomputable def offDiagonal (D : List (Pt ℝ Q)) (q : Q) : List (Pt ℝ Q) := (pointsIn D q).filter fun p => decide (p.b < p.d)

/-- The average of the tent functions of points at `s`. -/
noncomputable def average (P : List (Pt ℝ Q)) (s : ℝ) : ℝ := (P.map fun p => tent p.b p.d s).sum / P.length

end Gtda.Spec.SilhouettePowers
