import Verif.Spec.Distances

set_option autoImplicit false

/-!
# Specification of the bottleneck and Wasserstein distances

A matching of two diagrams pairs some points of the one with some points of the other; the remaining
points are left alone.  The price of a pair is the largest difference of coordinates, the price of a
point left alone is its distance to the diagonal.  The distance is the least `p`-norm of the prices of
a matching; `p = ∞` is the bottleneck distance.
-/

namespace Gtda.Diagrams

variable {Q : Type}

/-- The price of a pair, or of a point left alone. -/
noncomputable def gap : Option (Pt ℝ Q) → Option (Pt ℝ Q) → ℝ
  | some x, some y => max |x.b - y.b| |x.d - y.d|
  | some x, none => |x.d - x.b| / 2
  | none, some y => |y.d - y.b| / 2
  | none, none => 0

/-- `M` lists pairs of points, and points left alone beside `none`, so that each point of `D` occurs
once on the left and each point of `E` once on the right. -/
structure IsMatching (D E : List (Pt ℝ Q)) (M : List (Option (Pt ℝ Q) × Option (Pt ℝ Q))) : Prop where
  left : (M.filterMap Prod.fst).Perm D
  right : (M.filterMap Prod.snd).Perm E

/-- The norm of all prices. -/
noncomputable def totalPrice (p : ENNReal) (M : List (Option (Pt ℝ Q) × Option (Pt ℝ Q))) : ℝ :=
  lpNorm p (M.map fun m => gap m.1 m.2)

/-- The bottleneck (`p = ∞`) or `p`-Wasserstein distance. -/
noncomputable def matchingDistance (p : ENNReal) (D E : List (Pt ℝ Q)) : ℝ :=
  sInf {r | ∃ M, IsMatching D E M ∧ r = totalPrice p M}

end Gtda.Diagrams
