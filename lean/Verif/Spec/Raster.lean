import Verif.Spec.Vectorization

set_option autoImplicit false

/-!
# Specification vocabulary for heat kernel and persistence images

Stated for lists of points, grids of values and images only; no definition of the model is used. `G` is the smoothing filter (`scipy.ndimage.gaussian_filter` with fixed parameters).
-/

namespace Gtda.Spec.Raster
open Gtda.Diagrams

variable {K Q : Type} [Field K] [LinearOrder K]

/-- `lo` and `hi` are the first and last value of the grid. -/
def Ends (s : List K) (lo hi : K) : Prop := s[0]? = some lo ∧ s[s.length - 1]? = some hi

/-- The raster of a diagram on a grid, before smoothing for a heat kernel: pixel `(i, j)` counts the points whose clipped birth lies in bin `i` and whose clipped death lies in bin `j`; points whose
clipped birth and death agree are ignored. -/
def IsHeatRaster (s : List K) (step : K) (D : List (Pt K Q)) (I : List (List K)) : Prop :=
  SquareImage s.length I ∧ ∃ lo hi, Ends s lo hi ∧ ∀ i j : Nat, i < s.length → j < s.length → entry2 I i j = some (((D.countP fun p =>
    decide (clamp lo hi p.b ≠ clamp lo hi p.d ∧ InBin lo step i (clamp lo hi p.b) ∧ InBin lo step j (clamp lo hi p.d))) : Nat) : K)

/-- The heat kernel image of a diagram: all zero if the grid has step zero; otherwise the smoothed raster minus its transpose, divided by the area of a pixel and turned by 90 degrees, so that
births run to the right and deaths run upwards. -/
def IsHeatImage (G : List (List K) → List (List K)) (s : List K) (step : K) (D : List (Pt K Q)) (H : List (List K)) : Prop :=
  SquareImage s.length H ∧ (step = 0 → ∀ i j, i < s.length → j < s.length → entry2 H i j = some 0) ∧
    (step ≠ 0 → ∃ I, IsHeatRaster s step D I ∧ ∀ x y : Nat, x < s.length → y < s.length → ∃ u v, entry2 (G I) x y = some u ∧ entry2 (G I) y x = some v ∧
      entry2 H (s.length - 1 - y) x = some ((u - v) / step ^ 2))

/-- The raster of a diagram on a grid of births and a grid of lifetimes, before smoothing for a persistence image: pixel `(i, j)` is the weight of the `j`-th lifetime of the grid times the number of
points whose clipped birth lies in bin `i` and whose clipped lifetime lies in bin `j`; points whose clipped lifetime is zero are ignored. -/
def IsWeightedRaster (w : K → K) (s₀ s₁ : List K) (step₀ step₁ : K) (D : List (Pt K Q)) (I : List (List K)) : Prop :=
  SquareImage s₀.length I ∧ ∃ lo₀ hi₀ lo₁ hi₁, Ends s₀ lo₀ hi₀ ∧ Ends s₁ lo₁ hi₁ ∧ ∀ (i j : Nat) t, i < s₀.length → s₁[j]? = some t → entry2 I i j = some (((D.countP fun p =>
    decide (clamp lo₁ hi₁ (p.d - p.b) ≠ 0 ∧ InBin lo₀ step₀ i (clamp lo₀ hi₀ p.b) ∧ InBin lo₁ step₁ j (clamp lo₁ hi₁ (p.d - p.b)))) : Nat) * w t)

/-- The persistence image of a diagram: all zero if one of the grids has step zero; otherwise the smoothed weighted raster, divided by the area of a pixel and turned by 90 degrees, so that births run to
the right and lifetimes run upwards. -/
def IsPersistenceImage (G : List (List K) → List (List K)) (w : K → K) (s₀ s₁ : List K) (step₀ step₁ : K) (D : List (Pt K Q)) (H : List (List K)) : Prop :=
  SquareImage s₀.length H ∧ (step₀ = 0 ∨ step₁ = 0 → ∀ i j, i < s₀.length → j < s₀.length → entry2 H i j = some 0) ∧
    (step₀ ≠ 0 → step₁ ≠ 0 → ∃ I, IsWeightedRaster w s₀ s₁ step₀ step₁ D I ∧ ∀ x y : Nat, x < s₀.length → y < s₀.length → ∃ u, entry2 (G I) x y = some u ∧
      entry2 H (s₀.length - 1 - y) x = some (u / (step₀ * step₁)))

end Gtda.Spec.Raster
