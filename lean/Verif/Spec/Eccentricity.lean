import Mathlib.Data.Real.Basic
import Mathlib.Data.List.Basic

set_option autoImplicit false

/-!
# Vocabulary for C150: samples in other positions and units

Written without reference to the model of the filter functions.
-/

namespace Gtda.Spec.Eccentricity

/-- The samples `X'`, with the metric `d'`, are arranged as the samples `X` with the metric `d`, all distances being multiplied by `s`. For `s = 1` this is an isometry. -/
def Similar (d d' : List ℝ → List ℝ → ℝ) (s : ℝ) (X X' : List (List ℝ)) : Prop :=
  X'.length = X.length ∧ ∀ (i j : Nat) x y x' y', X[i]? = some x → X[j]? = some y → X'[i]? = some x' → X'[j]? = some y' → d' x' y' = s * d x y

/-- As many samples, with distances which differ by at most `ε`. -/
def Near (d d' : List ℝ → List ℝ → ℝ) (ε : ℝ) (X X' : List (List ℝ)) : Prop :=
  X'.length = X.length ∧ ∀ (i j : Nat) x y x' y', X[i]? = some x → X[j]? = some y → X'[i]? = some x' → X'[j]? = some y' → |d' x' y' - d x y| ≤ ε

/-- The distance matrix of the samples `X`. -/
def distanceMatrix (d : List ℝ → List ℝ → ℝ) (X : List (List ℝ)) : List (List ℝ) := X.map fun x => X.map fun y => d x y

/-- `d` is symmetric and zero on the diagonal, for the samples `X`. -/
def Symmetric0 (d : List ℝ → List ℝ → ℝ) (X : List (List ℝ)) : Prop := (∀ x ∈ X, ∀ y ∈ X, d x y = d y x) ∧ ∀ x ∈ X, d x x = 0

/-- The number in row `i` of a column. -/
def valueAt (V : List (List ℝ)) (i : Nat) (e : ℝ) : Prop := V[i]? = some [e]

end Gtda.Spec.Eccentricity
