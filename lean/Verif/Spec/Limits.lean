import Verif.Spec.DiagramMetrics
import Mathlib.MeasureTheory.Integral.IntervalIntegral.Basic

set_option autoImplicit false

/-!
# Specification vocabulary for limits of distances and amplitudes as `n_bins` grows

The glossary (doc/theory/glossary.tex) defines Betti curves, persistence landscapes and silhouettes as functions of a real parameter, and distances between them as norms of functions, by integrals or suprema.
-/

namespace Gtda.Spec.Limits
open Gtda.Diagrams Gtda.DiagramMetrics Gtda.Spec.DiagramMetrics
open scoped ENNReal

variable {Q : Type}

/-- The `(k+1)`-th layer of the persistence landscape of the points in dimension `q`: the `(k+1)`-th largest value of a tent function, `0` if there are at most `k` points. -/
noncomputable def layer [DecidableEq Q] (D : List (Pt ℝ Q)) (q : Q) (k : Nat) (t : ℝ) : ℝ :=
  ((tents D q t).mergeSort fun x y => decide (y ≤ x))[k]?.getD 0

/-- The silhouette of the points in dimension `q`: the average of the tent functions weighted by powers of the lifetimes. -/
noncomputable def silhouette [DecidableEq Q] (D : List (Pt ℝ Q)) (q : Q) (power : ℝ) (t : ℝ) : ℝ :=
  ((pointsIn D q).map fun p => (p.d - p.b) ^ power * tent p.b p.d t).sum / ((pointsIn D q).map fun p => (p.d - p.b) ^ power).sum

/-- The functions to which a metric refers, for the points in dimension `q`: the Betti curve, the layers of the landscape, the silhouette. -/
noncomputable def curves [DecidableEq Q] (metric : Metric) (P : Params ℝ) (D : List (Pt ℝ Q)) (q : Q) : List (ℝ → ℝ) :=
  match metric with
  | .betti => [fun t => (aliveAt D q t : ℝ)]
  | .landscape => (List.range (asVectorizer P).nLayers).map fun k => layer D q k
  | .silhouette => [silhouette D q (asVectorizer P).power]
  | _ => []

/-- Differences of functions. -/
def differences (F G : List (ℝ → ℝ)) : List (ℝ → ℝ) := List.zipWith (fun f g t => f t - g t) F G

/-- The `p`-norm of a list of functions on the interval from `lo` to `hi`: the `p`-th root of the sum of the integrals of the `p`-th powers of the absolute values, or the supremum of the absolute values. -/
noncomputable def curveNorm (p : ℝ≥0∞) (lo hi : ℝ) (F : List (ℝ → ℝ)) : ℝ :=
  if p = ⊤ then sSup {y | ∃ f ∈ F, ∃ t, lo ≤ t ∧ t ≤ hi ∧ y = |f t|}
  else (F.map fun f => ∫ t in lo..hi, |f t| ^ p.toReal).sum ^ (1 / p.toReal)

/-- The `p`-norm of a list of functions on the real line. -/
noncomputable def lineNorm (p : ℝ≥0∞) (F : List (ℝ → ℝ)) : ℝ :=
  if p = ⊤ then sSup {y | ∃ f ∈ F, ∃ t, y = |f t|}
  else (F.map fun f => ∫ t : ℝ, |f t| ^ p.toReal).sum ^ (1 / p.toReal)

/-- Where sampling of dimension `q` starts: the smallest birth in dimension `q`. -/
noncomputable def low (X : List (List (Pt ℝ Q))) (q : Q) : ℝ := sInf (births X q)

/-- Where sampling of dimension `q` ends: the largest death in dimension `q`, or, if it is equal to the smallest birth, the largest death in any of the dimensions `dims`. -/
noncomputable def high (X : List (List (Pt ℝ Q))) (dims : List Q) (q : Q) : ℝ :=
  open Classical in if sInf (births X q) = sSup (deaths X q) then sSup {y | ∃ q ∈ dims, y ∈ deaths X q} else sSup (deaths X q)

/-- The parameters `P` with the number of bins `n`. -/
def withBins (P : Params ℝ) (n : Nat) : Params ℝ := { P with mp := some { P.mp.getD {} with nBins := some n } }

end Gtda.Spec.Limits
