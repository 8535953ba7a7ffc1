import Verif.Spec.DiagramMetrics
import Verif.Model.ScalerObject

set_option autoImplicit false

/-!
# Specification vocabulary for `Scaler` as an estimator
-/

namespace Gtda.Spec.ScalerObject
open Gtda.Diagrams Gtda.DiagramMetrics Gtda.ScalerObject

variable {K Q : Type}

/-- An `Amplitude` with the metric and the metric parameters of a scaler, and without `order`. -/
def amplitudeOf (P : SParams K) : Params K := ⟨P.metric, P.mp, none⟩

/-- All births and deaths multiplied by `c`. -/
def scaled [Mul K] (c : K) (X : List (List (Pt K Q))) : List (List (Pt K Q)) := X.map fun D => D.map fun p => ⟨c * p.b, c * p.d, p.q⟩

/-- A result all of whose entries are finite. -/
def finite (X : List (List (Pt K Q))) : List (List (Pt (Option K) Q)) := X.map fun D => D.map fun p => ⟨some p.b, some p.d, p.q⟩

/-- A function of amplitudes for which multiplying all amplitudes by `c > 0` multiplies the value by `c`, as for maxima, minima, means and medians. -/
def Homogeneous [Field K] [LinearOrder K] (f : List (List (Option K)) → Gtda.Py.PyM (Option K)) : Prop :=
  ∀ A c, 0 < c → f (A.map fun r => r.map fun x => x.map (c * ·)) = (f A).map fun s => s.map (c * ·)

/-- The norms of the engine are homogeneous. -/
def HomogeneousNorms [Field K] [LinearOrder K] (E : Engine K Q) : Prop := ∀ p v c, 0 < c → E.norm p (v.map (c * ·)) = c * E.norm p v

/-- The parameters after a sequence of operations: those set last. -/
def slastSet (P : SParams K) : List (SOp K Q) → SParams K
  | [] => P
  | .fit _ _ :: ops => slastSet P ops
  | .set P' :: ops => slastSet P' ops

end Gtda.Spec.ScalerObject
