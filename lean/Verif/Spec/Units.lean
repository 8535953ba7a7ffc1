import Verif.Model.ScalerObject
import Verif.Model.FeatureObject

set_option autoImplicit false

/-!
# Specification vocabulary for changes of units

The values of a filtration may be measured in other units (`a > 0` new units make an old one) and from another origin (`c`). Diagrams, and the parameters that are lengths, change accordingly.
-/

namespace Gtda.Spec.Units
open Gtda.Diagrams Gtda.Py

variable {K Q : Type}

/-- A diagram in other units: births and deaths `x` become `a * x + c`. -/
def moved [Add K] [Mul K] (a c : K) (D : List (Pt K Q)) : List (Pt K Q) := D.map fun p => ⟨a * p.b + c, a * p.d + c, p.q⟩

/-- A collection of diagrams in other units. -/
def movedAll [Add K] [Mul K] (a c : K) (X : List (List (Pt K Q))) : List (List (Pt K Q)) := X.map (moved a c)

/-- The parameters of a vector representation in other units: `sigma` is a length, and the weight function gives a lifetime the weight it had. -/
def movedParams [Mul K] [Div K] (a : K) (P : Gtda.Vectorizers.Params K) : Gtda.Vectorizers.Params K :=
  { P with sigma := a * P.sigma, weight := P.weight.map fun w x => w (x / a) }

/-- A call of `fit` or `set_params` in other units; `ps` says how parameters change. -/
def movedOp [Add K] [Mul K] (a c : K) (ps : Gtda.Vectorizers.Params K → Gtda.Vectorizers.Params K) : Gtda.Vectorizers.Op K Q → Gtda.Vectorizers.Op K Q
  | .fit X => .fit (movedAll a c X)
  | .set P => .set (ps P)

/-- All values of a result multiplied by `s` (numbers of features are left alone, NaN remains NaN). -/
def timesOut [Mul K] (s : K) : Gtda.Vectorizers.Out K → Gtda.Vectorizers.Out K
  | .counts R => .counts R
  | .layers R => .layers (R.map fun r => r.map fun l => l.map fun x => s * x)
  | .curves R => .curves (R.map fun r => r.map fun l => l.map fun x => x.map fun y => s * y)
  | .images R => .images (R.map fun r => r.map fun I => I.map fun l => l.map fun x => x.map fun y => s * y)

/-- The power function `x ↦ x ^ e` turns the factor `a` of non-negative numbers into the factor `a ^ e`, which is not zero. -/
def FactorOut [Zero K] [LE K] [Mul K] (pow : K → K → K) (a e : K) : Prop := pow a e ≠ 0 ∧ ∀ x, 0 ≤ x → pow (a * x) e = pow a e * pow x e

/-! ### Distances, amplitudes, scalers -/

/-- What the external computations do with lengths in other units: norms are homogeneous, powers multiplicative, and distances between diagrams are lengths and do not depend on the origin. -/
structure Scales [Field K] [LinearOrder K] (E : Gtda.DiagramMetrics.Engine K Q) (a : K) : Prop where
  norm : ∀ p v s, (∀ x, p = some x → 0 < x) → 0 ≤ s → E.norm p (v.map fun x => s * x) = s * E.norm p v
  pow : ∀ e, 0 < E.pow a e ∧ ∀ x, E.pow (a * x) e = E.pow a e * E.pow x e
  bottleneck : ∀ c delta D D', E.bottleneck delta (moved a c D) (moved a c D') = a * E.bottleneck delta D D'
  wasserstein : ∀ c p delta D D', E.wasserstein p delta (moved a c D) (moved a c D') = a * E.wasserstein p delta D D'

/-- Metric parameters in other units: only `heat` and `persistence_image` have parameters that are lengths (`sigma`, by default `0.1`) or functions of lengths. -/
def movedMP [Field K] (a : K) (metric : Gtda.DiagramMetrics.Metric) (m : Gtda.DiagramMetrics.MParams K) : Gtda.DiagramMetrics.MParams K :=
  if metric = .heat ∨ metric = .image then { m with sigma := some (a * m.sigma.getD (1 / 10)), weight := m.weight.map fun w => w.map fun w x => w (x / a) } else m

/-- Parameters of `PairwiseDistance` and `Amplitude` in other units. -/
def movedMetric [Field K] (a : K) (P : Gtda.DiagramMetrics.Params K) : Gtda.DiagramMetrics.Params K :=
  match P.metric with
  | none => P
  | some metric => { P with mp := some (movedMP a metric (P.mp.getD {})) }

/-- `1 / p`, or `2 / p` for `heat`; zero if `p` is infinite. -/
def exponentOf [Field K] (metric : Gtda.DiagramMetrics.Metric) (p : Option K) : K :=
  match p with
  | none => 0
  | some p => (if metric = .heat then 2 else 1) / p

/-- The order of the norm: the one given, else 2. -/
def orderOf [Field K] (m : Option (Gtda.DiagramMetrics.MParams K)) : Option K := (m.bind fun m => m.p).getD (some 2)

/-- By which factor distances and amplitudes change. Distances between points of diagrams are lengths; functions are compared by `L^p` norms, so that the size of a cell of their domain enters. -/
def unitFactor [Field K] (pow : K → K → K) (metric : Gtda.DiagramMetrics.Metric) (p : Option K) (a : K) : K :=
  match metric with
  | .bottleneck => a
  | .wasserstein => a
  | .betti => pow a (exponentOf metric p)
  | .landscape => a * pow a (exponentOf metric p)
  | .silhouette => a * pow a (exponentOf metric p)
  | .heat => (a ^ 2)⁻¹ * pow a (exponentOf metric p)
  | .image => (a ^ 2)⁻¹ * (pow a (exponentOf metric p) * pow a (exponentOf metric p))

/-- All distances multiplied by `s`. -/
def timesDist [Mul K] (s : K) : Gtda.DiagramMetrics.Out K → Gtda.DiagramMetrics.Out K
  | .full A => .full (A.map fun r => r.map fun l => l.map fun x => x.map fun y => s * y)
  | .reduced A => .reduced (A.map fun r => r.map fun x => x.map fun y => s * y)

/-- Parameters of `Scaler` in other units. -/
def movedScaler [Field K] (a : K) (P : Gtda.ScalerObject.SParams K) : Gtda.ScalerObject.SParams K :=
  match P.metric with
  | none => P
  | some metric => { P with mp := some (movedMP a metric (P.mp.getD {})) }

/-- A function of arrays of amplitudes, such as the maximum or the mean, whose value is multiplied by `s` if all amplitudes are. -/
def Homogeneous [Mul K] (f : List (List (Option K)) → PyM (Option K)) (s : K) : Prop :=
  ∀ A, f (A.map fun r => r.map fun x => x.map fun y => s * y) = Except.map (fun x => x.map fun y => s * y) (f A)

/-! ### Features and filtering -/

/-- An operation on a feature object in other units; `ps` says how parameters change. -/
def movedFeatureOp {P : Type} [Add K] [Mul K] (a c : K) (ps : P → P) : Gtda.FeatureObject.Op P K Q → Gtda.FeatureObject.Op P K Q
  | .setParams p => .setParams (ps p)
  | .fit X => .fit (movedAll a c X)
  | .transform n X => .transform n (movedAll a c X)

end Gtda.Spec.Units
