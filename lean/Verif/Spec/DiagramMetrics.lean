import Verif.Spec.Vectorizers
import Verif.Spec.Distances
import Verif.Model.DiagramMetrics

set_option autoImplicit false

/-!
# Specification vocabulary for `PairwiseDistance` and `Amplitude` as estimators
-/

namespace Gtda.Spec.DiagramMetrics
open Gtda.Diagrams Gtda.DiagramMetrics Gtda.Spec.Vectorizers

variable {K Q : Type}

/-- Parameters accepted for a class and a metric, as documented: which keys may be given, and the ranges of their values. -/
structure ValidParams [Field K] [LinearOrder K] (c : Cls) (P : Params K) (metric : Metric) : Prop where
  known : P.metric = some metric
  order : ∀ x, P.order = some (some x) → 0 < x
  delta_key : ∀ m x, P.mp = some m → m.delta = some x → c = .distance ∧ (metric = .bottleneck ∨ metric = .wasserstein)
  delta : ∀ m x, P.mp = some m → m.delta = some x → x ≤ 1 ∧ 0 ≤ x ∧ (metric = .wasserstein → x ≠ 0)
  p_key : ∀ m x, P.mp = some m → m.p = some x → metric ≠ .bottleneck
  p : ∀ m x, P.mp = some m → m.p = some (some x) → 1 ≤ x
  p_inf : ∀ m, P.mp = some m → m.p = some none → metric ≠ .wasserstein
  bins_key : ∀ m n, P.mp = some m → m.nBins = some n → metric ≠ .bottleneck ∧ metric ≠ .wasserstein
  bins : ∀ m n, P.mp = some m → m.nBins = some n → 1 ≤ n
  layers : ∀ m n, P.mp = some m → m.nLayers = some n → metric = .landscape ∧ 1 ≤ n
  sigma : ∀ m x, P.mp = some m → m.sigma = some x → (metric = .heat ∨ metric = .image) ∧ 0 < x
  power : ∀ m x, P.mp = some m → m.power = some x → metric = .silhouette ∧ 0 < x
  weight : ∀ m w, P.mp = some m → m.weight = some w → metric = .image

/-- The class of vector representations to which a metric refers. -/
def vectorizer : Metric → Option Gtda.Vectorizers.Kind
  | .bottleneck => none
  | .wasserstein => none
  | .betti => some .betti
  | .landscape => some .landscape
  | .heat => some .heat
  | .image => some .image
  | .silhouette => some .silhouette

/-- The parameters of that class to which metric parameters correspond: those given, else the documented default values. -/
def asVectorizer [Field K] (P : Params K) : Gtda.Vectorizers.Params K :=
  match P.mp with
  | none => ⟨100, 1, 1 / 10, 1, none⟩
  | some m => ⟨m.nBins.getD 100, m.nLayers.getD 1, m.sigma.getD (1 / 10), m.power.getD 1, m.weight.getD none⟩

/-- The order `p` of the norm: the one given, else `2`. -/
noncomputable def pOf (P : Params ℝ) : ENNReal :=
  match P.mp with
  | none => 2
  | some m => match m.p with
    | none => 2
    | some none => ⊤
    | some (some x) => ENNReal.ofReal x

/-- An order as an extended real number. -/
noncomputable def toP : Option ℝ → ENNReal
  | none => ⊤
  | some x => ENNReal.ofReal x

/-- The vector for diagram `i` and the `k`-th homology dimension in the output of a vector representation: a curve, the layers of a landscape one after the other, or the rows of an image one after
the other. Entries that are NaN are `none`. -/
def vectorOf [NatCast K] (nLayers : Nat) (R : Gtda.Vectorizers.Out K) (i k : Nat) : Option (List (Option K)) :=
  match R with
  | .counts R => (entry2 R i k).map fun c => c.map fun (n : Nat) => some (n : K)
  | .curves R => entry2 R i k
  | .images R => (entry2 R i k).map List.flatten
  | .layers R => (R[i]?).map fun rows => ((rows.drop (k * nLayers)).take nLayers).flatten.map some

/-- `c` is the length of a step of the grid of dimension `q`, or the area of a pixel for persistence images. -/
def CellSize [Field K] [LinearOrder K] (metric : Metric) (X : List (List (Pt K Q))) (dims : List Q) (q : Q) (n : Nat) (c : K) : Prop :=
  if metric = .image then ∃ s₀ s₁ step₀ step₁, BirthGrid X dims q n s₀ step₀ ∧ LifetimeGrid X dims q n s₁ step₁ ∧ c = step₀ * step₁
  else ∃ s, Grid X dims q n s c

/-- The exponent of the size of a cell: `1 / p`, or `2 / p` for heat kernels (whose pixels are squares). -/
noncomputable def exponent (metric : Metric) (p : ENNReal) : ℝ := if metric = .heat then 2 * (1 / p).toReal else (1 / p).toReal

/-- The engine computes powers and norms of real numbers, and its smoothing filter keeps the size of images. -/
structure RealEngine (E : Engine ℝ Q) : Prop where
  norm : ∀ p v, 0 < toP p → E.norm p v = lpNorm (toP p) v
  pow : ∀ x y, E.pow x y = x ^ y
  size : KeepsSize E.toEngine

/-- Diagrams whose vectors contain no NaN: all of them, except for silhouettes with a power larger than 8, where an off-diagonal point is needed in each dimension. -/
def Defined (P : Params ℝ) (metric : Metric) (dims : List Q) : Set (List (Pt ℝ Q)) :=
  {D | (∀ p ∈ D, p.b ≤ p.d) ∧ (metric = .silhouette → 8 < (asVectorizer P).power → ∀ q ∈ dims, ∃ p ∈ D, p.q = q ∧ p.b ≠ p.d)}

/-- What `PairwiseDistance` returns if the distances per homology dimension are `A`: `A` itself without `order`, else norms over the dimensions. -/
noncomputable def distanceResult (order : Option (Option ℝ)) (A : List (List (List ℝ))) : Gtda.DiagramMetrics.Out ℝ :=
  match order with
  | none => .full (A.map fun r => r.map fun c => c.map some)
  | some o => .reduced (A.map fun r => r.map fun c => some (lpNorm (toP o) c))

/-- What `Amplitude` returns if the amplitudes per homology dimension are `A`. -/
noncomputable def amplitudeResult (order : Option (Option ℝ)) (A : List (List ℝ)) : List (List (Option ℝ)) :=
  match order with
  | none => A.map fun r => r.map some
  | some o => A.map fun r => [some (lpNorm (toP o) r)]

/-- The distance between two diagrams computed by the external library for `bottleneck` and `wasserstein`: with the parameters given, else with `delta = 0.01`, `p = 2`. -/
def matching [Field K] (E : Engine K Q) (metric : Metric) (P : Params K) : List (Pt K Q) → List (Pt K Q) → K :=
  let delta := (P.mp.bind fun m => m.delta).getD (1 / 100)
  if metric = .bottleneck then E.bottleneck delta else E.wasserstein ((P.mp.bind fun m => m.p).getD (some 2)) delta

/-- The parameters after a sequence of operations: those set last. -/
def lastSet (P : Params K) : List (Op K Q) → Params K
  | [] => P
  | .fit _ :: ops => lastSet P ops
  | .set P' :: ops => lastSet P' ops

end Gtda.Spec.DiagramMetrics
