import Verif.Model.Vectorizers
import Verif.Model.Distances

set_option autoImplicit false

/-!
# Model of `PairwiseDistance` and `Amplitude` as estimators

`gtda/diagrams/distance.py` and the class `Amplitude` of `gtda/diagrams/features.py` as objects: parameters that can be set at any time, `fit` (which may fail half way) and `transform`, with the
metrics of `gtda/diagrams/_metrics.py`.

Simplifications: parameter values have the declared types, `power` is finite, numbers are exact and NaN is `none`. The external computations (distances between diagrams in C++, powers, norms, the smoothing
filter) are parameters. (For `p = inf` the C code of `cdist` skips NaN entries, which is not modelled.)
-/

namespace Gtda.DiagramMetrics
open Gtda.Py Gtda.Parallel Gtda.Diagrams Gtda.Vectorizers

/-- Keys of `_AVAILABLE_METRICS`, gtda/diagrams/_metrics.py:18-51. -/
inductive Metric
  | bottleneck
  | wasserstein
  | betti
  | landscape
  | heat
  | image
  | silhouette
  deriving DecidableEq, Repr

/-- The two classes, gtda/diagrams/distance.py:18 and gtda/diagrams/features.py:190. -/
inductive Cls
  | distance
  | amplitude
  deriving DecidableEq, Repr

/-- Names of metric parameters, gtda/diagrams/_metrics.py:18-51. -/
inductive Key
  | p
  | nBins
  | nLayers
  | sigma
  | power
  | delta
  | weight
  deriving DecidableEq, Repr

/-- A dictionary `metric_params`: `none` if the key is absent. In `p`, the inner `none` is infinity; in `weight`, it is `None`. Used in `fit`, gtda/diagrams/distance.py:175-180. -/
structure MParams (K : Type) where
  p : Option (Option K) := none
  nBins : Option Nat := none
  nLayers : Option Nat := none
  sigma : Option K := none
  power : Option K := none
  delta : Option K := none
  weight : Option (Option (K → K)) := none

/-- Constructor parameters, gtda/diagrams/distance.py:137-142 and gtda/diagrams/features.py:296-301. `metric` is `none` for a string that is no key; `order` is `None`, infinity or a number;
`n_jobs` is an argument of the functions below. -/
structure Params (K : Type) where
  metric : Option Metric
  mp : Option (MParams K)
  order : Option (Option K)

/-- `effective_metric_params_`: the parameters, and samplings with steps together with the metric for which they were computed. Used in `fit`, gtda/diagrams/distance.py:175-198. -/
structure Eff (K Q : Type) where
  mp : MParams K
  samplings : Option (Metric × List (Q × Axes K))

/-- An estimator: its parameters, and the attributes set by `fit` (`none`: not set): `effective_metric_params_`, `homology_dimensions_`, `_X`. See gtda/diagrams/distance.py:137-201 and
gtda/diagrams/features.py:296-359. -/
structure Est (K Q : Type) where
  params : Params K
  eff : Option (Eff K Q)
  dims : Option (List Q)
  stored : Option (List (List (Pt K Q)))

/-- `__init__`, gtda/diagrams/distance.py:137-142 and gtda/diagrams/features.py:296-301. -/
def new {K Q : Type} (P : Params K) : Est K Q := ⟨P, none, none, none⟩

/-- `set_params` (inherited from scikit-learn): only parameters are replaced. Used with `fit`, gtda/diagrams/distance.py:144-201. -/
def setParams {K Q : Type} (P : Params K) (e : Est K Q) : Est K Q := { e with params := P }

/-- External computations: those of vector representations, `np.linalg.norm(v, ord=p)` (the inner `none` is infinity), `bottleneck_distance(a, b, delta)`, `wasserstein_distance(a, b, p, delta)`.
Used in `transform`, gtda/diagrams/_metrics.py:178-405. -/
structure Engine (K Q : Type) extends Vectorizers.Engine K where
  norm : Option K → List K → K
  bottleneck : K → List (Pt K Q) → List (Pt K Q) → K
  wasserstein : Option K → K → List (Pt K Q) → List (Pt K Q) → K

/-- The keys of `_AVAILABLE_METRICS[metric]` and of `_AVAILABLE_AMPLITUDE_METRICS[metric]`, gtda/diagrams/_metrics.py:18-60. -/
def allowed (c : Cls) : Metric → List Key
  | .bottleneck => if c = .distance then [.delta] else []
  | .wasserstein => if c = .distance then [.p, .delta] else [.p]
  | .betti => [.p, .nBins]
  | .landscape => [.p, .nBins, .nLayers]
  | .heat => [.p, .nBins, .sigma]
  | .image => [.p, .nBins, .sigma, .weight]
  | .silhouette => [.power, .p, .nBins]

section
variable {K Q : Type}

/-- The keys of a dictionary of metric parameters. Used in `validateMetric`, gtda/diagrams/distance.py:179-180. -/
def MParams.keys (m : MParams K) : List Key :=
  (if m.p.isSome then [.p] else []) ++ (if m.nBins.isSome then [.nBins] else []) ++ (if m.nLayers.isSome then [.nLayers] else []) ++ (if m.sigma.isSome then [.sigma] else []) ++
    (if m.power.isSome then [.power] else []) ++ (if m.delta.isSome then [.delta] else []) ++ (if m.weight.isSome then [.weight] else [])

variable [Field K] [LinearOrder K]

/-- Whether the values are in the declared intervals, gtda/diagrams/_metrics.py:18-51. -/
def MParams.inRange (metric : Metric) (m : MParams K) : Bool :=
  (match m.p with | none => true | some none => decide (metric ≠ .wasserstein) | some (some x) => decide (1 ≤ x)) &&
  (match m.nBins with | none => true | some n => decide (1 ≤ n)) &&
  (match m.nLayers with | none => true | some n => decide (1 ≤ n)) &&
  (match m.sigma with | none => true | some x => decide (0 < x)) &&
  (match m.power with | none => true | some x => decide (0 < x)) &&
  (match m.delta with | none => true | some x => (if metric = .bottleneck then decide (0 ≤ x) else decide (0 < x)) && decide (x ≤ 1))

/-- `validate_params(self.effective_metric_params_, …)`, gtda/diagrams/distance.py:179-180 and gtda/diagrams/features.py:338-339: `KeyError` for an unknown key, `ValueError` for a value out of range.
(If both occur, which is raised depends on the order of the dictionary; here it is `KeyError`.) -/
def validateMetric (c : Cls) (metric : Metric) (m : MParams K) : PyM Unit :=
  if (m.keys.any fun k => decide (k ∉ allowed c metric)) = true then .error .keyError
  else if m.inRange metric = true then .ok ()
  else .error .valueError

/-- `validate_params(self.get_params(), self._hyperparameters, exclude=['n_jobs'])`, gtda/diagrams/distance.py:130-135, 172-173 and gtda/diagrams/features.py:289-294, 331-332: the metric. -/
def validate (P : Params K) : PyM Metric :=
  match P.metric with
  | none => .error .valueError
  | some m => match P.order with
    | some (some x) => if x ≤ 0 then .error .valueError else .ok m
    | _ => .ok m

/-- The weight function stored for persistence images, gtda/diagrams/distance.py:192-198 and gtda/diagrams/features.py:351-357. -/
def storeWeight (metric : Metric) (m : MParams K) : MParams K :=
  if metric = .image then
    match m.weight with
    | some (some w) => { m with weight := some (some w) }
    | _ => { m with weight := some (some fun _ => 1) }
  else m

/-- `fit`, gtda/diagrams/distance.py:171-201 and gtda/diagrams/features.py:330-359: the object afterwards, and whether the call succeeded. Attributes are replaced as the call proceeds. -/
def fit [LinearOrder Q] (c : Cls) (X : List (List (Pt K Q))) (e : Est K Q) : Est K Q × PyM Unit :=
  match check X with
  | .error er => (e, .error er)
  | .ok _ =>
    match validate e.params with
    | .error er => (e, .error er)
    | .ok metric =>
      let m := e.params.mp.getD {}
      let e1 : Est K Q := { e with eff := some ⟨m, none⟩ }
      match validateMetric c metric m with
      | .error er => (e1, .error er)
      | .ok _ =>
        let dims := observedDims X
        let e2 : Est K Q := { e1 with dims := some dims }
        match binSampling (decide (metric = .image)) (m.nBins.getD 100) dims X with
        | .error er => (e2, .error er)
        | .ok L =>
          ({ e2 with
              eff := some ⟨storeWeight metric m, some (metric, dims.zip L)⟩
              stored := if c = .distance then some X else none }, .ok ())

/-- Metrics for which `_bin` computes one axis, gtda/diagrams/_utils.py:163. -/
def Metric.isCurve : Metric → Bool
  | .betti | .landscape | .heat | .silhouette => true
  | _ => false

/-- `samplings[dim]`, `step_sizes[dim]` as used by a metric, gtda/diagrams/_metrics.py:312-314, 325-326. If there are none, they are `None`, and the first operation with them raises `TypeError`.
Samplings of the wrong shape are outside the model (`notImplemented`). -/
def axesFor [DecidableEq Q] (metric : Metric) (eff : Eff K Q) (q : Q) : PyM (Axes K) :=
  match eff.samplings with
  | none => .error .typeError
  | some s => if metric.isCurve = s.1.isCurve ∧ (metric.isCurve = true ∨ s.1 = .image) then entryOf (some s.2) q else .error .notImplemented

variable [FloorRing K]

/-- The vectors of a batch of diagrams: `betti_curves`, `heats`, `persistence_images`, `silhouettes` (and `landscapes` with all layers, as in `landscape_amplitudes`), flattened, with the default values of the
parameters; gtda/diagrams/_metrics.py:63-175, 233-293, 351-405. -/
def vecs (E : Engine K Q) (metric : Metric) (m : MParams K) (ax : Axes K) (Y : List (List (Pt K Q))) : PyM (List (List (Option K))) :=
  match metric with
  | .betti => .ok ((bettiCurves Y ax.1.1).map fun c => c.map fun (k : Nat) => some (k : K))
  | .landscape => .ok ((landscapes Y ax.1.1 (m.nLayers.getD 1)).map fun I => I.flatten.map some)
  | .heat => do
    let R ← Y.mapM (heatItem E.toEngine (m.sigma.getD (1 / 10)) ax.1)
    .ok (R.map List.flatten)
  | .image => do
    let R ← Y.mapM (imageItem E.toEngine (m.sigma.getD (1 / 10)) ax (ax.2.1.map ((m.weight.getD none).getD fun _ => 1)))
    .ok (R.map List.flatten)
  | .silhouette => Y.mapM (silhouetteOne (fun x => E.pow x (m.power.getD 1)) (decide (8 < m.power.getD 1)) ax.1.1)
  | _ => .ok []

/-- `1 / p`, or `2 / p` for `heat`; zero if `p` is infinity. Used in `factor`, gtda/diagrams/_metrics.py:195, 212, 237, 262, 283. -/
def powerOf (metric : Metric) (p : Option K) : K :=
  match p with
  | none => 0
  | some x => (if metric = .heat then 2 else 1) / x

/-- `step_size ** (1 / p)`, `step_size ** (2 / p)` for `heat`, `np.product(step_size) ** (1 / p)` for `persistence_image`; NaN if the step is. See gtda/diagrams/_metrics.py:195, 212, 237, 260, 283. -/
def factor (E : Engine K Q) (metric : Metric) (p : Option K) (ax : Axes K) : Option K :=
  match metric with
  | .image => do
    let a ← ax.1.2
    let b ← ax.2.2
    some (E.pow (a * b) (powerOf metric p))
  | _ => ax.1.2.map fun s => E.pow s (powerOf metric p)

/-- The Minkowski distance of two vectors times the factor; NaN if an entry or the factor is. Used in `metricFn`, gtda/diagrams/_metrics.py:192-293. -/
def vecDist (E : Engine K Q) (p : Option K) (f : Option K) (u v : List (Option K)) : Option K :=
  f.bind fun c => liftNan₂ (fun a b => E.norm p (List.zipWith (· - ·) a b) * c) u v

/-- `landscape_distances`, gtda/diagrams/_metrics.py:208-230. -/
def landscapeMetric [DecidableEq Q] (E : Engine K Q) (p f : Option K) (sampling : List K) (nLayers : Nat) (Y1 Y2 : List (List (Pt K Q))) : List (List (Option K)) :=
  let nLayers1 := min nLayers (Y1.headD []).length
  if Y1 = Y2 then squarePdist (some 0) (fun a b => vecDist E p f (a.map some) (b.map some)) (flatLandscapes Y1 sampling nLayers1)
  else
    let nLayers2 := min nLayers (Y2.headD []).length
    let m := max nLayers1 nLayers2
    (flatLandscapes Y1 sampling m).map fun a => (flatLandscapes Y2 sampling m).map fun b => vecDist E p f (a.map some) (b.map some)

/-- `implemented_metric_recipes[metric]` with the effective parameters, gtda/diagrams/_metrics.py:178-304. -/
def metricFn [LinearOrder Q] (E : Engine K Q) (metric : Metric) (eff : Eff K Q) (q : Q) (Y1 Y2 : List (List (Pt K Q))) : PyM (List (List (Option K))) :=
  let p : Option K := eff.mp.p.getD (some 2)
  match metric with
  | .bottleneck => .ok ((matchingDistances (E.bottleneck (eff.mp.delta.getD (1 / 100))) Y1 Y2).map fun r => r.map some)
  | .wasserstein => .ok ((matchingDistances (E.wasserstein p (eff.mp.delta.getD (1 / 100))) Y1 Y2).map fun r => r.map some)
  | .landscape => do
    let ax ← axesFor .landscape eff q
    .ok (landscapeMetric E p (factor E .landscape p ax) ax.1.1 (eff.mp.nLayers.getD 1) Y1 Y2)
  | m => do
    let ax ← axesFor m eff q
    batchDistances (some 0) (vecs E m eff.mp ax) (vecDist E p (factor E m p ax)) Y1 Y2

/-- `implemented_amplitude_recipes[metric]` with the effective parameters, gtda/diagrams/_metrics.py:341-416. -/
def amplitudeFn [LinearOrder Q] (E : Engine K Q) (metric : Metric) (eff : Eff K Q) (q : Q) (Y : List (List (Pt K Q))) : PyM (List (Option K)) :=
  let p : Option K := eff.mp.p.getD (some 2)
  match metric with
  | .bottleneck => do
    let r ← bottleneckAmplitudes Y
    .ok (r.map some)
  | .wasserstein => .ok (Y.map fun D => some (E.norm p (D.map fun x => (x.d - x.b) / 2)))
  | m => do
    let ax ← axesFor m eff q
    batchAmplitudes (vecs E m eff.mp ax) (fun v => (factor E m p ax).bind fun c => liftNan (fun a => E.norm p a * c) v) Y

/-- `self.attribute`: `AttributeError` if it is not set. Used in `transform`, gtda/diagrams/distance.py:235-238. -/
def attr {β : Type} : Option β → PyM β
  | none => .error .attributeError
  | some a => .ok a

/-- `implemented_metric_recipes[metric]`: `KeyError` for other strings, gtda/diagrams/_metrics.py:310, 420. -/
def recipe (P : Params K) : PyM Metric :=
  match P.metric with
  | none => .error .keyError
  | some m => .ok m

/-- What `PairwiseDistance.transform` returns: an array with three axes, or with two. Used in `transform`, gtda/diagrams/distance.py:232-242. -/
inductive Out (K : Type)
  | full (A : List (List (List (Option K))))
  | reduced (A : List (List (Option K)))
  deriving DecidableEq

/-- `PairwiseDistance.transform`, gtda/diagrams/distance.py:232-242. -/
def transformDistance [LinearOrder Q] (E : Engine K Q) (nJobs : Nat) (X : List (List (Pt K Q))) (e : Est K Q) : PyM (Out K) :=
  match e.eff with
  | none => .error .notFitted
  | some eff => do
    check X
    let stored ← attr e.stored
    let dims ← attr e.dims
    let metric ← recipe e.params
    let A ← parallelPairwise (metricFn E metric eff) X stored dims nJobs
    match e.params.order with
    | none => .ok (.full A)
    | some o => .ok (.reduced (A.map fun r => r.map (liftNan (E.norm o))))

/-- `Amplitude.transform`, gtda/diagrams/features.py:387-397. -/
def transformAmplitude [LinearOrder Q] (E : Engine K Q) (nJobs : Nat) (X : List (List (Pt K Q))) (e : Est K Q) : PyM (List (List (Option K))) :=
  match e.eff with
  | none => .error .notFitted
  | some eff => do
    check X
    let dims ← attr e.dims
    let metric ← recipe e.params
    let A ← parallelAmplitude (amplitudeFn E metric eff) dims nJobs X
    match e.params.order with
    | none => .ok A
    | some o => .ok (A.map fun r => [liftNan (E.norm o) r])

/-- What a user does with an object before calling `transform`. Used with `fit`, gtda/diagrams/distance.py:144-201. -/
inductive Op (K Q : Type)
  | fit (X : List (List (Pt K Q)))
  | set (P : Params K)

omit [FloorRing K] in
/-- The object after a sequence of such operations, exceptions being caught. Used with `fit`, gtda/diagrams/distance.py:144-201. -/
def run [LinearOrder Q] (c : Cls) (ops : List (Op K Q)) (e : Est K Q) : Est K Q :=
  ops.foldl (fun e op => match op with
    | .fit X => (fit c X e).1
    | .set P => setParams P e) e

end

end Gtda.DiagramMetrics
