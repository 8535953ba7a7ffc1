import Verif.Model.Raster
import Verif.Model.Silhouette
import Mathlib.Analysis.SpecialFunctions.Pow.Real
import Mathlib.Data.ENNReal.Basic

set_option autoImplicit false

/-!
# Model of distances and amplitudes

`gtda/diagrams/_metrics.py` (`*_distances`, `*_amplitudes`, `_parallel_pairwise`, `_parallel_amplitude`), `PairwiseDistance.transform`, `Amplitude.transform`.
-/

namespace Gtda.Diagrams
open Gtda.Py Gtda.Parallel

variable {K Q : Type}

/-- `np.stack(matrices, axis=2)` for `n × m` matrices. Used in `parallelPairwise`, gtda/diagrams/_metrics.py:307-338. -/
def stackAxis2 {α : Type} (n m : Nat) (l : List (List (List α))) : List (List (List α)) :=
  (List.range n).map fun i => (List.range m).map fun j => l.filterMap fun M => M[i]? >>= fun r => r[j]?

/-- One task of `_parallel_pairwise`, gtda/diagrams/_metrics.py:322-328. -/
def pairwiseTask {R : Type} [DecidableEq Q] (metric : Q → List (List (Pt K Q)) → List (List (Pt K Q)) → PyM (List (List R))) (X1 X2 : List (List (Pt K Q)))
    (t : Q × (Nat × Nat)) : PyM (List (List R)) := do
  let s1 ← subdiagrams X1 [t.1]
  let s2 ← subdiagrams (pySlice (some (t.2.1 : Int)) (some (t.2.2 : Int)) 1 X2) [t.1]
  metric t.1 s1 s2

/-- `_parallel_pairwise`, gtda/diagrams/_metrics.py:307-338; `metric` takes the homology dimension to select its sampling and step size. -/
def parallelPairwise {R : Type} [DecidableEq Q] (metric : Q → List (List (Pt K Q)) → List (List (Pt K Q)) → PyM (List (List R))) (X1 X2 : List (List (Pt K Q)))
    (dims : List Q) (nJobs : Nat) : PyM (List (List (List R))) := do
  let nColumns := X2.length
  let matrices ← (perDimTasks dims nJobs nColumns).mapM (pairwiseTask metric X1 X2)
  let joined ← concatAxis1 X1.length matrices
  .ok (stackAxis2 X1.length nColumns ((List.range dims.length).map fun i =>
    joined.map fun row => pySlice (some ((i * nColumns : Nat) : Int)) (some (((i + 1) * nColumns : Nat) : Int)) 1 row))

/-- `squareform(pdist(A, d))`: distances between different rows are computed for `i < j` and mirrored, the diagonal is zero. Used in `batchDistances`, gtda/diagrams/_metrics.py:192-205, 233-293. -/
def squarePdist {V R : Type} (zero : R) (d : V → V → R) (A : List V) : List (List R) :=
  (List.range A.length).map fun i => (List.range A.length).filterMap fun j =>
    A[i]? >>= fun a => A[j]? >>= fun b => some (if i = j then zero else if i < j then d a b else d b a)

/-- The common shape of `betti_distances`, `heat_distances`, `persistence_image_distances` and `silhouette_distances`, gtda/diagrams/_metrics.py:192-205, 233-293: vectorise the
first batch by `vecs`; `pdist` if the two batches are equal, else vectorise the second batch and `cdist`. The factor from the step size is included in `d`. -/
def batchDistances {V R : Type} [DecidableEq K] [DecidableEq Q] (zero : R) (vecs : List (List (Pt K Q)) → PyM (List V)) (d : V → V → R) (Y1 Y2 : List (List (Pt K Q))) :
    PyM (List (List R)) := do
  let v1 ← vecs Y1
  if Y1 = Y2 then .ok (squarePdist zero d v1)
  else do
    let v2 ← vecs Y2
    .ok (v1.map fun a => v2.map fun b => d a b)

/-- `bottleneck_distances` and `wasserstein_distances` for an external distance engine, gtda/diagrams/_metrics.py:178-189. -/
def matchingDistances {R : Type} [DecidableEq K] (engine : List (Pt K Q) → List (Pt K Q) → R) (Y1 Y2 : List (List (Pt K Q))) : List (List R) :=
  Y1.map fun a => Y2.map fun b => engine (a.filter fun p => decide (p.b ≠ p.d)) (b.filter fun p => decide (p.b ≠ p.d))

/-- `landscapes(…).reshape(n_samples, -1)`. Used in `landscapeDistances`, gtda/diagrams/_metrics.py:208-230. -/
def flatLandscapes [Field K] [LinearOrder K] (Y : List (List (Pt K Q))) (sampling : List K) (nLayers : Nat) : List (List K) :=
  (landscapes Y sampling nLayers).map List.flatten

/-- `landscape_distances`, gtda/diagrams/_metrics.py:208-230. -/
def landscapeDistances {R : Type} [Zero R] [Field K] [LinearOrder K] [DecidableEq Q] (d : List K → List K → R) (sampling : List K) (nLayers : Nat)
    (Y1 Y2 : List (List (Pt K Q))) : List (List R) :=
  let nLayers1 := min nLayers (Y1.headD []).length
  if Y1 = Y2 then squarePdist 0 d (flatLandscapes Y1 sampling nLayers1)
  else
    let nLayers2 := min nLayers (Y2.headD []).length
    let m := max nLayers1 nLayers2
    (flatLandscapes Y1 sampling m).map fun a => (flatLandscapes Y2 sampling m).map fun b => d a b

/-- `np.linalg.norm(v, ord=p)` of a vector for finite `p > 0` (`(Σ |x|^p)^(1/p)`) or `p = inf` (`max |x|`; of an empty vector, where numpy raises `ValueError`, it is `0` here). Used in `minkowski`, gtda/diagrams/_metrics.py:203-204. -/
noncomputable def pNorm (p : ENNReal) (v : List ℝ) : ℝ :=
  if p = ⊤ then (v.map fun x => |x|).foldl max 0
  else ((v.map fun x => |x| ^ p.toReal).sum) ^ (1 / p.toReal)

/-- `step_size ** (k / p)`, with `k / inf = 0`, gtda/diagrams/_metrics.py:195, 212, 237, 262, 280. -/
noncomputable def stepFactor (k : ℝ) (p : ENNReal) (step : ℝ) : ℝ :=
  if p = ⊤ then step ^ (0 : ℝ) else step ^ (k / p.toReal)

/-- `cdist(…, "minkowski", p=p)` times the factor from the step size, on two vectors, gtda/diagrams/_metrics.py:203-204. -/
noncomputable def minkowski (p : ENNReal) (factor : ℝ) (u v : List ℝ) : ℝ := pNorm p (List.zipWith (· - ·) u v) * factor

/-- `betti_curves(diagrams, sampling)` as an array of real numbers. Used in `VecMetric.vecs`, gtda/diagrams/_metrics.py:197-203, 353. -/
noncomputable def bettiVecs (sampling : List ℝ) (Y : List (List (Pt ℝ Q))) : PyM (List (List ℝ)) := .ok ((bettiCurves Y sampling).map fun c => c.map fun (k : Nat) => (k : ℝ))

/-- `landscapes(…).reshape(len(diagrams), -1)` as used by `landscape_amplitudes`, gtda/diagrams/_metrics.py:363-364. -/
noncomputable def landscapeVecs (sampling : List ℝ) (nLayers : Nat) (Y : List (List (Pt ℝ Q))) : PyM (List (List ℝ)) := .ok (flatLandscapes Y sampling nLayers)

/-- `heats(…).reshape(len(diagrams), -1)`; `G` is the Gaussian filter. Used in `VecMetric.vecs`, gtda/diagrams/_metrics.py:197-203, 353. -/
noncomputable def heatVecs (G : List (List ℝ) → List (List ℝ)) (sampling : List ℝ) (step : ℝ) (Y : List (List (Pt ℝ Q))) : PyM (List (List ℝ)) := do
  let h ← Y.mapM (heatOne G sampling step)
  .ok (h.map List.flatten)

/-- `persistence_images(…).reshape(len(diagrams), -1)` with `weights = weight_function(sampling[:, 1])`. Used in `VecMetric.vecs`, gtda/diagrams/_metrics.py:197-203, 353. -/
noncomputable def imageVecs (G : List (List ℝ) → List (List ℝ)) (w : ℝ → ℝ) (s₀ s₁ : List ℝ) (step₀ step₁ : ℝ) (Y : List (List (Pt ℝ Q))) : PyM (List (List ℝ)) := do
  let h ← Y.mapM (imageOne G s₀ s₁ step₀ step₁ (s₁.map w))
  .ok (h.map List.flatten)

/-- `silhouettes(diagrams, sampling, power)`; entries may be NaN. See gtda/diagrams/_metrics.py:280-292, 398-405. -/
noncomputable def silhouetteVecs (power : ℝ) (sampling : List ℝ) (Y : List (List (Pt ℝ Q))) : PyM (List (List (Option ℝ))) :=
  Y.mapM (silhouetteOne (fun x => x ^ power) (decide (8 < power)) sampling)

/-- A function of a vector of numbers, giving NaN if the vector contains NaN. NaN propagation in `np.linalg.norm`, gtda/diagrams/_metrics.py:398-405. -/
def liftNan {α β : Type} (f : List α → β) (v : List (Option α)) : Option β := (v.mapM id).map f

/-- A function of two vectors of numbers, giving NaN if one of the vectors contains NaN. (For `p = inf` the C code of `cdist` skips NaN entries: this case is not modelled correctly,
no theorem uses it.) NaN propagation in `cdist`, gtda/diagrams/_metrics.py:280-292. -/
def liftNan₂ {α β : Type} (f : List α → List α → β) (u v : List (Option α)) : Option β := do
  let a ← u.mapM id
  let b ← v.mapM id
  some (f a b)

/-- The metrics of `PairwiseDistance` and `Amplitude` based on vectors of real numbers, with their fitted samplings and step sizes. Used in `VecMetric.vecs`, gtda/diagrams/_metrics.py:197-203, 353. -/
inductive VecMetric (Q : Type) where
  /-- `"betti"` -/
  | betti (sampling : Q → List ℝ) (step : Q → ℝ)
  /-- `"heat"`, with its Gaussian filter -/
  | heat (G : List (List ℝ) → List (List ℝ)) (sampling : Q → List ℝ) (step : Q → ℝ)
  /-- `"persistence_image"`, with its Gaussian filter and weight function -/
  | image (G : List (List ℝ) → List (List ℝ)) (w : ℝ → ℝ) (s₀ s₁ : Q → List ℝ) (step₀ step₁ : Q → ℝ)

/-- The vectors computed by `betti_distances`/`_amplitudes` (gtda/diagrams/_metrics.py:197-203, 353), `heat_…` (239-247, 374-375), `persistence_image_…` (265-278, 389-391). -/
noncomputable def VecMetric.vecs (M : VecMetric Q) (q : Q) : List (List (Pt ℝ Q)) → PyM (List (List ℝ)) :=
  match M with
  | .betti s _ => bettiVecs (s q)
  | .heat G s step => heatVecs G (s q) (step q)
  | .image G w s₀ s₁ step₀ step₁ => imageVecs G w (s₀ q) (s₁ q) (step₀ q) (step₁ q)

/-- The factors `step_size ** (1 / p)` (line 195), `step_size ** (2 / p)` (line 237) and `np.product(step_size) ** (1 / p)` (line 262). See gtda/diagrams/_metrics.py:192-277. -/
noncomputable def VecMetric.factor (M : VecMetric Q) (p : ENNReal) (q : Q) : ℝ :=
  match M with
  | .betti _ step => stepFactor 1 p (step q)
  | .heat _ _ step => stepFactor 2 p (step q)
  | .image _ _ _ _ step₀ step₁ => stepFactor 1 p (step₀ q * step₁ q)

/-- `_parallel_pairwise` for the metrics based on vectors of real numbers. See gtda/diagrams/_metrics.py:192-205, 233-277, 307-338. -/
noncomputable def vecPairwise [DecidableEq Q] (M : VecMetric Q) (p : ENNReal) (dims : List Q) (nJobs : Nat) (X1 X2 : List (List (Pt ℝ Q))) : PyM (List (List (List ℝ))) :=
  parallelPairwise (fun q => batchDistances 0 (M.vecs q) (minkowski p (M.factor p q))) X1 X2 dims nJobs

/-- `_parallel_pairwise` for `metric="landscape"`. See gtda/diagrams/_metrics.py:208-230, 307-338. -/
noncomputable def landscapePairwise [DecidableEq Q] (p : ENNReal) (nLayers : Nat) (sampling : Q → List ℝ) (step : Q → ℝ) (dims : List Q) (nJobs : Nat) (X1 X2 : List (List (Pt ℝ Q))) :
    PyM (List (List (List ℝ))) :=
  parallelPairwise (fun q Y1 Y2 => .ok (landscapeDistances (minkowski p (stepFactor 1 p (step q))) (sampling q) nLayers Y1 Y2)) X1 X2 dims nJobs

/-- `_parallel_pairwise` for `metric="silhouette"`. See gtda/diagrams/_metrics.py:280-292, 307-338. -/
noncomputable def silhouettePairwise [DecidableEq Q] (p : ENNReal) (power : ℝ) (sampling : Q → List ℝ) (step : Q → ℝ) (dims : List Q) (nJobs : Nat) (X1 X2 : List (List (Pt ℝ Q))) :
    PyM (List (List (List (Option ℝ)))) :=
  parallelPairwise (fun q => batchDistances (some 0) (silhouetteVecs power (sampling q)) (liftNan₂ (minkowski p (stepFactor 1 p (step q))))) X1 X2 dims nJobs

/-- `_parallel_pairwise` for `metric="bottleneck"` and `"wasserstein"`, for an external distance engine. See gtda/diagrams/_metrics.py:178-189, 307-338. -/
def matchingPairwise {R : Type} [DecidableEq K] [DecidableEq Q] (engine : List (Pt K Q) → List (Pt K Q) → R) (dims : List Q) (nJobs : Nat) (X1 X2 : List (List (Pt K Q))) :
    PyM (List (List (List R))) :=
  parallelPairwise (fun _ Y1 Y2 => .ok (matchingDistances engine Y1 Y2)) X1 X2 dims nJobs

/-- `PairwiseDistance.transform` with `order` not `None`, after `_parallel_pairwise`, gtda/diagrams/distance.py:239-240: `np.linalg.norm(Xt, axis=2, ord=order)`. -/
noncomputable def aggregate (order : ENNReal) (M : List (List (List ℝ))) : List (List ℝ) := M.map fun r => r.map (pNorm order)

/-- The same if distances may be NaN. See gtda/diagrams/distance.py:239-240. -/
noncomputable def aggregateNan (order : ENNReal) (M : List (List (List (Option ℝ)))) : List (List (Option ℝ)) := M.map fun r => r.map (liftNan (pNorm order))

/-! ### Amplitudes -/

/-- `_parallel_amplitude`, gtda/diagrams/_metrics.py:419-444; `amp` takes the homology dimension to select its sampling and step size. -/
def parallelAmplitude {R : Type} [DecidableEq Q] (amp : Q → List (List (Pt K Q)) → PyM (List R)) (dims : List Q) (nJobs : Nat) (X : List (List (Pt K Q))) : PyM (List (List R)) :=
  perDim amp dims nJobs X

/-- `bottleneck_amplitudes`, gtda/diagrams/_metrics.py:341-343: `np.linalg.norm(half_lifetimes, axis=1, ord=inf)`; `ValueError` for diagrams without points. -/
def bottleneckAmplitudes [Field K] [LinearOrder K] (Y : List (List (Pt K Q))) : PyM (List K) := Y.mapM fun D => npMax (D.map fun p => |(p.d - p.b) / 2|)

/-- `wasserstein_amplitudes`, gtda/diagrams/_metrics.py:346-348. -/
noncomputable def wassersteinAmplitudes (p : ENNReal) (Y : List (List (Pt ℝ Q))) : PyM (List ℝ) := .ok (Y.map fun D => pNorm p (D.map fun x => (x.d - x.b) / 2))

/-- The common shape of the amplitudes based on a vectorisation, gtda/diagrams/_metrics.py:351-405. -/
def batchAmplitudes {V R : Type} (vecs : List (List (Pt K Q)) → PyM (List V)) (norm : V → R) (Y : List (List (Pt K Q))) : PyM (List R) := do
  let v ← vecs Y
  .ok (v.map norm)

/-- `_parallel_amplitude` for the metrics based on vectors of real numbers. See gtda/diagrams/_metrics.py:351-357, 370-395, 419-444. -/
noncomputable def vecAmplitudes [DecidableEq Q] (M : VecMetric Q) (p : ENNReal) (dims : List Q) (nJobs : Nat) (X : List (List (Pt ℝ Q))) : PyM (List (List ℝ)) :=
  parallelAmplitude (fun q => batchAmplitudes (M.vecs q) fun v => pNorm p v * M.factor p q) dims nJobs X

/-- `_parallel_amplitude` for `metric="landscape"`. See gtda/diagrams/_metrics.py:359-367, 419-444. -/
noncomputable def landscapeAmplitudes [DecidableEq Q] (p : ENNReal) (nLayers : Nat) (sampling : Q → List ℝ) (step : Q → ℝ) (dims : List Q) (nJobs : Nat) (X : List (List (Pt ℝ Q))) :
    PyM (List (List ℝ)) :=
  parallelAmplitude (fun q => batchAmplitudes (landscapeVecs (sampling q) nLayers) fun v => pNorm p v * stepFactor 1 p (step q)) dims nJobs X

/-- `_parallel_amplitude` for `metric="silhouette"`. See gtda/diagrams/_metrics.py:398-405, 419-444. -/
noncomputable def silhouetteAmplitudes [DecidableEq Q] (p : ENNReal) (power : ℝ) (sampling : Q → List ℝ) (step : Q → ℝ) (dims : List Q) (nJobs : Nat) (X : List (List (Pt ℝ Q))) :
    PyM (List (List (Option ℝ))) :=
  parallelAmplitude (fun q => batchAmplitudes (silhouetteVecs power (sampling q)) (liftNan fun v => pNorm p v * stepFactor 1 p (step q))) dims nJobs X

/-- `Amplitude.transform` with `order` not `None`, after `_parallel_amplitude`, gtda/diagrams/features.py:394-395. -/
noncomputable def aggregateAmplitude (order : ENNReal) (M : List (List ℝ)) : List (List ℝ) := M.map fun r => [pNorm order r]

end Gtda.Diagrams
