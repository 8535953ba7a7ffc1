import Verif.Model.Raster
import Verif.Model.Silhouette

set_option autoImplicit false

/-!
# Model of the vector representations as estimators

`BettiCurve`, `PersistenceLandscape`, `HeatKernel`, `PersistenceImage` and `Silhouette` of `gtda/diagrams/representations.py` as objects: parameters that can be set
at any time, `fit` (which may fail half way), and `transform`. The computations are those of `Verif.Model.Vectorization`, `Verif.Model.Raster` and `Verif.Model.Silhouette`.

Simplifications: `n_bins` and `n_layers` are natural numbers (values of wrong types and negative values, which `fit` rejects as well, are not modelled), homology dimensions are
elements of an ordered type `Q` (so `check_diagrams`, of which the full model is in `Verif.Model.Diagrams`, has to check neither their values nor the size of the last axis), numbers are exact
and NaN is `none`. The smoothing filter of scipy, the power function and the result of converting NaN to an integer are parameters.
-/

namespace Gtda.Vectorizers
open Gtda.Py Gtda.Parallel Gtda.Diagrams

/-- The five classes, gtda/diagrams/representations.py:27, 253, 511, 730, 986. -/
inductive Kind
  | betti
  | landscape
  | silhouette
  | heat
  | image
  deriving DecidableEq, Repr

/-- Constructor parameters of all classes (each class has some of them; `n_jobs` is an argument of `transform` below), gtda/diagrams/representations.py:80-82, 312-315, 582-585,
819-824, 1055-1058. -/
structure Params (K : Type) where
  nBins : Nat
  nLayers : Nat
  sigma : K
  power : K
  weight : Option (K → K)

/-- What `_samplings` and `_step_size` hold for one homology dimension: sampled values and step for each of the two axes. Used in `fit`, gtda/diagrams/representations.py:84-130. -/
abbrev Axes (K : Type) := (List K × Option K) × (List K × Option K)

/-- An estimator: its parameters, and the attributes set by `fit` (`none`: not set). `dims` is `homology_dimensions_` together with `_n_dimensions`, `samplings` is `_samplings` together
with `_step_size` and `samplings_`, gtda/diagrams/representations.py:119-128, 352-361, 622-631, 858-878, 1095-1106. -/
structure Est (K Q : Type) where
  params : Params K
  dims : Option (List Q)
  samplings : Option (List (Q × Axes K))
  weights : Option (List (Q × List K))

/-- `__init__`, gtda/diagrams/representations.py:80-82, 312-315, 582-585, 819-824, 1055-1058: a new object has no attributes set by `fit`. -/
def new {K Q : Type} (P : Params K) : Est K Q := ⟨P, none, none, none⟩

/-- `set_params` (inherited from scikit-learn): only parameters are replaced. Used with `fit`, gtda/diagrams/representations.py:84-130. -/
def setParams {K Q : Type} (P : Params K) (e : Est K Q) : Est K Q := { e with params := P }

section
variable {K Q : Type} [Field K] [LinearOrder K]

/-- `check_diagrams`, gtda/utils/validation.py:50-87, on lists of triples: `ValueError` for no diagram, for diagrams of different lengths (they form no array), and for a point below the
diagonal. -/
def check (X : List (List (Pt K Q))) : PyM Unit :=
  if X = [] then .error .valueError
  else if (X.any fun D => decide (D.length ≠ (X.headD []).length)) = true then .error .valueError
  else if (X.any fun D => D.any fun p => decide (p.d < p.b)) = true then .error .valueError
  else .ok ()

/-- `validate_params` on `_hyperparameters`, gtda/diagrams/representations.py:76-78, 307-310, 577-580, 813-817, 1050-1053. -/
def validate (kind : Kind) (P : Params K) : PyM Unit :=
  if P.nBins < 1 then .error .valueError
  else match kind with
    | .betti => .ok ()
    | .landscape => if P.nLayers < 1 then .error .valueError else .ok ()
    | .silhouette => if P.power ≤ 0 then .error .valueError else .ok ()
    | .heat => if P.sigma ≤ 0 then .error .valueError else .ok ()
    | .image => if P.sigma ≤ 0 then .error .valueError else .ok ()

/-- `_homology_dimensions_to_sorted_ints(np.unique(X[0, :, 2]))`, gtda/diagrams/_utils.py:7-11 and gtda/diagrams/representations.py:118-120. -/
def observedDims [LinearOrder Q] (X : List (List (Pt K Q))) : List Q :=
  (((X.headD []).map fun p => p.q).dedup).insertionSort (· ≤ ·)

/-- `effective_weight_function_`, gtda/diagrams/representations.py:858-861. -/
def effectiveWeight (P : Params K) : K → K :=
  match P.weight with
  | none => fun _ => 1
  | some w => w

/-- `fit`, gtda/diagrams/representations.py:84-130, 317-363, 587-633, 826-880, 1060-1106: the object afterwards, and whether the call succeeded. If `_bin` raises, the attribute
`homology_dimensions_` has been replaced, `_samplings` and `weights_` have not. -/
def fit [LinearOrder Q] (kind : Kind) (X : List (List (Pt K Q))) (e : Est K Q) : Est K Q × PyM Unit :=
  match check X with
  | .error er => (e, .error er)
  | .ok _ =>
    match validate kind e.params with
    | .error er => (e, .error er)
    | .ok _ =>
      let dims := observedDims X
      match binSampling (decide (kind = .image)) e.params.nBins dims X with
      | .error er => ({ e with dims := some dims }, .error er)
      | .ok L =>
        ({ e with
            dims := some dims
            samplings := some (dims.zip L)
            weights := some (dims.zip (L.map fun ax => ax.2.1.map (effectiveWeight e.params))) }, .ok ())

/-- `attribute[dim]` for a dictionary attribute: `AttributeError` if it is not set, `KeyError` if there is no entry. Used in `transform`, gtda/diagrams/representations.py:161-165. -/
def entryOf {β : Type} [DecidableEq Q] (attr : Option (List (Q × β))) (q : Q) : PyM β :=
  match attr with
  | none => .error .attributeError
  | some l =>
    match l.find? fun x => decide (x.1 = q) with
    | none => .error .keyError
    | some x => .ok x.2

/-- External computations: `gaussian_filter` with a standard deviation (in pixels) for each axis, `x ** power`, and the integer to which NaN is converted. Used in `transform`,
gtda/diagrams/_metrics.py:85-175. -/
structure Engine (K : Type) where
  smooth : K → K → List (List K) → List (List K)
  pow : K → K → K
  castNaN : Int

/-- Results of `transform`, by class. Used in `transform`, gtda/diagrams/representations.py:132-170. -/
inductive Out (K : Type)
  | counts (R : List (List (List Nat)))
  | layers (R : List (List (List K)))
  | curves (R : List (List (List (Option K))))
  | images (R : List (List (List (List (Option K)))))
  deriving DecidableEq

/-- An image without NaN. Used in `transform`, gtda/diagrams/representations.py:635-674. -/
def noNaN (I : List (List K)) : List (List (Option K)) := I.map fun r => r.map some

variable [FloorRing K]

/-- `heats` for one diagram with the step computed by `_bin`, gtda/diagrams/_metrics.py:85-115. If there is one bin the step is NaN: all points are moved to the only sampled value, so that none is
off the diagonal, and the image of zeros is divided by NaN. -/
def heatItem (E : Engine K) (sigma : K) (ax : List K × Option K) (D : List (Pt K Q)) : PyM (List (List (Option K))) :=
  match ax.2 with
  | none => .ok (image2 ax.1.length fun _ _ => none)
  | some step => do
    let s := min (sigma / step) (10 ^ 5 * (ax.1.length : K))
    let H ← heatOne (E.smooth s s) ax.1 step D
    .ok (noNaN H)

/-- `persistence_images` for one diagram with the steps computed by `_bin`, gtda/diagrams/_metrics.py:118-156. If there is one bin the steps are NaN, the pixel coordinates of points whose lifetime
is not zero after clipping are NaN converted to integers, and the image is divided by NaN. -/
def imageItem (E : Engine K) (sigma : K) (ax : Axes K) (weights : List K) (D : List (Pt K Q)) : PyM (List (List (Option K))) :=
  match ax.1.2, ax.2.2 with
  | some step₀, some step₁ => do
    let H ← imageOne (E.smooth (sigma / step₀) (sigma / step₁)) ax.1.1 ax.2.1 step₀ step₁ weights D
    .ok (noNaN H)
  | _, _ => do
    let n := ax.1.1.length
    let lifetimes := D.map fun p => clipTo (ax.2.1.headD 0) (ax.2.1.getLastD 0) (p.d - p.b)
    let coords := (lifetimes.filter fun x => decide (x ≠ 0)).map fun _ => (E.castNaN, E.castNaN)
    let _ ← sampleImage n (image2 n fun _ _ => (0 : K)) coords
    .ok (image2 n fun _ _ => none)

/-- `reshape(…, n, m)` of an array whose items (for one diagram and one homology dimension) are lists of rows: `ValueError` unless the number of entries fits.
Used in `transform`, gtda/diagrams/representations.py:404-407, 671-673, 924-926. -/
def fits {β : Type} (n m : Nat) (R : List (List (List (List β)))) : PyM (List (List (List (List β)))) :=
  let items := R.flatten
  if (items.flatten.map List.length).sum = items.length * (n * m) then .ok R else .error .valueError

/-- `transform`, gtda/diagrams/representations.py:158-170, 394-409, 663-674, 910-927, 1134-1146. `check_is_fitted` looks for attributes whose name ends with an underscore. The parameters `n_layers`,
`n_bins` (in `reshape`), `sigma` and `power` are read from the object. -/
def transform [LinearOrder Q] (E : Engine K) (kind : Kind) (nJobs : Nat) (X : List (List (Pt K Q))) (e : Est K Q) : PyM (Out K) :=
  match e.dims with
  | none => .error .notFitted
  | some dims => do
    check X
    match kind with
    | .betti => do
      let R ← perDim (fun q Y => do
        let ax ← entryOf e.samplings q
        .ok (bettiCurves Y ax.1.1)) dims nJobs X
      .ok (.counts R)
    | .landscape => do
      let R ← perDim (fun q Y => do
        let ax ← entryOf e.samplings q
        .ok (landscapes Y ax.1.1 e.params.nLayers)) dims nJobs X
      let R ← fits e.params.nLayers e.params.nBins R
      .ok (.layers (R.map List.flatten))
    | .silhouette => do
      let R ← perDim (fun q Y => do
        let ax ← entryOf e.samplings q
        Y.mapM (silhouetteOne (fun x => E.pow x e.params.power) (decide (8 < e.params.power)) ax.1.1)) dims nJobs X
      .ok (.curves R)
    | .heat => do
      let R ← perDim (fun q Y => do
        let ax ← entryOf e.samplings q
        Y.mapM (heatItem E e.params.sigma ax.1)) dims nJobs X
      let R ← fits e.params.nBins e.params.nBins R
      .ok (.images R)
    | .image => do
      let R ← perDim (fun q Y => do
        let ax ← entryOf e.samplings q
        let w ← entryOf e.weights q
        Y.mapM (imageItem E e.params.sigma ax w)) dims nJobs X
      let R ← fits e.params.nBins e.params.nBins R
      .ok (.images R)

/-- What a user does with an object before calling `transform`: set parameters and call `fit`, catching exceptions. Used with `fit`, gtda/diagrams/representations.py:84-130. -/
inductive Op (K Q : Type)
  | fit (X : List (List (Pt K Q)))
  | set (P : Params K)

omit [FloorRing K] in
/-- The object after a sequence of such operations. Used with `fit`, gtda/diagrams/representations.py:84-130. -/
def run [LinearOrder Q] (kind : Kind) (ops : List (Op K Q)) (e : Est K Q) : Est K Q :=
  ops.foldl (fun e op => match op with
    | .fit X => (fit kind X e).1
    | .set P => setParams P e) e

end

end Gtda.Vectorizers
