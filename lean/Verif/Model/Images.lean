import Mathlib.Algebra.Order.Field.Basic
import Mathlib.Algebra.Order.Floor.Ring
import Mathlib.Analysis.SpecialFunctions.Sqrt
import Verif.Model.Parallel
import Verif.Model.Vectorization

set_option autoImplicit false
set_option linter.unusedSectionVars false

/-!
# Model of gtda/images

An image is a function on multi-indices (`List Nat`, one entry per axis in numpy's axis order), of which only the values inside the shape are
meaningful; a collection is a list of images of one common shape. Pixels are exact numbers (floats, and the wrap-around of unsigned integer
dtypes, are not modelled).
-/

namespace Gtda.Images
open Gtda.Py Gtda.Parallel

/-- Multi-index of a pixel. Used in `toPointCloud`, gtda/images/preprocessing.py:566-568,623-631. -/
abbrev Idx := List Nat
/-- An image: its values at multi-indices. Used in `binarizerFit`, gtda/images/preprocessing.py:94-104. -/
abbrev Img (α : Type) := Idx → α

/-- All multi-indices of an array of shape `shape`, in C order (numpy's iteration order). Used in `dilateLoop`, gtda/images/_utils.py:10-16. -/
def inds : List Nat → List Idx
  | [] => [[]]
  | d :: ds => (List.range d).flatMap fun i => (inds ds).map (i :: ·)

/-- `p` is an index of an array of shape `shape`. Used in `newPixels`, gtda/images/_utils.py:11-12. -/
def inShape : Idx → List Nat → Bool
  | [], [] => true
  | i :: p, d :: ds => decide (i < d) && inShape p ds
  | _, _ => false

variable {K : Type} [Field K] [LinearOrder K] [IsStrictOrderedRing K]

/-- All pixel values of a collection (what `np.max(X)` ranges over). Used in `binarizerFit`, gtda/images/preprocessing.py:94-104. -/
def pixels (shape : List Nat) (X : List (Img K)) : List K := X.flatMap fun x => (inds shape).map x

/-- The check `n_dimensions_ > 3 ⇒ ValueError` shared by all `fit` methods, e.g. gtda/images/filtrations.py:121-124. -/
def checkDims (shape : List Nat) : PyM Unit := if 3 < shape.length then .error .valueError else .ok ()

/-! ### gtda/images/preprocessing.py -/

/-- `Binarizer.fit`, gtda/images/preprocessing.py:94-104: `max_value_`. -/
def binarizerFit (shape : List Nat) (X : List (Img K)) : PyM K := do
  checkDims shape
  Gtda.Diagrams.npMax (pixels shape X)

/-- `Binarizer._binarize` for one pixel, gtda/images/preprocessing.py:66-69. A zero maximum divides by zero: numpy gives `nan` or `±inf`, which
exceeds the (positive) threshold only for `+inf`, i.e. for a positive pixel. -/
def binarizePixel (maxValue threshold x : K) : Bool :=
  if maxValue = 0 then decide (0 < x) else decide (threshold < x / maxValue)

/-- `Binarizer.transform`, gtda/images/preprocessing.py:129-140. -/
def binarizerTransform (maxValue threshold : K) (nJobs : Nat) (X : List (Img K)) : List (Img Bool) :=
  chunked (List.map fun x p => binarizePixel maxValue threshold (x p)) nJobs X

/-- A collection with its dtype, boolean or numeric. Used in `inverterFit`, gtda/images/preprocessing.py:261-277. -/
inductive Coll (K : Type) where
  | bools (X : List (Img Bool))
  | nums (X : List (Img K))

/-- The value of the `max_value` parameter / `max_value_` attribute of `Inverter`: a Python `bool` or a number. Used in `inverterFit`, gtda/images/preprocessing.py:261-277. -/
inductive MaxVal (K : Type) where
  | bool (b : Bool)
  | num (m : K)

/-- `Inverter.fit`, gtda/images/preprocessing.py:261-277. -/
def inverterFit (shape : List Nat) (maxValue : Option (MaxVal K)) (X : Coll K) : PyM (MaxVal K) := do
  checkDims shape
  match maxValue with
  | some m => pure m
  | none => match X with
    | .bools _ => pure (.bool true)
    | .nums x => do let m ← Gtda.Diagrams.npMax (pixels shape x); pure (.num m)

/-- `Inverter._invert` followed by concatenation of the chunks, gtda/images/preprocessing.py:233-237,301-309. `np.logical_not` of numbers is the
test for zero; `False - X` for boolean `X` is numpy's `TypeError` for boolean subtraction; a number minus a boolean image is numeric. -/
def inverterTransform (nJobs : Nat) : MaxVal K → Coll K → PyM (Coll K)
  | .bool true, .bools X => pure (.bools (chunked (List.map fun x p => !(x p)) nJobs X))
  | .bool true, .nums X => pure (.bools (chunked (List.map fun x p => decide (x p = 0)) nJobs X))
  | .bool false, .bools _ => .error .typeError
  | .bool false, .nums X => pure (.nums (chunked (List.map fun x p => 0 - x p) nJobs X))
  | .num m, .bools X => pure (.nums (chunked (List.map fun x p => m - (if x p then 1 else 0)) nJobs X))
  | .num m, .nums X => pure (.nums (chunked (List.map fun x p => m - x p) nJobs X))

/-- The numpy kinds of dtype, which decide to what a padding value is cast. Used in `padderTransform`, gtda/images/preprocessing.py:471-480. -/
inductive Dtype where
  | bool
  | int
  | float
  deriving DecidableEq

/-- Cast of a value on assignment into an array of the given dtype: truth value, truncation towards zero, or no change. Used in `padderTransform`, gtda/images/preprocessing.py:471-480. -/
def castTo [FloorRing K] : Dtype → K → K
  | .bool, v => if v = 0 then 0 else 1
  | .int, v => if 0 ≤ v then (⌊v⌋ : K) else (⌈v⌉ : K)
  | .float, v => v

/-- `Padder.fit`, gtda/images/preprocessing.py:425-447: `padding_`. -/
def padderFit (shape : List Nat) (padding : Option (List Int)) : PyM (List Int) := do
  checkDims shape
  match padding with
  | none => pure (List.replicate shape.length 1)
  | some p => if p.length ≠ shape.length then .error .valueError else pure p

/-- The multi-index `p - pad` if `p` lies in the central part of the padded array. Used in `padderTransform`, gtda/images/preprocessing.py:471-480. -/
def unpadIdx : List Nat → List Nat → Idx → Option Idx
  | [], [], [] => some []
  | w :: ws, d :: ds, i :: p =>
    if w ≤ i ∧ i < w + d then (unpadIdx ws ds p).map ((i - w) :: ·) else none
  | _, _, _ => none

/-- `np.pad(x, pad_width=((w₁, w₁), …), constant_values=fill)` of one image, with the fill value already cast. Used in `padderTransform`, gtda/images/preprocessing.py:471-480. -/
def npPad {α : Type} (ws shape : List Nat) (fill : α) (x : Img α) : Img α := fun p =>
  match unpadIdx ws shape p with
  | some q => x q
  | none => fill

/-- Shape after `np.pad`. Used in `padderTransform`, gtda/images/preprocessing.py:471-480. -/
def padShape (ws shape : List Nat) : List Nat := List.zipWith (fun w d => w + d + w) ws shape

/-- `Padder.transform`, gtda/images/preprocessing.py:471-480: new shape and images. `np.pad` rejects negative widths with `ValueError`, and assigns
the fill value into an array of the dtype of the images, i.e. casts it. -/
def padderTransform [FloorRing K] (dtype : Dtype) (padding : List Int) (value : K) (nJobs : Nat) (shape : List Nat) (X : List (Img K)) :
    PyM (List Nat × List (Img K)) :=
  if padding.any (· < 0) then .error .valueError
  else
    let ws := padding.map Int.toNat
    pure (padShape ws shape, chunked (List.map (npPad ws shape (castTo dtype value))) nJobs X)

/-- `np.flip(X, axis=1)` on one image: its rows are reversed. Used in `toPointCloud`, gtda/images/preprocessing.py:566-568,623-631. -/
def flipRows {α : Type} (shape : List Nat) (x : Img α) : Img α := fun p =>
  match p with
  | r :: t => x ((shape.headD 0 - 1 - r) :: t)
  | [] => x []

/-- Exchange of the first two entries (of an index or a shape). Used in `toPointCloud`, gtda/images/preprocessing.py:566-568,623-631. -/
def swap01 {α : Type} : List α → List α
  | a :: b :: t => b :: a :: t
  | l => l

/-- `np.swapaxes(X, 1, 2)` on one image. Used in `toPointCloud`, gtda/images/preprocessing.py:566-568,623-631. -/
def swapAxes {α : Type} (x : Img α) : Img α := fun p => x (swap01 p)

/-- `np.argwhere(x)`: indices of the non-zero pixels, in C order. Used in `toPointCloud`, gtda/images/preprocessing.py:566-568,623-631. -/
def argwhere (shape : List Nat) (x : Img K) : List Idx := (inds shape).filter fun p => decide (x p ≠ 0)

/-- `ImageToPointCloud.transform`, gtda/images/preprocessing.py:566-568,623-631. One-dimensional images have no axis 2 (numpy's `AxisError` is a
`ValueError`). -/
def toPointCloud (nJobs : Nat) (shape : List Nat) (X : List (Img K)) : PyM (List (List Idx)) :=
  if shape.length < 2 then .error .valueError
  else pure (chunked (List.map (argwhere (swap01 shape))) nJobs (X.map fun x => swapAxes (flipRows shape x)))

/-! ### gtda/images/_utils.py: the dilation loop -/

/-- Neighbours of a pixel for `scipy.ndimage`'s default structuring element (the cross: one step along one axis), inside the image. Used in `newPixels`, gtda/images/_utils.py:11-12. -/
def nbrs : List Nat → Idx → List Idx
  | d :: ds, i :: p =>
    (if 0 < i then [(i - 1) :: p] else []) ++ (if i + 1 < d then [(i + 1) :: p] else []) ++ (nbrs ds p).map (i :: ·)
  | _, _ => []

/-- `scipy.ndimage.binary_dilation(x)`: the pixel or one of its neighbours is non-zero (nothing beyond the border counts). Used in `newPixels`, gtda/images/_utils.py:11-12. -/
def binaryDilation (shape : List Nat) (x : Img K) : Img Bool := fun p =>
  decide (x p ≠ 0) || (nbrs shape p).any fun q => decide (x q ≠ 0)

/-- `Xnew` for one image, gtda/images/_utils.py:11-12. -/
def newPixels (shape : List Nat) (x : Img K) : Img Bool := fun p =>
  inShape p shape && decide (x p + (if binaryDilation shape x p then 1 else 0) = 1)

/-- `X[Xnew] = v` for one image, gtda/images/_utils.py:14. -/
def assignNew (shape : List Nat) (v : K) (x : Img K) : Img K := fun p => if newPixels shape x p then v else x p

/-- The loop of `_dilate`, gtda/images/_utils.py:10-16, over the remaining iteration numbers. The early exit looks at the whole batch. -/
def dilateLoop (shape : List Nat) (minValue : K) : List Nat → List (Img K) → List (Img K)
  | [], X => X
  | it :: its, X =>
    if X.any fun x => (inds shape).any (newPixels shape x) then
      dilateLoop shape minValue its (X.map (assignNew shape ((it : K) + minValue)))
    else X

/-- `_dilate`, gtda/images/_utils.py:8-18. -/
def dilate (shape : List Nat) (X : List (Img K)) (minIt maxIt : Nat) (minValue : K) (maxValue : Nat) : List (Img K) :=
  dilateLoop shape minValue (List.range' minIt (min maxIt maxValue + 1 - minIt)) X

/-- `_erode`, gtda/images/_utils.py:21-23. -/
def erode (shape : List Nat) (X : List (Img K)) (minIt maxIt : Nat) (minValue : K) (maxValue : Nat) : List (Img K) :=
  dilate shape (X.map fun x p => if x p = 0 then 1 else 0) minIt maxIt minValue maxValue

/-! ### gtda/images/filtrations.py: dilation, erosion, signed distance -/

/-- Attributes `n_iterations_` and `max_value_`. Used in `iterFit`, gtda/images/filtrations.py:561-576,755-770,957-972. -/
structure IterFitted where
  nIterations : Nat
  maxValue : Nat

/-- `DilationFiltration.fit`, `ErosionFiltration.fit`, `SignedDistanceFiltration.fit`, gtda/images/filtrations.py:561-576,755-770,957-972. -/
def iterFit (nIterations : Option Nat) (shape : List Nat) : PyM IterFitted := do
  checkDims shape
  let maxValue := shape.sum
  pure ⟨nIterations.getD maxValue, maxValue⟩

/-- `DilationFiltration._calculate_dilation`, gtda/images/filtrations.py:530-536. -/
def calcDilation (f : IterFitted) (shape : List Nat) (X : List (Img K)) : List (Img K) :=
  (dilate shape X 1 f.nIterations 1 f.maxValue).map fun x p => if x p = 0 then (f.maxValue : K) else x p - 1

/-- `DilationFiltration.transform`, gtda/images/filtrations.py:602-610. -/
def dilationTransform (f : IterFitted) (nJobs : Nat) (shape : List Nat) (X : List (Img K)) : List (Img K) :=
  chunked (calcDilation f shape) nJobs X

/-- `ErosionFiltration._calculate_erosion`, gtda/images/filtrations.py:724-730. -/
def calcErosion (f : IterFitted) (shape : List Nat) (X : List (Img K)) : List (Img K) :=
  (erode shape X 1 f.nIterations 1 f.maxValue).map fun x p => if x p = 0 then (f.maxValue : K) else x p - 1

/-- `ErosionFiltration.transform`, gtda/images/filtrations.py:796-804. -/
def erosionTransform (f : IterFitted) (nJobs : Nat) (shape : List Nat) (X : List (Img K)) : List (Img K) :=
  chunked (calcErosion f shape) nJobs X

/-- Lines 925-932 of `_calculate_signed_distance`, gtda/images/filtrations.py, at one pixel: `x` is the pixel, `xd` and `xe` the values of the
arrays `Xd` and `Xe` there. Used in `calcSignedDistance`, gtda/images/filtrations.py:919-932. -/
def signedPixel (maxValue : Nat) (x xd xe : K) : K :=
  let mask := decide (x = 1)
  let maskE := decide (xe = 0)
  let maskD := decide (xd = 0)
  let xe1 := if !mask then 0 else xe
  let xe2 := if mask then xe1 - 1 else xe1
  let xd1 := if mask then 0 else xd
  let xd2 := if maskD then -(maxValue : K) else xd1
  let xe3 := if maskE then (maxValue : K) else xe2
  xd2 + xe3

/-- `SignedDistanceFiltration._calculate_signed_distance`, gtda/images/filtrations.py:919-932. -/
def calcSignedDistance (f : IterFitted) (shape : List Nat) (X : List (Img K)) : List (Img K) :=
  let Xd := (dilate shape X 1 f.nIterations 0 f.maxValue).map fun x p => -(x p)
  let Xe := erode shape X 0 f.nIterations 0 f.maxValue
  List.zipWith (fun x (de : Img K × Img K) p => signedPixel f.maxValue (x p) (de.1 p) (de.2 p)) X (Xd.zip Xe)

/-- `SignedDistanceFiltration.transform`, gtda/images/filtrations.py:998-1006. -/
def signedDistanceTransform (f : IterFitted) (nJobs : Nat) (shape : List Nat) (X : List (Img K)) : List (Img K) :=
  chunked (calcSignedDistance f shape) nJobs X

/-! ### Meshes -/

/-- `axis_order = [2, 1, 3]`, gtda/images/filtrations.py:134,367, as axes of a single image (the collection's axis 0 is the sample axis). -/
def axisOrder : List Nat := [1, 0, 2]

/-- `np.stack(np.meshgrid(*ranges, indexing='xy'), axis=n)` at index `p`: in the default `'xy'` indexing range number 0 runs along axis 1 and range
number 1 along axis 0. Used in `heightFitDir`, gtda/images/filtrations.py:134-147. -/
def meshgridXY (ranges : List (List K)) (p : Idx) : List K :=
  ranges.mapIdx fun k r => r.getD (p.getD (axisOrder.getD k 0) 0) 0

/-! ### gtda/images/filtrations.py: height -/

/-- `np.arange(d)`. Used in `heightRanges`, gtda/images/filtrations.py:134-138. -/
def arange (d : Nat) : List K := (List.range d).map fun (i : Nat) => (i : K)

/-- `mesh_range_list` of `HeightFiltration.fit`, gtda/images/filtrations.py:134-138. A missing axis or a direction that is too short raises
`IndexError`. -/
def heightRanges (shape : List Nat) (dir : List K) : PyM (List (List K)) :=
  ((axisOrder.take shape.length).zipIdx).mapM fun (order, i) =>
    match dir[i]?, shape[order]? with
    | some u, some d => pure (if 0 ≤ u then arange d else (arange d).reverse.map fun (t : K) => -t)
    | _, _ => .error .indexError

/-- `np.dot` of two vectors (of equal length). Used in `calcHeight`, gtda/images/filtrations.py:88-95. -/
def dot (u v : List K) : K := (List.zipWith (· * ·) u v).sum

/-- Attributes `direction_`, `mesh_` and `max_value_` of `HeightFiltration`. Used in `heightFitDir`, gtda/images/filtrations.py:134-147. -/
structure HeightFitted (K : Type) where
  direction : List K
  mesh : Idx → List K
  maxValue : K

/-- `HeightFiltration._calculate_height` on one image, gtda/images/filtrations.py:88-95. -/
def calcHeight (direction : List K) (mesh : Idx → List K) (maxValue : K) (x : Img K) : Img K := fun p =>
  if x p ≠ 0 then dot (mesh p) direction else maxValue

/-- `direction_` of `HeightFiltration.fit`, gtda/images/filtrations.py:128-132. The zero direction, for which numpy produces `nan`, is not
represented faithfully (excluded in the theorems). -/
noncomputable def unitDirection (n : Nat) (direction : Option (List ℝ)) : List ℝ :=
  let v := direction.getD (List.replicate n 1)
  v.map fun c => c / Real.sqrt ((v.map fun a => a ^ 2).sum)

/-- `HeightFiltration.fit` from `direction_` on, gtda/images/filtrations.py:134-147. A direction that is too long makes `np.dot` raise
`ValueError`. -/
def heightFitDir (shape : List Nat) (direction : List K) : PyM (HeightFitted K) := do
  let ranges ← heightRanges shape direction
  if direction.length ≠ shape.length then .error .valueError
  else
    let mesh := meshgridXY ranges
    let m ← Gtda.Diagrams.npMax (pixels shape [calcHeight direction mesh 0 (fun _ => 1)])
    pure ⟨direction, mesh, m + 1⟩

/-- `HeightFiltration.fit`, gtda/images/filtrations.py:120-147. -/
noncomputable def heightFit (shape : List Nat) (direction : Option (List ℝ)) : PyM (HeightFitted ℝ) := do
  checkDims shape
  heightFitDir shape (unitDirection shape.length direction)

/-- `HeightFiltration.transform`, gtda/images/filtrations.py:174-182. -/
def heightTransform (f : HeightFitted K) (nJobs : Nat) (X : List (Img K)) : List (Img K) :=
  chunked (List.map (calcHeight f.direction f.mesh f.maxValue)) nJobs X

/-! ### gtda/images/filtrations.py: radial -/

/-- A float that may be `inf` or `nan`. Used in `calcRadial`, gtda/images/filtrations.py:321-328. -/
inductive XNum (K : Type) where
  | fin (x : K)
  | inf
  | nan

/-- Product of a mesh entry and a pixel (`inf * 0` is `nan`; negative pixels, for which `inf` becomes `-inf`, do not occur in binary images). Used in `calcRadial`, gtda/images/filtrations.py:321-328. -/
def XNum.mulPixel : XNum K → K → XNum K
  | .fin a, x => .fin (a * x)
  | .inf, x => if x = 0 then .nan else .inf
  | .nan, _ => .nan

/-- `np.nan_to_num(v, nan=np.inf, posinf=np.inf)`. Used in `calcRadial`, gtda/images/filtrations.py:321-328. -/
def XNum.nanToInf : XNum K → XNum K
  | .nan => .inf
  | v => v

/-- `np.nan_to_num(v, posinf=-1)` (`nan` becomes 0, the default). Used in `calcRadial`, gtda/images/filtrations.py:321-328. -/
def XNum.infToMinusOne : XNum K → K
  | .fin a => a
  | .inf => -1
  | .nan => 0

/-- Attributes `mesh_` and `max_value_` of `RadialFiltration`. Used in `radialFit`, gtda/images/filtrations.py:353-383. -/
structure RadialFitted (K : Type) where
  mesh : Idx → XNum K
  maxValue : K

/-- `RadialFiltration._calculate_radial` on one image, gtda/images/filtrations.py:321-328. -/
def calcRadial (mesh : Idx → XNum K) (maxValue : K) (x : Img K) : Img K := fun p =>
  let r := (((mesh p).mulPixel (x p)).nanToInf).infToMinusOne
  let r1 := if x p = 0 then maxValue else r
  if r1 = -1 then maxValue else r1

/-- `mesh_range_list` of `RadialFiltration.fit`, gtda/images/filtrations.py:367-369. -/
def radialRanges (shape : List Nat) : PyM (List (List K)) :=
  (axisOrder.take shape.length).mapM fun order =>
    match shape[order]? with
    | some d => pure (arange d)
    | none => .error .indexError

/-- `RadialFiltration.fit`, gtda/images/filtrations.py:353-383. `radius = none` stands for `inf`; `dist` is the metric with its parameters; a centre
of the wrong length makes `pairwise_distances` raise `ValueError`. -/
def radialFit (shape : List Nat) (center : Option (List K)) (radius : Option K) (dist : List K → List K → K) : PyM (RadialFitted K) := do
  checkDims shape
  let c := center.getD (List.replicate shape.length 0)
  let ranges ← radialRanges shape
  if c.length ≠ shape.length then .error .valueError
  else
    let mesh : Idx → XNum K := fun p =>
      let v := dist c (meshgridXY ranges p)
      match radius with
      | none => .fin v
      | some r => if r < v then .inf else .fin v
    let m ← Gtda.Diagrams.npMax (pixels shape [calcRadial mesh 0 (fun _ => 1)])
    pure ⟨mesh, m + 1⟩

/-- `RadialFiltration.transform`, gtda/images/filtrations.py:408-416. -/
def radialTransform (f : RadialFitted K) (nJobs : Nat) (X : List (Img K)) : List (Img K) :=
  chunked (List.map (calcRadial f.mesh f.maxValue)) nJobs X

/-! ### gtda/images/filtrations.py: density -/

/-- `np.roll(X, k, axis)` on one image of shape `shape`: the value at index `i` of the axis comes from index `i - k` modulo its length. Used in `calcDensity`, gtda/images/filtrations.py:1123-1133. -/
def npRoll {α : Type} (shape : List Nat) (axis : Nat) (k : Int) (x : Img α) : Img α := fun p =>
  x (p.modify axis fun (i : Nat) => (((i : Int) - k) % (shape.getD axis 1 : Nat)).toNat)

/-- Attributes of `DensityFiltration`: `n_dimensions_`, `_size`, `mask_`, `_iterator` and the fitted padder's `padding_`. Used in `densityFit`, gtda/images/filtrations.py:1157-1202. -/
structure DensityFitted where
  nDims : Nat
  size : Nat
  mask : Idx → Bool
  iterator : List (Int × Int × Int)
  padding : List Int

/-- `range(-size, size + 1)`. Used in `densityFit`, gtda/images/filtrations.py:1157-1202. -/
def symRange (size : Nat) : List Int := (List.range (2 * size + 1)).map fun (i : Nat) => (i : Int) - size

/-- `DensityFiltration.fit`, gtda/images/filtrations.py:1157-1202, for a finite radius. `dist` is the metric with its parameters (on vectors of any
length). The metric and radius are assumed to give a non-negative `_size`. -/
def densityFit [FloorRing K] (shape : List Nat) (radius : K) (dist : List K → List K → K) : PyM DensityFitted := do
  checkDims shape
  let n := shape.length
  let size := ⌈dist [0] [radius]⌉.toNat
  let full := symRange size
  let axes := List.replicate n full ++ List.replicate (3 - n) [0]
  let iterator := (axes.getD 0 []).flatMap fun i => (axes.getD 1 []).flatMap fun j => (axes.getD 2 []).map fun k => (i, j, k)
  let mesh : Idx → List K := meshgridXY (List.replicate 3 (arange (2 * size + 1)))
  let mask : Idx → Bool := fun q => decide (dist (List.replicate 3 (size : K)) (mesh q) ≤ radius)
  let padding ← padderFit (shape.take 2 ++ [(shape.drop 2).foldl (· * ·) 1])
    (some (List.replicate n (size : Int) ++ List.replicate (3 - n) 0))
  pure ⟨n, size, mask, iterator, padding⟩

/-- `DensityFiltration._calculate_density` on one (padded, 3D) image, gtda/images/filtrations.py:1123-1133. -/
def calcDensity (f : DensityFitted) (shape : List Nat) (x : Img K) : Img K := fun p =>
  f.iterator.foldl (fun acc (t : Int × Int × Int) =>
    acc + npRoll shape 0 t.1 (npRoll shape 1 t.2.1 (npRoll shape 2 t.2.2 x)) p *
      (if f.mask [((f.size : Int) + t.1).toNat, ((f.size : Int) + t.2.1).toNat, ((f.size : Int) + t.2.2).toNat] then 1 else 0)) 0

/-- `X[:, …, size: -size]` along one axis of length `d`: the list of source indices. Used in `cropShape`, gtda/images/filtrations.py:1241-1244. -/
def cropAxis (size d : Nat) : List Nat := pySlice (some (size : Int)) (some (-(size : Int))) 1 (List.range d)

/-- `Xt[:, size:-size, size:-size]`, and for 3D images also the last axis, gtda/images/filtrations.py:1241-1244: new shape and image. -/
def cropShape (n size : Nat) (shape : List Nat) : List Nat :=
  shape.mapIdx fun k d => if k < n ∨ k < 2 then (cropAxis size d).length else d

/-- The image after the cropping, see `cropShape`. Used in `densityTransform`, gtda/images/filtrations.py:1227-1248. -/
def crop {α : Type} (n size : Nat) (shape : List Nat) (x : Img α) : Img α := fun p =>
  x (p.mapIdx fun k i => if k < n ∨ k < 2 then (cropAxis size (shape.getD k 0)).getD i 0 else i)

/-- `DensityFiltration.transform`, gtda/images/filtrations.py:1227-1248. A 2D image is reshaped to depth 1, padded, processed, cropped, and
reshaped back (the sizes must agree, else `ValueError`). -/
def densityTransform [FloorRing K] (f : DensityFitted) (nJobs : Nat) (shape : List Nat) (X : List (Img K)) : PyM (List (Img K)) := do
  let shape3 := shape.take 2 ++ [(shape.drop 2).foldl (· * ·) 1]
  let X3 : List (Img K) := X.map fun x q => x (q.take shape.length)
  let (pshape, Xp) ← padderTransform .float f.padding 0 nJobs shape3 X3
  let Xd := chunked (List.map (calcDensity f pshape)) nJobs Xp
  let Xc := Xd.map (crop f.nDims f.size pshape)
  if (cropShape f.nDims f.size pshape).foldl (· * ·) 1 ≠ shape.foldl (· * ·) 1 then .error .valueError
  else pure (Xc.map fun x p => x (p ++ List.replicate (3 - shape.length) 0))

end Gtda.Images
