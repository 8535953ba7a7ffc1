import Verif.Model.Images

/-!
# Image transformers as objects

Models `Binarizer`, `Inverter` and `Padder` of `gtda/images/preprocessing.py` and `HeightFiltration`, `RadialFiltration`, `DilationFiltration`, `ErosionFiltration`, `SignedDistanceFiltration` and
`DensityFiltration` of `gtda/images/filtrations.py` as objects: parameters that can be set at any time, `fit` (which may fail half way) and `transform` (of images of any shape). The computations are
those of `Verif.Model.Images`.

Simplifications: parameters have the types they should have; collections are numpy arrays without NaN; metrics are total on vectors, `none` standing for one that `pairwise_distances` does not know;
directions are not zero vectors (numpy would compute with NaN).
-/

set_option autoImplicit false
set_option linter.unusedSectionVars false

namespace Gtda.ImageObject

open Gtda.Py Gtda.Images Gtda.Parallel

/-- `check_array(X, allow_nd=True)` for a collection of `n` images of the given shape, followed by `X.ndim - 1`: there must be a second axis, an image, and a pixel if images are one-dimensional
(`ensure_min_features` applies to two-dimensional arrays only). As in gtda/images/filtrations.py:120-121. -/
def checkArray (shape : List Nat) (n : Nat) : PyM Nat :=
  if shape = [] ∨ n = 0 ∨ shape = [0] then .error .valueError else .ok shape.length

/-- What distinguishes the classes: the check of the collection, the validation of parameters, what `fit` does afterwards with the attributes (it may raise after changing some), and `transform` after
its checks, as a function of the parameters, of `n_dimensions_`, of the other attributes, of the number of jobs and of the data. As in gtda/images/filtrations.py:97-182. -/
structure Cls (P S D O : Type) where
  array : D → PyM Nat
  validate : P → PyM Unit
  learn : P → D → S → S × PyM Unit
  body : P → Nat → S → Nat → D → PyM O

/-- An object: parameters, `n_dimensions_` (`none`: not set) and the other attributes. As in gtda/images/filtrations.py:84-86, 121, 131-144. -/
structure Obj (P S : Type) where
  params : P
  nDims : Option Nat
  attrs : S

section

variable {P S D O : Type} (c : Cls P S D O)

/-- `fit`: `n_dimensions_` is replaced before the dimension and the parameters are looked at. As in gtda/images/filtrations.py:120-147. -/
def fit (o : Obj P S) (X : D) : Obj P S × PyM Unit :=
  match c.array X with
  | .error e => (o, .error e)
  | .ok n =>
      if 3 < n then ({ o with nDims := some n }, .error .valueError)
      else
        match c.validate o.params with
        | .error e => ({ o with nDims := some n }, .error e)
        | .ok () => (⟨o.params, some n, (c.learn o.params X o.attrs).1⟩, (c.learn o.params X o.attrs).2)

/-- `transform`: `check_is_fitted` asks for some attribute whose name ends in `_`, and `n_dimensions_` is set first of all. As in gtda/images/filtrations.py:174-182. -/
def transform (o : Obj P S) (nJobs : Nat) (X : D) : PyM O :=
  match o.nDims with
  | none => .error .notFitted
  | some n => do
      let _ ← c.array X
      c.body o.params n o.attrs nJobs X

/-- What is done with an object (`fit_transform` is `fit` and `transform`). As in gtda/images/filtrations.py:25-182. -/
inductive Op (P D : Type) where
  | setParams (p : P)
  | fit (X : D)
  | transform (nJobs : Nat) (X : D)

/-- The object after one operation, whether it raises or not. As in gtda/images/filtrations.py:25-182. -/
def step (o : Obj P S) : Op P D → Obj P S
  | .setParams p => { o with params := p }
  | .fit X => (fit c o X).1
  | .transform _ _ => o

/-- The object after a history. As in gtda/images/filtrations.py:25-182. -/
def run (o : Obj P S) (ops : List (Op P D)) : Obj P S := ops.foldl (step c) o

end

/-- A collection of images of one shape. As in gtda/images/filtrations.py:97-104. -/
structure Batch (α : Type) where
  shape : List Nat
  images : List (Img α)

/-- What a computation that may raise leaves of an attribute: the new value, or the old one. As in gtda/images/preprocessing.py:102. -/
def store {A : Type} (r : PyM A) (s : Option A) : Option A × PyM Unit :=
  match r with
  | .error e => (s, .error e)
  | .ok a => (some a, .ok ())

variable {K : Type} [Field K] [LinearOrder K] [IsStrictOrderedRing K]

/-! ### gtda/images/preprocessing.py -/

/-- `Binarizer` with parameter `threshold` and attribute `max_value_`, gtda/images/preprocessing.py:58-69, 94-104, 129-140. `transform` reads the present `threshold`. -/
def binarizerCls : Cls K (Option K) (Batch K) (List (Img Bool)) where
  array X := checkArray X.shape X.images.length
  validate t := if 0 < t ∧ t ≤ 1 then .ok () else .error .valueError
  learn _ X s := store (binarizerFit X.shape X.images) s
  body t _ s nJobs X :=
    match s with
    | none => .error .attributeError
    | some m => .ok (binarizerTransform m t nJobs X.images)

/-- A collection of boolean or numeric images. As in gtda/images/preprocessing.py:261-273. -/
structure CBatch (K : Type) where
  shape : List Nat
  coll : Coll K

/-- Number of images. As in gtda/images/preprocessing.py:306. -/
def CBatch.count {K : Type} (X : CBatch K) : Nat :=
  match X.coll with
  | .bools l => l.length
  | .nums l => l.length

/-- `Inverter` with parameter `max_value` and attribute `max_value_`, gtda/images/preprocessing.py:225-237, 261-277, 301-309. -/
def inverterCls : Cls (Option (MaxVal K)) (Option (MaxVal K)) (CBatch K) (Coll K) where
  array X := checkArray X.shape X.count
  validate _ := .ok ()
  learn p X s := store (inverterFit X.shape p X.coll) s
  body _ _ s nJobs X :=
    match s with
    | none => .error .attributeError
    | some m => inverterTransform nJobs m X.coll

/-- A collection with its dtype. As in gtda/images/preprocessing.py:471-480. -/
structure TBatch (K : Type) where
  dtype : Dtype
  shape : List Nat
  images : List (Img K)

/-- `Padder` with parameters `padding` and `value` and attribute `_pad_width`, gtda/images/preprocessing.py:392-401, 425-447, 471-480. `value` is read by `transform` and never validated; `np.pad`
refuses widths for another number of axes. -/
def padderCls [FloorRing K] : Cls (Option (List Int) × K) (Option (List Int)) (TBatch K) (List Nat × List (Img K)) where
  array X := checkArray X.shape X.images.length
  validate _ := .ok ()
  learn p X s := store (padderFit X.shape p.1) s
  body p _ s nJobs X :=
    match s with
    | none => .error .attributeError
    | some w => if w.length ≠ X.shape.length then .error .valueError else padderTransform X.dtype w p.2 nJobs X.shape X.images

/-! ### gtda/images/filtrations.py: dilation, erosion, signed distance -/

/-- Which of `DilationFiltration`, `ErosionFiltration`, `SignedDistanceFiltration`, gtda/images/filtrations.py:462, 656, 850. -/
inductive Kind where
  | dilation
  | erosion
  | signed
  deriving DecidableEq

/-- The computation of `transform`, gtda/images/filtrations.py:530-536, 724-730, 919-932. -/
def Kind.calc (k : Kind) (f : IterFitted) (nJobs : Nat) (shape : List Nat) (X : List (Img K)) : List (Img K) :=
  match k with
  | .dilation => dilationTransform f nJobs shape X
  | .erosion => erosionTransform f nJobs shape X
  | .signed => signedDistanceTransform f nJobs shape X

/-- The three classes with parameter `n_iterations` and attributes `n_iterations_` and `max_value_`, gtda/images/filtrations.py:521-576, 602-610, 715-770, 796-804, 910-972, 998-1006. -/
def iterCls (k : Kind) : Cls (Option Int) (Option IterFitted) (Batch K) (List (Img K)) where
  array X := checkArray X.shape X.images.length
  validate n := if n.any fun n => decide (n < 1) then .error .valueError else .ok ()
  learn n X s := store (iterFit (n.map Int.toNat) X.shape) s
  body _ _ s nJobs X :=
    match s with
    | none => .error .attributeError
    | some f => .ok (k.calc f nJobs X.shape X.images)

/-! ### gtda/images/filtrations.py: height -/

/-- Attributes `direction_`, `mesh_` (with the shape of its images) and `max_value_`, gtda/images/filtrations.py:128-145. -/
structure HeightAttrs (K : Type) where
  direction : Option (List K)
  mesh : Option (List Nat × (Idx → List K))
  maxValue : Option K

/-- `HeightFiltration` with parameter `direction`, gtda/images/filtrations.py:80-95, 128-147, 174-182; `unit` gives `direction_`. The attributes are replaced one after the other: `direction_` before
a coordinate of it can be missing, `mesh_` and `max_value_ = 0.` before it can turn out to be too long or there can be no pixel. In `transform` an active pixel outside of the mesh raises `IndexError`.
Simplification: images with another number of axes always raise `ValueError`. -/
def heightCls (unit : Nat → Option (List K) → List K) : Cls (Option (List K)) (HeightAttrs K) (Batch K) (List (Img K)) where
  array X := checkArray X.shape X.images.length
  validate _ := .ok ()
  learn p X s :=
    let d := unit X.shape.length p
    let s1 := { s with direction := some d }
    match heightRanges X.shape d with
    | .error e => (s1, .error e)
    | .ok ranges =>
        let mesh := meshgridXY ranges
        let s2 := { s1 with mesh := some (X.shape, mesh), maxValue := some 0 }
        if d.length ≠ X.shape.length then (s2, .error .valueError)
        else
          match Gtda.Diagrams.npMax (pixels X.shape [calcHeight d mesh 0 (fun _ => 1)]) with
          | .error e => (s2, .error e)
          | .ok m => ({ s2 with maxValue := some (m + 1) }, .ok ())
  body _ _ s nJobs X :=
    match s.maxValue, s.mesh, s.direction with
    | some M, some (sh, mesh), some d =>
        if sh.length ≠ X.shape.length then .error .valueError
        else do
          X.images.forM fun x =>
            if (inds X.shape).any fun p => decide (x p ≠ 0) && !inShape p sh then .error .indexError
            else if d.length ≠ sh.length then .error .valueError else .ok ()
          .ok (chunked (List.map (calcHeight d mesh M)) nJobs X.images)
    | _, _, _ => .error .attributeError

/-! ### gtda/images/filtrations.py: radial -/

/-- Parameters `center` (of integers), `radius` (`none`: infinite) and `metric` with its parameters (`none`: unknown to `pairwise_distances`), gtda/images/filtrations.py:313-319. -/
structure RadialParams (K : Type) where
  center : Option (List Int)
  radius : Option K
  metric : Option (List K → List K → K)

/-- Attributes `mesh_`, with its shape, and `max_value_` (`center_` is not read by `transform`), gtda/images/filtrations.py:371-381. -/
structure RadialAttrs (K : Type) where
  mesh : Option (List Nat × (Idx → XNum K))
  maxValue : Option K

/-- The product `mesh_ * X` and the masking of one image: broadcasting of a mesh of shape `sh` along the last axes of an image of shape `shape`, at one pixel, gtda/images/filtrations.py:322. -/
def broadcastIdx (sh shape : List Nat) (p : Idx) : Idx :=
  List.zipWith (fun a i => if a = 1 then 0 else i) sh (p.drop (shape.length - sh.length))

/-- `RadialFiltration`, gtda/images/filtrations.py:306-328, 361-383, 408-416. For a while `mesh_` is the array of coordinates of the pixels, one row per pixel; it remains so if `pairwise_distances`
raises, because of an unknown metric, a centre of the wrong length or because there is no pixel. In `transform`, axes of `mesh_` and of the images must have the same length or one of them length 1;
in the latter case, if it is the image's, the boolean mask does not fit the product (`IndexError`). Simplification: images with fewer axes than `mesh_` always raise `ValueError`. -/
def radialCls : Cls (RadialParams K) (RadialAttrs K) (Batch K) (List (Img K)) where
  array X := checkArray X.shape X.images.length
  validate p := if p.radius.any fun r => decide (r ≤ 0) then .error .valueError else .ok ()
  learn p X s :=
    let n := X.shape.length
    let c : List K := (p.center.map fun l => l.map fun (a : Int) => (a : K)).getD (List.replicate n 0)
    match radialRanges (K := K) X.shape with
    | .error e => (s, .error e)
    | .ok ranges =>
        let s1 := { s with mesh := some ([(inds X.shape).length, n],
          fun q => .fin ((meshgridXY ranges ((inds X.shape).getD (q.getD 0 0) [])).getD (q.getD 1 0) 0)) }
        match p.metric with
        | none => (s1, .error .valueError)
        | some dist =>
            if c.length ≠ n ∨ (inds X.shape).length = 0 then (s1, .error .valueError)
            else
              let mesh : Idx → XNum K := fun q =>
                let v := dist c (meshgridXY ranges q)
                match p.radius with
                | none => .fin v
                | some r => if r < v then .inf else .fin v
              match Gtda.Diagrams.npMax (pixels X.shape [calcRadial mesh 0 (fun _ => 1)]) with
              | .error e => (⟨some (X.shape, mesh), some 0⟩, .error e)
              | .ok m => (⟨some (X.shape, mesh), some (m + 1)⟩, .ok ())
  body _ _ s nJobs X :=
    match s.mesh with
    | none => .error .attributeError
    | some (sh, mesh) =>
        let axes := sh.zip (X.shape.drop (X.shape.length - sh.length))
        if X.shape.length < sh.length then .error .valueError
        else if axes.any fun ab => decide (ab.1 ≠ ab.2 ∧ ab.1 ≠ 1 ∧ ab.2 ≠ 1) then .error .valueError
        else
          match s.maxValue with
          | none => .error .attributeError
          | some M =>
              if axes.any fun ab => decide (ab.2 = 1 ∧ ab.1 ≠ 1) then .error .indexError
              else .ok (chunked (List.map (calcRadial (fun p => mesh (broadcastIdx sh X.shape p)) M)) nJobs X.images)

/-! ### gtda/images/filtrations.py: density -/

/-- Parameters `radius` (`none`: infinite) and `metric` with its parameters (`none`: unknown to `pairwise_distances`), gtda/images/filtrations.py:1116-1121. -/
structure DensityParams (K : Type) where
  radius : Option K
  metric : Option (List K → List K → K)

/-- Attributes: `_size`, `mask_` and `_iterator`, which are set together, and the padding of `_padder`, gtda/images/filtrations.py:1166-1200. -/
structure DensityAttrs where
  ball : Option (Nat × (Idx → Bool) × List (Int × Int × Int))
  padding : Option (List Int)

/-- `_size`, `mask_` and `_iterator` for images with `n` axes, gtda/images/filtrations.py:1166-1193. -/
def densityBall [FloorRing K] (n : Nat) (radius : K) (dist : List K → List K → K) : Nat × (Idx → Bool) × List (Int × Int × Int) :=
  let size := ⌈dist [0] [radius]⌉.toNat
  let axes := List.replicate n (symRange size) ++ List.replicate (3 - n) [0]
  (size, fun q => decide (dist (List.replicate 3 (size : K)) (meshgridXY (List.replicate 3 (arange (2 * size + 1))) q) ≤ radius),
    (axes.getD 0 []).flatMap fun i => (axes.getD 1 []).flatMap fun j => (axes.getD 2 []).map fun k => (i, j, k))

/-- Shape of the images after `X.reshape((*X.shape[:3], -1))`, gtda/images/filtrations.py:1200, 1232. -/
def shape3 (shape : List Nat) : List Nat := shape.take 2 ++ [(shape.drop 2).foldl (· * ·) 1]

/-- `DensityFiltration`, gtda/images/filtrations.py:1110-1133, 1165-1202, 1227-1248. An infinite radius makes the conversion of its size to an integer raise `OverflowError`; the reshaping raises
`ValueError` if one of the first two axes is empty; the padder refuses one-dimensional images, after the ball has been replaced. `transform` crops the third axis if `n_dimensions_` is 3.
Images with more than three axes are outside of the model of `transform`. -/
def densityCls [FloorRing K] : Cls (DensityParams K) DensityAttrs (Batch K) (List (Img K)) where
  array X := checkArray X.shape X.images.length
  validate p := if p.radius.any fun r => decide (r ≤ 0) then .error .valueError else .ok ()
  learn p X s :=
    match p.metric with
    | none => (s, .error .valueError)
    | some dist =>
        match p.radius with
        | none => (s, .error .overflowError)
        | some r =>
            let n := X.shape.length
            let ball := densityBall n r dist
            let s1 := { s with ball := some ball }
            if (X.shape.take 2).contains 0 then (s1, .error .valueError)
            else
              match padderFit (shape3 X.shape) (some (List.replicate n (ball.1 : Int) ++ List.replicate (3 - n) 0)) with
              | .error e => (s1, .error e)
              | .ok w => ({ s1 with padding := some w }, .ok ())
  body _ n s nJobs X :=
    if 3 < X.shape.length then .error .notImplemented
    else if (X.shape.take 2).contains 0 then .error .valueError
    else
      match s.padding, s.ball with
      | some w, some (size, mask, iterator) =>
          if w.length ≠ (shape3 X.shape).length then .error .valueError
          else densityTransform ⟨if n = 3 then 3 else 2, size, mask, iterator, w⟩ nJobs X.shape X.images
      | _, _ => .error .attributeError

end Gtda.ImageObject
