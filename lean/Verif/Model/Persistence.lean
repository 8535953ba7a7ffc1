import Verif.Model.Homology
import Verif.Model.MapperCluster
import Verif.Model.Validation
import Mathlib.Data.List.Sort

set_option autoImplicit false

/-!
# Model of the persistent homology transformers around their engines

`gtda/homology/simplicial.py` and `gtda/homology/cubical.py`. The engines (ripser, flagser, GUDHI) are arbitrary functions; everything done before and after calling them is modelled:
the sorting of `homology_dimensions`, the default of `infinity_values`, the parallel loop over samples, the padding of flagser's output, the common postprocessing, the
effective parameters of the weighted filtrations, and the flattening of images. Checks of the input arrays are modelled in `Verif/Model/InputChecks.lean`.
-/

namespace Gtda.Persistence
open Gtda.Py Gtda.Parallel Gtda.Diagrams Gtda.Validation

/-! ### Fitting and transforming -/

section
variable {V S : Type} [LinearOrder V]

/-- What `fit` stores. Used in `fit`, gtda/homology/simplicial.py:235-243. -/
structure Fitted (V : Type) where
  dims : List Nat
  minDim : Nat
  maxDim : Nat
  inf : V
  deriving DecidableEq, Repr

/-- The part of `fit` common to all transformers, for example gtda/homology/simplicial.py:235-243 and 1664-1673. `default` is `max_edge_length` (`max_edge_weight`, the largest pixel
value). `sorted([])[-1]` raises `IndexError`. -/
def fit (homologyDimensions : List Nat) (infinityValues : Option V) (default : V) : PyM (Fitted V) :=
  let inf := match infinityValues with
    | none => default
    | some v => v
  let dims := homologyDimensions.insertionSort (· ≤ ·)
  match dims.head?, dims.getLast? with
  | some a, some b => .ok ⟨dims, a, b, inf⟩
  | _, _ => .error .indexError

/-- The part of `transform` common to all transformers, for example gtda/homology/simplicial.py:302-309. `order` is the order in which the parallel tasks are executed; `diagram f x` is
the result of the engine for the sample `x`. -/
def transform (fmt : Format) (diagram : Fitted V → S → RawDiagram V) (zero lowest : V) (reduced : Bool) (garbage : Nat → Nat → Pt V Nat) (order : List Nat) (f : Fitted V)
    (X : List S) : PyM (List (List (Pt V Nat))) := do
  let Xt ← Mapper.scheduled (X.map fun x _ => .ok (diagram f x)) order
  postprocess fmt f.dims f.inf zero lowest reduced garbage Xt

/-- `fit_transform`. Models `TransformerMixin` of scikit-learn applied to gtda/homology/simplicial.py:235-290. -/
def fitTransform (fmt : Format) (diagram : Fitted V → S → RawDiagram V) (homologyDimensions : List Nat) (infinityValues : Option V) (default zero lowest : V) (reduced : Bool)
    (garbage : Nat → Nat → Pt V Nat) (order : List Nat) (X : List S) : PyM (List (List (Pt V Nat))) := do
  let f ← fit homologyDimensions infinityValues default
  transform fmt diagram zero lowest reduced garbage order f X

/-- `_ripser_diagram` of `VietorisRipsPersistence` (gtda/homology/simplicial.py:176-184), and likewise of `WeightedRipsPersistence` (545-558) and `WeakAlphaPersistence` (1126-1130).
`engine maxdim x` is `ripser(x, maxdim=maxdim, …)["dgms"]`. -/
def ripserDiagram (engine : Nat → S → List (List (Raw V × Raw V))) (f : Fitted V) (x : S) : RawDiagram V := .byDim (engine f.maxDim x)

/-- `_flagser_diagram`, gtda/homology/simplicial.py:1611-1625. `engine lo hi x` is `flagser_weighted(x, min_dimension=lo, max_dimension=hi, …)["dgms"]`. A negative multiple of a list is
empty. -/
def flagserDiagram (engine : Nat → Nat → S → List (List (Raw V × Raw V))) (f : Fitted V) (x : S) : RawDiagram V :=
  let Xdgms := List.replicate f.minDim [] ++ engine f.minDim f.maxDim x
  let missing : Int := (f.maxDim : Int) + 1 - (Xdgms.length : Int)
  .byDim (if missing ≠ 0 then Xdgms ++ List.replicate missing.toNat [] else Xdgms)

/-- `_gudhi_diagram` of `SparseRipsPersistence` (gtda/homology/simplicial.py:855-868) and `EuclideanCechPersistence` (1348-1356). `engine d x` are the pairs of the complex of dimension
`d`. -/
def gudhiDiagram (engine : Nat → S → List (Nat × (Raw V × Raw V))) (f : Fitted V) (x : S) : RawDiagram V := .gudhi (engine (f.maxDim + 1) x)

end

/-! ### Weighted filtrations -/

/-- The parameter `weights`. Used in `effectiveWeightParams`, gtda/homology/simplicial.py:603-615. -/
inductive Weights
  | str (s : String)
  | fn
  deriving DecidableEq, Repr

/-- `d.update(e)` for dictionaries in order of insertion. Used in `effectiveWeightParams`, gtda/homology/simplicial.py:603-615. -/
def dictUpdate (d e : List (String × PyVal)) : List (String × PyVal) :=
  e.foldl (fun acc p => if acc.any (fun q => decide (q.1 = p.1)) then acc.map (fun q => if q.1 = p.1 then (q.1, p.2) else q) else acc ++ [p]) d

/-- `x in [1, 2, np.inf]` (`True == 1`). Used in `ripsWeightRefs`, gtda/homology/simplicial.py:25-35. -/
def isOneTwoInf : PyVal → Bool
  | .bool b => b
  | .int n => decide (n = 1 ∨ n = 2)
  | .float x => decide (x = 1 ∨ x = 2)
  | .floatInf => true
  | _ => false

/-- `x in Interval(0, np.inf, closed="right")`. Used in `ripsWeightRefs`, gtda/homology/simplicial.py:25-35. -/
def positiveOrInf : PyVal → Bool
  | .bool b => b
  | .int n => decide (0 < n)
  | .float x => decide (0 < x)
  | .floatInf => true
  | _ => false

/-- `_AVAILABLE_RIPS_WEIGHTS`, gtda/homology/simplicial.py:25-35 (`numbers.Integral` is read as `int`). -/
def ripsWeightRefs (dtm : Bool) : Refs :=
  if dtm then
    .cons "p" (.mk (some (.one .real)) (some isOneTwoInf) none .none)
      (.cons "r" (.mk (some (.one .real)) (some positiveOrInf) none .none)
        (.cons "n_neighbors" (.mk (some (.one .int)) (some atLeastOne) none .none) .nil))
  else .cons "p" (.mk (some (.one .real)) (some isOneTwoInf) none .none) .nil

/-- `effective_weight_params_`, gtda/homology/simplicial.py:603-615. -/
def effectiveWeightParams (w : Weights) (params : List (String × PyVal)) : PyM (List (String × PyVal)) :=
  match w with
  | .str s =>
    if s ≠ "DTM" then .error .valueError
    else
      let d := dictUpdate [("p", .int 1)] [("n_neighbors", .int 3), ("r", .int 2)]
      if params.isEmpty then .ok d
      else do
        validateParams (dictUpdate d params) (ripsWeightRefs true) []
        pure (dictUpdate d params)
  | .fn =>
    if params.isEmpty then .ok [("p", .int 1)]
    else do
      validateParams (dictUpdate [("p", .int 1)] params) (ripsWeightRefs false) []
      pure (dictUpdate [("p", .int 1)] params)

/-! ### Images -/

/-- An n-dimensional array: its shape and its entries. Used in `flattenF`, gtda/homology/cubical.py:124. -/
structure NArr (V : Type) where
  shape : List Nat
  val : List Nat → V

/-- The indices of an array in column-major order: the first coordinate varies fastest. Used in `flattenF`, gtda/homology/cubical.py:124. -/
def fIndices : List Nat → List (List Nat)
  | [] => [[]]
  | n :: t => (fIndices t).flatMap fun I => (List.range n).map fun i => i :: I

/-- The indices of an array in row-major order: the last coordinate varies fastest. Used in `maxPixel`, gtda/homology/cubical.py:168-172. -/
def cIndices : List Nat → List (List Nat)
  | [] => [[]]
  | n :: t => (List.range n).flatMap fun i => (cIndices t).map fun I => i :: I

/-- `X.flatten(order="F")`, gtda/homology/cubical.py:124. -/
def flattenF {V : Type} (X : NArr V) : List V := (fIndices X.shape).map X.val

/-- `np.max(X)` of the collection, or `max(map(np.max, X))`, gtda/homology/cubical.py:168-172: `ValueError` for empty arrays. The collection is a list of images. -/
def maxPixel {V : Type} [LinearOrder V] (X : List (NArr V)) : PyM V := do
  let ms ← X.mapM fun x => match (cIndices x.shape).map x.val with
    | [] => .error .valueError
    | v :: t => .ok (t.foldl max v)
  match ms with
  | [] => .error .valueError
  | m :: t => .ok (t.foldl max m)

/-- What `CubicalPersistence.fit` stores besides the common part, gtda/homology/cubical.py:156-166: `periodic_dimensions_`, and `none` for `CubicalComplex` or the argument of
`PeriodicCubicalComplex`. -/
def cubicalPeriodic (nSamples : Nat) (periodic : Option (List Bool)) : List Bool × Option (List Bool) :=
  match periodic with
  | none => (List.replicate (nSamples - 1) false, none)
  | some p => if (p.filter id).length = 0 then (List.replicate (nSamples - 1) false, none) else (p, some p)

/-- `_gudhi_diagram` of `CubicalPersistence`, gtda/homology/cubical.py:121-130. `engine dimensions cells periodic` are the pairs reported by GUDHI. -/
def cubicalDiagram {V : Type} (engine : List Nat → List V → Option (List Bool) → List (Nat × (Raw V × Raw V))) (periodic : Option (List Bool)) (X : NArr V) : RawDiagram V :=
  .gudhi (engine X.shape (flattenF X) periodic)

/-- `CubicalPersistence(…).fit(X).transform(Y)`, gtda/homology/cubical.py:132-223. -/
def cubicalFitTransform {V : Type} [LinearOrder V] (engine : List Nat → List V → Option (List Bool) → List (Nat × (Raw V × Raw V))) (homologyDimensions : List Nat)
    (infinityValues : Option V) (periodic : Option (List Bool)) (zero lowest : V) (reduced : Bool) (garbage : Nat → Nat → Pt V Nat) (order : List Nat) (X Y : List (NArr V)) :
    PyM (List (List (Pt V Nat))) := do
  let default ← match infinityValues with
    | none => maxPixel X
    | some v => .ok v
  let f ← fit homologyDimensions infinityValues default
  transform .gudhi (fun _ x => cubicalDiagram engine (cubicalPeriodic X.length periodic).2 x) zero lowest reduced garbage order f Y

end Gtda.Persistence
