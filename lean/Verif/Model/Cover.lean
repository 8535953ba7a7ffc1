import Verif.Py.Basic
import Mathlib.Algebra.Order.Field.Basic
import Mathlib.Algebra.Order.Floor.Ring
import Mathlib.Data.List.Sort
import Mathlib.Data.List.Dedup

set_option autoImplicit false

/-!
# Model of `gtda/mapper/cover.py` and `gtda/mapper/utils/_cover.py`

Filter values are elements of an ordered field (exact arithmetic instead of floats). Data is a column (list of values) in one dimension and a list of columns
for `CubicalCover`. An interval limit is an `Option`: `none` is `-inf` as a left limit and `+inf` as a right limit. A mask matrix is the list of its
columns, one per interval. Input validation is not modelled.
-/

namespace Gtda.Mapper
open Gtda.Py

section
variable {K : Type} [Field K] [LinearOrder K]

/-- `np.linspace(a, b, num=n, endpoint=True)` for `n ≥ 1`. (For `n = 1` the step is `(b - a) / 0 = 0` here and the result `[a]`, as in numpy.) Used in `coverLimits`, gtda/mapper/cover.py:322-337. -/
def linspace (a b : K) (n : Nat) : List K :=
  (List.range n).map fun (i : Nat) => a + (i : K) * ((b - a) / ((n : K) - 1))

/-- `OneDimensionalCover._cover_limits`, gtda/mapper/cover.py:322-337. -/
def coverLimits (minVal maxVal : K) (n : Nat) (f : K) : List K × List K :=
  let totalLen := maxVal - minVal
  let intervalLen := totalLen / ((n : K) - ((n : K) - 1) * f)
  let last := minVal + ((n : K) - 1) * (1 - f) * intervalLen
  let left := linspace minVal last n
  (left, left.map (· + intervalLen))

/-- An open interval with possibly infinite limits. Used in `inIval`, gtda/mapper/cover.py:154. -/
abbrev Ival (K : Type) := Option K × Option K

/-- `x > left and x < right`, gtda/mapper/cover.py:154. -/
def inIval (I : Ival K) (x : K) : Bool :=
  (match I.1 with | none => true | some l => decide (l < x)) && (match I.2 with | none => true | some r => decide (x < r))

/-- `left[0] = -inf; right[-1] = inf` on lists of limits, gtda/mapper/cover.py:297 and 318-319. -/
def openEnds (ls rs : List (Option K)) : List (Ival K) :=
  (ls.set 0 none).zip (rs.set (rs.length - 1) none)

/-- `OneDimensionalCover._fit_uniform` with `_find_interval_limits(is_uniform=True)`, gtda/mapper/cover.py:98-101, 277-298. `np.min` of an empty array
raises `ValueError`. -/
def fitUniform (n : Nat) (f : K) (X : List K) : PyM (List (Ival K)) :=
  match X with
  | [] => .error .valueError
  | x :: t =>
    let minVal := t.foldl min x
    let maxVal := t.foldl max x
    if minVal = maxVal ∧ 1 < n then .error .valueError
    else
      let (l, r) := coverLimits minVal maxVal n f
      .ok (openEnds (l.map some) (r.map some))

/-- `scipy.stats.rankdata(X, method='dense') - 1`: the number of distinct smaller values. Used in `fitBalanced`, gtda/mapper/cover.py:103-115, 300-320. -/
def denseRank (X : List K) : List Nat := X.map fun x => ((X.filter (· < x)).dedup).length

/-- `_find_interval_limits(X_rank, …, is_uniform=False)`, gtda/mapper/cover.py:282-298. -/
def balancedLimits (n : Nat) (f : K) (ranks : List Nat) : PyM (List K × List K) :=
  match ranks with
  | [] => .error .valueError
  | r :: t =>
    let minVal : K := -(1 / 2)
    let maxVal : K := ((t.foldl max r : Nat) : K) + 1 / 2
    if minVal = maxVal - 1 ∧ 1 < n then .error .valueError
    else .ok (coverLimits minVal maxVal n f)

/-- `x.astype(int)`: truncation towards zero. Used in `leftRank`, gtda/mapper/cover.py:107-108. -/
def truncInt [FloorRing K] (x : K) : Int := if 0 ≤ x then ⌊x⌋ else ⌈x⌉

/-- `np.where(left >= 0, left.astype(int), -1)`, gtda/mapper/cover.py:107-108. -/
def leftRank [FloorRing K] (l : K) : Int := if 0 ≤ l then truncInt l else -1

/-- gtda/mapper/cover.py:109-112. -/
def rightRank [FloorRing K] (r : K) : Int := if (truncInt r : K) = r then truncInt r else truncInt r + 1

/-- The value of the first sample with the given rank, if any (`X[nonzero_indices[0]] if nonzero_indices.size else ±inf`), gtda/mapper/cover.py:304-317. -/
def valueOfRank (X : List K) (ranks : List Nat) (rk : Int) : Option K :=
  ((X.zip ranks).find? fun p => (p.2 : Int) = rk).map Prod.fst

/-- `OneDimensionalCover._fit_balanced` with `_limits_from_ranks`, gtda/mapper/cover.py:103-115, 300-320. -/
def fitBalanced [FloorRing K] (n : Nat) (f : K) (X : List K) : PyM (List (Ival K)) := do
  let ranks := denseRank X
  let (l, r) ← balancedLimits n f ranks
  pure (openEnds (l.map fun x => valueOfRank X ranks (leftRank x)) (r.map fun x => valueOfRank X ranks (rightRank x)))

/-- `OneDimensionalCover._transform`, gtda/mapper/cover.py:153-154. -/
def coverMasks (ivs : List (Ival K)) (X : List K) : List (List Bool) := ivs.map fun I => X.map (inIval I)

/-- `OneDimensionalCover._fit_transform_balanced`, gtda/mapper/cover.py:197-213: masks (and the limits it stores privately). -/
def fitTransformBalanced (n : Nat) (f : K) (X : List K) : PyM (List (List Bool) × (List K × List K)) := do
  let ranks := denseRank X
  let (l, r) ← balancedLimits n f ranks
  pure ((l.zip r).map fun p => ranks.map fun (k : Nat) => decide (p.1 < (k : K)) && decide ((k : K) < p.2), (l, r))

end

/-! ### Cleaning of masks (gtda/mapper/utils/_cover.py:9-16) -/

/-- Lexicographic comparison of boolean columns (any total order would do: it is undone by the final `argsort`). Used in `cleanMasks`, gtda/mapper/utils/_cover.py:9-16. -/
def colLe : List Bool → List Bool → Bool
  | [], _ => true
  | _ :: _, [] => false
  | a :: s, b :: t => if a = b then colLe s t else (!a)

/-- `np.unique(masks, axis=1, return_index=True)`: the distinct columns in sorted order, each with the index of its first occurrence. Used in `cleanMasks`, gtda/mapper/utils/_cover.py:9-16. -/
def uniqueColumns (cols : List (List Bool)) : List (List Bool × Nat) :=
  (cols.dedup.map fun c => (c, cols.idxOf c)).insertionSort fun p q => colLe p.1 q.1 = true

/-- `_remove_empty_and_duplicate_intervals`, gtda/mapper/utils/_cover.py:9-16. -/
def cleanMasks (cols : List (List Bool)) : List (List Bool) :=
  let nonempty := cols.filter fun c => c.any id
  ((uniqueColumns nonempty).insertionSort fun p q => p.2 ≤ q.2).map Prod.fst

/-! ### `OneDimensionalCover` as a state machine -/

/-- Hyperparameters of a cover. Used in `coverFitLimits`, gtda/mapper/cover.py:117-151. -/
structure CoverParams (K : Type) where
  balanced : Bool
  n : Nat
  f : K

/-- Attributes `left_limits_`, `right_limits_` (public) of a `OneDimensionalCover`. The private `_left_limits`, `_right_limits` set by a balanced
`fit_transform` are never read and are left out. Used in `coverFitTransform`, gtda/mapper/cover.py:215-252. -/
structure CoverState (K : Type) where
  limits : Option (List (Ival K))
  deriving DecidableEq

section
variable {K : Type} [Field K] [LinearOrder K] [FloorRing K]

/-- `fit`, gtda/mapper/cover.py:117-151: the limits, or an exception. -/
def coverFitLimits (p : CoverParams K) (X : List K) : PyM (List (Ival K)) :=
  if p.balanced then fitBalanced p.n p.f X else fitUniform p.n p.f X

/-- `OneDimensionalCover.fit`; when it raises, attributes are unchanged. See gtda/mapper/cover.py:117-151. -/
def coverFit (p : CoverParams K) (s : CoverState K) (X : List K) : CoverState K × PyM Unit :=
  match coverFitLimits p X with
  | .ok ivs => (⟨some ivs⟩, .ok ())
  | .error e => (s, .error e)

/-- `OneDimensionalCover.fit_transform`, gtda/mapper/cover.py:215-252. -/
def coverFitTransform (p : CoverParams K) (s : CoverState K) (X : List K) : CoverState K × PyM (List (List Bool)) :=
  if p.balanced then
    match fitTransformBalanced p.n p.f X with
    | .ok (masks, _) => (s, .ok (cleanMasks masks))
    | .error e => (s, .error e)
  else
    match fitUniform p.n p.f X with
    | .ok ivs => (⟨some ivs⟩, .ok (cleanMasks (coverMasks ivs X)))
    | .error e => (s, .error e)

/-- `OneDimensionalCover.transform`, gtda/mapper/cover.py:156-195. -/
def coverTransform (s : CoverState K) (Y : List K) : PyM (List (List Bool)) :=
  match s.limits with
  | none => .error .notFitted
  | some ivs => .ok (cleanMasks (coverMasks ivs Y))

/-- A call in the life of an estimator. Models calls of `fit` and `fit_transform`, gtda/mapper/cover.py:117-252. -/
inductive CoverOp (D : Type)
  | fit (X : D)
  | fitTransform (X : D)

/-- State after a call. See gtda/mapper/cover.py:117-252. -/
def coverStep (p : CoverParams K) (s : CoverState K) : CoverOp (List K) → CoverState K
  | .fit X => (coverFit p s X).1
  | .fitTransform X => (coverFitTransform p s X).1

/-! ### `CubicalCover` -/

/-- `itertools.product(*ls)`. Used in `combineCovers`, gtda/mapper/cover.py:549-561. -/
def cartesian {α : Type} : List (List α) → List (List α)
  | [] => [[]]
  | l :: ls => l.flatMap fun a => (cartesian ls).map fun t => a :: t

/-- `np.logical_and.reduce(t)` on columns of `nSamples` entries (`nSamples` only matters for an empty tuple, which does not occur). Used in `combineCovers`, gtda/mapper/cover.py:549-561. -/
def andColumns (nSamples : Nat) (t : List (List Bool)) : List Bool :=
  t.foldl (fun acc c => List.zipWith (· && ·) acc c) (List.replicate nSamples true)

/-- `CubicalCover._combine_one_dim_covers`, gtda/mapper/cover.py:549-561. -/
def combineCovers (nSamples : Nat) (covers : List (List (List Bool))) : List (List Bool) :=
  cleanMasks ((cartesian covers).map (andColumns nSamples))

/-- Attribute `_coverers` of a `CubicalCover`: one one-dimensional cover per feature, each fitted or not. Used in `cubicalFit`, gtda/mapper/cover.py:404-446. -/
structure CubicalState (K : Type) where
  coverers : Option (List (CoverState K))
  deriving DecidableEq

/-- `CubicalCover.fit`, gtda/mapper/cover.py:404-446; `X` is the list of columns. -/
def cubicalFit (p : CoverParams K) (s : CubicalState K) (X : List (List K)) : CubicalState K × PyM Unit :=
  match X.mapM (coverFitLimits p) with
  | .ok l => (⟨some (l.map fun ivs => ⟨some ivs⟩)⟩, .ok ())
  | .error e => (s, .error e)

/-- `OneDimensionalCover._transform` of a coverer, gtda/mapper/cover.py:153-154; `AttributeError` if it is not fitted. -/
def coverRaw (s : CoverState K) (y : List K) : PyM (List (List Bool)) :=
  match s.limits with
  | none => .error .attributeError
  | some ivs => .ok (coverMasks ivs y)

/-- `CubicalCover._transform`, gtda/mapper/cover.py:448-454. -/
def cubicalMasks (nSamples : Nat) (cs : List (CoverState K)) (Y : List (List K)) : PyM (List (List Bool)) := do
  let covers ← (Y.zip cs).mapM fun p => coverRaw p.2 p.1
  pure (combineCovers nSamples covers)

/-- `CubicalCover.transform`, gtda/mapper/cover.py:456-499. A wrong number of features raises `DataDimensionalityWarning` (here `.valueError`). -/
def cubicalTransform (p : CoverParams K) (s : CubicalState K) (nSamples : Nat) (Y : List (List K)) : PyM (List (List Bool)) :=
  match s.coverers with
  | none => .error .notFitted
  | some cs =>
    if Y.length ≠ cs.length then .error .valueError
    else
      match cs with
      | [] => .error .indexError
      | c :: _ => if p.balanced ∧ c.limits.isNone then .error .notFitted else cubicalMasks nSamples cs Y

/-- `CubicalCover.fit_transform`, gtda/mapper/cover.py:501-547. In the balanced case clones are fitted and discarded, the unfitted `coverers` are stored. -/
def cubicalFitTransform (p : CoverParams K) (s : CubicalState K) (nSamples : Nat) (X : List (List K)) :
    CubicalState K × PyM (List (List Bool)) :=
  if p.balanced then
    match X.mapM (fun x => (fitTransformBalanced p.n p.f x).map Prod.fst) with
    | .ok covers => (⟨some (X.map fun _ => ⟨none⟩)⟩, .ok (combineCovers nSamples covers))
    | .error e => (s, .error e)
  else
    match X.mapM (coverFitLimits p) with
    | .ok l => (⟨some (l.map fun ivs => ⟨some ivs⟩)⟩, cubicalMasks nSamples (l.map fun ivs => ⟨some ivs⟩) X)
    | .error e => (s, .error e)

/-- State after a call; data comes with its number of samples. See gtda/mapper/cover.py:404-547. -/
def cubicalStep (p : CoverParams K) (s : CubicalState K) : CoverOp (Nat × List (List K)) → CubicalState K
  | .fit X => (cubicalFit p s X.2).1
  | .fitTransform X => (cubicalFitTransform p s X.1 X.2).1

end

end Gtda.Mapper
