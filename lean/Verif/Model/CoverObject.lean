import Verif.Model.Cover

/-!
# Covers as objects: validation, arrays, changes of parameters, messages

`Verif.Model.Cover` models the algorithms for valid parameters and given columns. Here the objects around them are modelled: parameters of any type that can be changed, one- and two-dimensional arrays, and which
column an exception names.
-/

set_option autoImplicit false

namespace Gtda.CoverObject

open Py Mapper

/-- The constructor parameters, gtda/mapper/cover.py:93-96, 385-388. `none`: a value of the wrong type. -/
structure Params (K : Type) where
  kind : Option String
  n : Option Int
  f : Option K
  deriving DecidableEq

/-- An array with finite entries: of one dimension, or of two dimensions, given by the number of rows and the columns. -/
inductive Data (K : Type) where
  | one (x : List K)
  | two (m : Nat) (cols : List (List K))
  deriving DecidableEq

section
variable {K : Type} [Field K] [LinearOrder K] [FloorRing K]

/-- `check_array(X, ensure_2d=False)`, which rejects arrays without samples or columns, and the reshaping of one-dimensional arrays, gtda/mapper/cover.py:139, 180-185, 242-248, 439-444, 480-484, 521-526. -/
def columns : Data K → PyM (Nat × List (List K))
  | .one x => if x.length = 0 then .error .valueError else .ok (x.length, [x])
  | .two m cols => if m = 0 ∨ cols.length = 0 then .error .valueError else .ok (m, cols)

/-- `_check_has_one_column`, gtda/mapper/utils/_cover.py:4-6; `columns` has excluded that there is none. -/
def oneColumn (cols : List (List K)) : PyM (List K) :=
  if cols.length > 1 then .error .valueError else .ok (cols.headD [])

/-- `validate_params(self.get_params(), self._hyperparameters)`, gtda/mapper/cover.py:87-91, 140, 243, 379-383, 440, 522; parameters come in alphabetical order. -/
def validate (p : Params K) : PyM (CoverParams K) :=
  match p.kind with
  | none => .error .typeError
  | some k =>
    if k ∉ ["uniform", "balanced"] then .error .valueError
    else
      match p.n with
      | none => .error .typeError
      | some n =>
        if n < 1 then .error .valueError
        else
          match p.f with
          | none => .error .typeError
          | some f => if 0 < f ∧ f < 1 then .ok ⟨k == "balanced", n.toNat, f⟩ else .error .valueError

/-! ### `OneDimensionalCover` -/

/-- A `OneDimensionalCover`: parameters and the fitted intervals, gtda/mapper/cover.py:93-96, 99, 113. -/
structure Obj (K : Type) where
  params : Params K
  limits : Option (List (Ival K)) := none
  deriving DecidableEq

/-- The checks before fitting, gtda/mapper/cover.py:139-147, 242-248. The warning about a small `overlap_frac` (141-144) is left out. -/
def prepare (p : Params K) (X : Data K) : PyM (CoverParams K × List K) := do
  let q ← columns X
  let v ← validate p
  let x ← oneColumn q.2
  pure (v, x)

/-- `OneDimensionalCover.fit`, gtda/mapper/cover.py:117-151. -/
def fit (o : Obj K) (X : Data K) : Obj K × PyM Unit :=
  match prepare o.params X with
  | .error e => (o, .error e)
  | .ok (p, x) => ({ o with limits := (coverFit p ⟨o.limits⟩ x).1.limits }, (coverFit p ⟨o.limits⟩ x).2)

/-- `OneDimensionalCover.fit_transform`, gtda/mapper/cover.py:215-252. -/
def fitTransform (o : Obj K) (X : Data K) : Obj K × PyM (List (List Bool)) :=
  match prepare o.params X with
  | .error e => (o, .error e)
  | .ok (p, x) => ({ o with limits := (coverFitTransform p ⟨o.limits⟩ x).1.limits }, (coverFitTransform p ⟨o.limits⟩ x).2)

/-- `_check_limit_attrs`, gtda/mapper/cover.py:266-275. -/
def checkLimits (o : Obj K) : PyM Unit := if o.limits.isSome then .ok () else .error .notFitted

/-- `OneDimensionalCover.transform`, gtda/mapper/cover.py:156-195. `check_is_fitted(self)` looks for attributes whose names end with an underscore: the limits. -/
def transform (o : Obj K) (X : Data K) : PyM (List (List Bool)) :=
  if o.limits.isNone then .error .notFitted
  else do
    let q ← columns X
    let x ← oneColumn q.2
    if o.params.kind = some "balanced" then checkLimits o
    coverTransform ⟨o.limits⟩ x

/-- `get_fitted_intervals`, gtda/mapper/cover.py:254-264. -/
def getFittedIntervals (o : Obj K) : PyM (List (Ival K)) :=
  if o.limits.isNone then .error .notFitted
  else do
    if o.params.kind = some "balanced" then checkLimits o
    match o.limits with
    | some l => .ok l
    | none => .error .attributeError

/-- What can be done with a cover: change parameters (scikit-learn's `set_params` for the constructor at gtda/mapper/cover.py:93-96, 385-388), fit, fit and transform. -/
inductive Op (K : Type) where
  | setParams (p : Params K)
  | fit (X : Data K)
  | fitTransform (X : Data K)

/-- One operation, gtda/mapper/cover.py:117-252. -/
def step (o : Obj K) : Op K → Obj K
  | .setParams p => { o with params := p }
  | .fit X => (fit o X).1
  | .fitTransform X => (fitTransform o X).1

/-- A history, gtda/mapper/cover.py:117-252. -/
def run (o : Obj K) (ops : List (Op K)) : Obj K := ops.foldl step o

/-! ### `CubicalCover` -/

/-- Exceptions of `CubicalCover`: the one that names a feature and the number of intervals, and the others. -/
inductive CubErr where
  | oneValueAlong (i n : Nat)
  | other (e : PyErr)
  deriving DecidableEq

/-- The loop over `_clone_and_apply_to_column`, gtda/mapper/cover.py:390-402, 410-413, 538-542. `f` is the method of the one-dimensional cover. For a column that is not empty its only `ValueError` is the one at
gtda/mapper/cover.py:289-292, whose message is the one compared with; so the comparison of messages is modelled by the class of the exception. -/
def applyToColumns {β : Type} (f : List K → PyM β) (n : Nat) : Nat → List (List K) → Except CubErr (List β)
  | _, [] => .ok []
  | i, x :: cols =>
    match f x with
    | .error .valueError => .error (.oneValueAlong i n)
    | .error e => .error (.other e)
    | .ok b =>
      match applyToColumns f n (i + 1) cols with
      | .error e => .error e
      | .ok bs => .ok (b :: bs)

/-- A `CubicalCover`: parameters and `_coverers` with their limits, gtda/mapper/cover.py:385-388, 410, 544. (`_n_features_fit` is the number of coverers.) -/
structure CubObj (K : Type) where
  params : Params K
  coverers : Option (List (CoverState K)) := none
  deriving DecidableEq

/-- The checks before fitting, gtda/mapper/cover.py:439-444, 521-526. -/
def cubPrepare (p : Params K) (X : Data K) : PyM (CoverParams K × Nat × List (List K)) := do
  let q ← columns X
  let v ← validate p
  pure (v, q)

/-- `CubicalCover.fit`, gtda/mapper/cover.py:404-446. -/
def cubFit (o : CubObj K) (X : Data K) : CubObj K × Except CubErr Unit :=
  match cubPrepare o.params X with
  | .error e => (o, .error (.other e))
  | .ok (p, _, cols) =>
    match applyToColumns (coverFitLimits p) p.n 0 cols with
    | .error e => (o, .error e)
    | .ok l => ({ o with coverers := some (l.map fun ivs => ⟨some ivs⟩) }, .ok ())

/-- Exceptions without the messages. -/
def plain {β : Type} : PyM β → Except CubErr β
  | .ok b => .ok b
  | .error e => .error (.other e)

/-- `CubicalCover.fit_transform`, gtda/mapper/cover.py:501-547. -/
def cubFitTransform (o : CubObj K) (X : Data K) : CubObj K × Except CubErr (List (List Bool)) :=
  match cubPrepare o.params X with
  | .error e => (o, .error (.other e))
  | .ok (p, m, cols) =>
    if p.balanced then
      match applyToColumns (fun x => Prod.fst <$> fitTransformBalanced p.n p.f x) p.n 0 cols with
      | .error e => (o, .error e)
      | .ok covers => ({ o with coverers := some (cols.map fun _ => ⟨none⟩) }, .ok (combineCovers m covers))
    else
      match applyToColumns (coverFitLimits p) p.n 0 cols with
      | .error e => (o, .error e)
      | .ok l => ({ o with coverers := some (l.map fun ivs => ⟨some ivs⟩) }, plain (cubicalMasks m (l.map fun ivs => ⟨some ivs⟩) cols))

/-- `CubicalCover.transform`, gtda/mapper/cover.py:456-499. A wrong number of features raises `DataDimensionalityWarning` (here `.valueError`). -/
def cubTransform (o : CubObj K) (X : Data K) : PyM (List (List Bool)) :=
  match o.coverers with
  | none => .error .notFitted
  | some cs => do
    let q ← columns X
    if q.2.length ≠ cs.length then .error .valueError
    else
      match cs with
      | [] => .error .indexError
      | c :: _ => if o.params.kind = some "balanced" ∧ c.limits.isNone then .error .notFitted else cubicalMasks q.1 cs q.2

/-- One operation, gtda/mapper/cover.py:404-547. -/
def cubStep (o : CubObj K) : Op K → CubObj K
  | .setParams p => { o with params := p }
  | .fit X => (cubFit o X).1
  | .fitTransform X => (cubFitTransform o X).1

/-- A history, gtda/mapper/cover.py:404-547. -/
def cubRun (o : CubObj K) (ops : List (Op K)) : CubObj K := ops.foldl cubStep o

end

end Gtda.CoverObject
