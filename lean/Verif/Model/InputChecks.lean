import Verif.Py.Basic

/-!
# Validation of collections of point clouds and of collections of arrays

Models `_check_array_mod`, `check_point_clouds` and `check_collection` of `gtda/utils/validation.py`
and the part of `sklearn.utils.validation.check_array` they use.  Arrays are given by shape and
entries in row-major order; conversion of data types is not modelled, so a checked array is the given
array.  A warning is a flag beside the result.
-/

set_option autoImplicit false

namespace Gtda.Checks

open Py

/-- An entry of an array of floats. Used in `checkArrayMod`, gtda/utils/validation.py:14-25. -/
inductive Num (K : Type) where
  | fin (x : K)
  | inf (negative : Bool)
  | nan
deriving DecidableEq

namespace Num

variable {K : Type}

/-- `numpy.isnan`. Used in `checkArrayMod`, gtda/utils/validation.py:14-25. -/
def isNaN : Num K → Bool
  | nan => true
  | _ => false

/-- `numpy.isfinite`. Used in `checkArrayMod`, gtda/utils/validation.py:14-25. -/
def isFinite : Num K → Bool
  | fin _ => true
  | _ => false

end Num

/-- An array, or a sparse matrix with its stored entries. Used in `checkArrayMod`, gtda/utils/validation.py:14-25. -/
structure Arr (K : Type) where
  shape : List Nat
  data : List (Num K)
  sparse : Bool
deriving DecidableEq

section

variable {K : Type}

/-- `check_array` of scikit-learn, with `ensure_min_samples=1` and `ensure_min_features=1`: sparse
input where it is not accepted is a `TypeError`, as is the number of samples of an array without
axes; everything else that is refused is a `ValueError`.  The number of features is only checked for
two axes. Used in `checkArrayMod`, gtda/utils/validation.py:14-25. -/
def checkArray (acceptSparse forceFinite ensure2d allowNd : Bool) (x : Arr K) : PyM (Arr K) :=
  if x.sparse && !acceptSparse then .error .typeError
  else if !x.sparse && ensure2d && decide (x.shape.length < 2) then .error .valueError
  else if !allowNd && decide (3 ≤ x.shape.length) then .error .valueError
  else if forceFinite && !x.data.all Num.isFinite then .error .valueError
  else
    match x.shape with
    | [] => .error .typeError
    | [n] => if n < 1 then .error .valueError else pure x
    | [n, m] => if n < 1 then .error .valueError else if m < 1 then .error .valueError else pure x
    | n :: _ => if n < 1 then .error .valueError else pure x

/-- `_check_array_mod` (`validation.py:14-25`). -/
def checkArrayMod (acceptSparse forceFinite ensure2d allowNd : Bool) (x : Arr K) : PyM (Arr K) :=
  if !forceFinite then do
    let y ← checkArray acceptSparse forceFinite ensure2d allowNd x
    if y.data.any Num.isNaN then .error .valueError else pure y
  else checkArray acceptSparse forceFinite ensure2d allowNd x

/-- What is passed: something with `shape` and `ndim`, or something to iterate over
(`validation.py:245, 335`). -/
inductive Input (K : Type) where
  | array (x : Arr K)
  | list (l : List (Arr K))

/-- What is returned: an array of numbers, a list, or (for sparse matrices of the same shape) an
array of objects. Used in `stack`, gtda/utils/validation.py:307. -/
inductive Output (K : Type) where
  | array (x : Arr K)
  | list (l : List (Arr K))
  | objects (l : List (Arr K))
deriving DecidableEq

/-- `x.shape[0] == x.shape[1]`, with the `IndexError` for fewer than two axes. Used in `checkCloud`, gtda/utils/validation.py:277-284. -/
def isSquare (x : Arr K) : PyM Bool :=
  match x.shape with
  | n :: m :: _ => pure (n == m)
  | _ => .error .indexError

/-- One entry of a list of point clouds (`validation.py:277-284`): checked, and square if distance
matrices are expected and it is not sparse. -/
def checkCloud (acceptSparse forceFinite distance : Bool) (x : Arr K) : PyM (Arr K) := do
  let y ← checkArrayMod acceptSparse forceFinite true false x
  if distance && !y.sparse then do
    let sq ← isSquare x
    if sq then pure y else .error .valueError
  else pure y

/-- The loop over a list (`validation.py:275-295, 341-357`): a `ValueError` is remembered and the
loop goes on, any other error ends it.  Returns whether a check failed and the checked entries. -/
def checkEntries (check : Arr K → PyM (Arr K)) : List (Arr K) → Bool → List (Arr K) →
    PyM (Bool × List (Arr K))
  | [], failed, acc => pure (failed, acc)
  | x :: rest, failed, acc =>
      match check x with
      | .ok y => checkEntries check rest failed (acc ++ [y])
      | .error .valueError => checkEntries check rest true acc
      | .error e => .error e

/-- `numpy.asarray` of the checked entries (`validation.py:307`): a three-dimensional array, or an
array of objects if some are sparse.  Simplification: what NumPy makes of a mixture of dense and
sparse matrices depends on its version. -/
def stack (l : List (Arr K)) : Output K :=
  match l with
  | [] => .objects []
  | x :: _ =>
      if l.any Arr.sparse then .objects l
      else .array ⟨l.length :: x.shape, (l.map Arr.data).flatten, false⟩

/-- `check_point_clouds` (`validation.py:205-309`): whether the warning is given, and the result.
`forceFinite` is the keyword argument `force_all_finite`, if it was passed. -/
def checkPointClouds (acceptSparse distance : Bool) (forceFinite : Option Bool) (input : Input K) :
    PyM (Bool × Output K) :=
  let finite := forceFinite.getD !distance
  match input with
  | .array x =>
      match x.shape with
      | [_, r, c] =>
          if r ≠ c ∧ distance = true then .error .valueError
          else do
            let y ← checkArrayMod acceptSparse finite true true x
            pure (decide (r = c) && !distance, .array y)
      | _ => .error .valueError
  | .list l => do
      let (failed, checked) ← checkEntries (checkCloud acceptSparse finite distance) l false []
      if failed then .error .valueError
      else do
        let squares ← l.mapM isSquare
        let warned := !distance && squares.all id
        match l with
        | [] => .error .indexError
        | first :: rest =>
            if rest.all fun x => x.shape = first.shape then pure (warned, stack checked)
            else pure (warned, .list checked)

/-- `check_collection` (`validation.py:312-359`). -/
def checkCollection (acceptSparse forceFinite : Bool) (input : Input K) : PyM (Output K) :=
  match input with
  | .array x => do
      let y ← checkArrayMod acceptSparse forceFinite true true x
      pure (.array y)
  | .list l => do
      let (failed, checked) ← checkEntries (checkArrayMod acceptSparse forceFinite false true) l
        false []
      if failed then .error .valueError else pure (.list checked)

end

end Gtda.Checks
