import Verif.Py.Basic
import Mathlib.Data.Rat.Defs

set_option autoImplicit false

/-!
# Model of `validate_params`, gtda/utils/validation.py:95-202

Parameter values are trees of Python values. Membership tests (`parameter in ref_in`) are total predicates; custom checks (`'other'`) return `None` or raise.
-/

namespace Gtda.Validation
open Gtda.Py

/-- Python values that occur as parameters. `obj` is an instance of some other class. Used in `typeOk`, gtda/utils/validation.py:105. -/
inductive PyVal
  | none
  | bool (b : Bool)
  | int (n : Int)
  | float (x : ℚ)
  | floatInf
  | floatNan
  | str (s : String)
  | function (name : String)
  | obj (cls : String)
  | list (l : List PyVal)
  | tuple (l : List PyVal)
  | ndarray (l : List PyVal)
  | dict (items : List (String × PyVal))

/-- Classes that occur in `'type'`. Used in `typesTuple`, gtda/utils/validation.py:96. -/
inductive PyType
  | noneType | bool | int | float | real | str | function | list | tuple | ndarray | dict
  | cls (name : String)
  deriving DecidableEq, Repr

/-- `isinstance(v, t)`: `bool` is a subclass of `int`, and `bool`, `int` and `float` are instances of `numbers.Real`. Used in `typeOk`, gtda/utils/validation.py:105. -/
def isinstance : PyVal → PyType → Bool
  | .none, .noneType => true
  | .bool _, .bool | .bool _, .int | .bool _, .real => true
  | .int _, .int | .int _, .real => true
  | .float _, .float | .float _, .real => true
  | .floatInf, .float | .floatInf, .real => true
  | .floatNan, .float | .floatNan, .real => true
  | .str _, .str => true
  | .function _, .function => true
  | .obj c, .cls d => c == d
  | .list _, .list => true
  | .tuple _, .tuple => true
  | .ndarray _, .ndarray => true
  | .dict _, .dict => true
  | _, _ => false

/-- The value of `'type'`: a class or a tuple of classes. Used in `typeOk`, gtda/utils/validation.py:105. -/
inductive TypeSpec
  | one (t : PyType)
  | many (ts : List PyType)
  deriving DecidableEq, Repr

/-- `isinstance(v, spec)`. Used in `typeOk`, gtda/utils/validation.py:105. -/
def isinstanceSpec (v : PyVal) : TypeSpec → Bool
  | .one t => isinstance v t
  | .many ts => ts.any (isinstance v)

/-- `types_tuple`, gtda/utils/validation.py:96. -/
def typesTuple : List PyType := [.list, .tuple, .ndarray, .dict]

/-- `spec in types_tuple`: a tuple of classes never is. Used in `declaredContainer`, gtda/utils/validation.py:113. -/
def specIsContainer : TypeSpec → Bool
  | .one t => typesTuple.contains t
  | .many _ => false

/-- `isinstance(v, types_tuple)`. Used in `single`, gtda/utils/validation.py:98-128. -/
def isContainer (v : PyVal) : Bool := typesTuple.any (isinstance v)

/-- `for x in v` for containers (keys of dictionaries). Used in `checkParam`, gtda/utils/validation.py:137-149. -/
def elems : PyVal → List PyVal
  | .list l => l
  | .tuple l => l
  | .ndarray l => l
  | .dict items => items.map fun p => .str p.1
  | _ => []

/-- `v.items()` for dictionaries. Used in `typeOk`, gtda/utils/validation.py:105. -/
def items : PyVal → List (String × PyVal)
  | .dict l => l
  | _ => []

mutual
/-- A reference: the values of the keys `'type'`, `'in'`, `'other'` and `'of'`. Used in `single`, gtda/utils/validation.py:98-128. -/
inductive Ref
  | mk (type : Option TypeSpec) (adm : Option (PyVal → Bool)) (other : Option (PyVal → PyM Unit)) (of : Of)
/-- The value of `'of'`: absent, a reference for all elements (sequences), or references for the entries of a dictionary. Used in `single`, gtda/utils/validation.py:98-128. -/
inductive Of
  | none
  | elem (r : Ref)
  | names (rs : Refs)
/-- A dictionary of references. `any` is a name whose reference is `None`. Used in `single`, gtda/utils/validation.py:98-128. -/
inductive Refs
  | nil
  | cons (name : String) (r : Ref) (rest : Refs)
  | any (name : String) (rest : Refs)
end

/-- `(_ref_type is None) or isinstance(_parameter, _ref_type)`, gtda/utils/validation.py:105. -/
def typeOk : Option TypeSpec → PyVal → Bool
  | none, _ => true
  | some t, v => isinstanceSpec v t

/-- `_ref_type in types_tuple`, gtda/utils/validation.py:113. -/
def declaredContainer : Option TypeSpec → Bool
  | none => false
  | some t => specIsContainer t

/-- The membership test, gtda/utils/validation.py:115-120. -/
def admCheck (adm : Option (PyVal → Bool)) (v : PyVal) : PyM Unit :=
  match v with
  | .none => pure ()
  | v => match adm with
    | none => pure ()
    | some p => if p v then pure () else .error .valueError

/-- The custom check, gtda/utils/validation.py:121-123. -/
def otherCheck (other : Option (PyVal → PyM Unit)) (v : PyVal) : PyM Unit :=
  match other with
  | some f => f v
  | none => pure ()

/-- `_validate_params_single`, gtda/utils/validation.py:98-128. The result says whether a (true) reference type is returned. -/
def single (r : Ref) (v : PyVal) : PyM Bool :=
  match r with
  | .mk type adm other _ =>
    if typeOk type v = false then .error .typeError
    else if (declaredContainer type || isContainer v) = false then do
      admCheck adm v
      otherCheck other v
      pure false
    else pure type.isSome

mutual
/-- The body of the loop of `_validate_params` for one parameter whose reference is not `None`, gtda/utils/validation.py:137-149. The value of `'of'` is read as a dictionary of
references if the type is `dict` and as a reference otherwise; a declaration of the other kind is outside the model (`notImplemented`). -/
def checkParam : Ref → PyVal → PyM Unit
  | .mk type adm other of, v => do
    let b ← single (.mk type adm other of) v
    if b then checkOf (decide (type = some (.one .dict))) of v else pure ()
/-- The treatment of `'of'`. Used in `checkParam`, gtda/utils/validation.py:137-149. -/
def checkOf : Bool → Of → PyVal → PyM Unit
  | _, .none, _ => pure ()
  | false, .elem r, v => (elems v).forM fun x => do let _ ← single r x; pure ()
  | true, .names rs, v => (items v).forM fun p => checkNamed rs p.1 p.2
  | _, _, _ => .error .notImplemented
/-- Lookup of the name and check, gtda/utils/validation.py:130-138. -/
def checkNamed : Refs → String → PyVal → PyM Unit
  | .nil, _, _ => .error .keyError
  | .cons m r rest, n, v => if m = n then checkParam r v else checkNamed rest n v
  | .any m rest, n, v => if m = n then pure () else checkNamed rest n v
end

/-- `validate_params(parameters, references, exclude)`, gtda/utils/validation.py:152-202. -/
def validateParams (params : List (String × PyVal)) (refs : Refs) (exclude : List String) : PyM Unit :=
  (params.filter fun p => !exclude.contains p.1).forM fun p => checkNamed refs p.1 p.2

/-! ### Declarations of the library -/

/-- `x in Interval(1, np.inf, closed='left')` for numbers. Used in `nNeighborsRef`, gtda/local_homology/simplicial.py:254-256. -/
def atLeastOne : PyVal → Bool
  | .bool b => b
  | .int n => decide (1 ≤ n)
  | .float x => decide (1 ≤ x)
  | .floatInf => false
  | _ => false

/-- `x in Interval(0, np.inf, closed='left')` for numbers. Used in `homologyDimensionsRef`, gtda/homology/simplicial.py:151-154. -/
def nonneg : PyVal → Bool
  | .bool _ => true
  | .int n => decide (0 ≤ n)
  | .float x => decide (0 ≤ x)
  | .floatInf => false
  | _ => false

/-- `_hyperparameters['homology_dimensions']` of the persistence transformers, gtda/homology/simplicial.py:151-154. -/
def homologyDimensionsRef : Ref := .mk (some (.many [.list, .tuple])) none none (.elem (.mk (some (.one .int)) (some nonneg) none .none))

/-- `_hyperparameters['n_neighbors']` of `KNeighborsLocalVietorisRips`, gtda/local_homology/simplicial.py:254-256: the key of the element type is the class `type` instead of the
string `'type'`, so that it is never looked up. -/
def nNeighborsRef : Ref := .mk (some (.many [.tuple, .list])) none none (.elem (.mk none (some atLeastOne) none .none))

end Gtda.Validation
