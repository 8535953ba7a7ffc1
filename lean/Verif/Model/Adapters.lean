import Verif.Model.InputChecks
import Verif.Model.LocalHomology
import Verif.Model.MapperCluster
import Verif.Model.MapperFilters
import Verif.Model.Nerve
import Verif.Model.Stateless

/-!
# Adapters: objects that make other objects fit into pipelines

Models `ListFeatureUnion`, `method_to_transform`, `transformer_from_callable_on_rows`, `identity`, `CollectionTransformer`, `Nerve.fit` and `ParallelClustering.transform`. What they inherit from
scikit-learn (`FeatureUnion`, `TransformerMixin`, `FunctionTransformer`) is transcribed from scikit-learn.
-/

set_option autoImplicit false

namespace Gtda.Adapters

open Py

/-! ### `ListFeatureUnion` -/

/-- The objects of a union: `S` are their states (with their classes), `A` is the data, `B` are the results, `W` the weights. `fitTransform` is `fit_transform`, or `fit` followed by `transform` for
classes without it; `scale` is `res * weight`; `nRows` is `X.shape[0]`, if there is a shape. Used in `unionFitTransform`, gtda/mapper/utils/_list_feature_union.py:21-29. -/
structure Objects (S A B W : Type) where
  isTransformer : S → Bool
  fitTransform : S → A → PyM (B × S)
  transform : S → A → PyM B
  scale : W → B → PyM B
  nRows : A → Option Nat

/-- A `ListFeatureUnion`: names with transformers (`none`: `None` or `'drop'`), and weights by name. Used in `unionFitTransform`, gtda/mapper/utils/_list_feature_union.py:6-29. -/
structure Union (S W : Type) where
  steps : List (String × Option S)
  weights : List (String × W)

/-- What is returned: a list, or an array of this number of rows and no columns, gtda/mapper/utils/_list_feature_union.py:24, 28. -/
inductive UnionResult (B : Type) where
  | list (l : List B)
  | noColumns (n : Nat)
  deriving DecidableEq

section

variable {S A B W : Type} (c : Objects S A B W)

/-- `FeatureUnion._iter`: the transformers which are not dropped, with their weights. Called in gtda/mapper/utils/_list_feature_union.py:21, 45. -/
def active (u : Union S W) : List (S × Option W) :=
  u.steps.filterMap fun e => e.2.map fun s => (s, (u.weights.find? fun w => decide (w.1 = e.1)).map (·.2))

/-- `"__" in name`, in `_BaseComposition._validate_names`. Called in gtda/mapper/utils/_list_feature_union.py:21. -/
def hasDunder : List Char → Bool
  | [] => false
  | a :: l => (decide (a = '_') && decide (l.head? = some '_')) || hasDunder l

/-- `FeatureUnion._validate_transformers`: there is a step, names are different and contain no `__`, transformers have the methods. That names do not conflict with the names of parameters and that
weights belong to steps is not modelled. Called in gtda/mapper/utils/_list_feature_union.py:21. -/
def validate (u : Union S W) : PyM Unit :=
  if u.steps = [] then .error .valueError
  else if ¬ (u.steps.map (·.1)).Nodup then .error .valueError
  else if u.steps.any fun e => hasDunder e.1.toList then .error .valueError
  else if u.steps.any fun e => match e.2 with | some s => !c.isTransformer s | none => false then .error .typeError
  else .ok ()

/-- `res * weight`, or `res` if there is no weight (`_fit_transform_one`, `_transform_one`). Called in gtda/mapper/utils/_list_feature_union.py:21, 44. -/
def weighted (w : Option W) (b : B) : PyM B :=
  match w with
  | none => .ok b
  | some w => c.scale w b

/-- `_fit_transform_one`: the result, times the weight, and the fitted transformer. Called in gtda/mapper/utils/_list_feature_union.py:21. -/
def fitTransformOne (X : A) (e : S × Option W) : PyM (B × S) := do
  let r ← c.fitTransform e.1 X
  let b ← weighted c e.2 r.1
  pure (b, r.2)

/-- `FeatureUnion._update_transformer_list`: fitted transformers replace the ones that are not dropped, one after the other. Called in gtda/mapper/utils/_list_feature_union.py:27. -/
def updateList : List (String × Option S) → List S → List (String × Option S)
  | [], _ => []
  | (n, none) :: steps, new => (n, none) :: updateList steps new
  | (n, some s) :: steps, [] => (n, some s) :: updateList steps []
  | (n, some _) :: steps, t :: new => (n, some t) :: updateList steps new

/-- `ListFeatureUnion.fit_transform`, gtda/mapper/utils/_list_feature_union.py:21-29, with tasks executed in the order `order`: the union afterwards and the result. -/
def unionFitTransform (order : List Nat) (u : Union S W) (X : A) : PyM (Union S W × UnionResult B) := do
  let _ ← validate c u
  let results ← Mapper.scheduled ((active u).map fun e _ => fitTransformOne c X e) order
  if results = [] then
    match c.nRows X with
    | some n => pure (u, .noColumns n)
    | none => .error .attributeError
  else pure ({ u with steps := updateList u.steps (results.map (·.2)) }, .list (results.map (·.1)))

/-- `ListFeatureUnion.transform`, gtda/mapper/utils/_list_feature_union.py:43-50. -/
def unionTransform (order : List Nat) (u : Union S W) (X : A) : PyM (UnionResult B) := do
  let results ← Mapper.scheduled ((active u).map fun e _ => do
    let b ← c.transform e.1 X
    weighted c e.2 b) order
  if results = [] then
    match c.nRows X with
    | some n => pure (.noColumns n)
    | none => .error .attributeError
  else pure (.list results)

end

/-! ### `method_to_transform` -/

/-- An array with one or two axes, gtda/mapper/utils/decorators.py:66. -/
inductive Array12 (K : Type) where
  | one (l : List K)
  | two (l : List (List K))
  deriving DecidableEq

/-- The class to be wrapped, with states `S` and data `A`: `fit`; the method, if an object in this state has it; its own `fit_transform`, if it has one. Used in `extTransform`,
gtda/mapper/utils/decorators.py:7-72. -/
structure Wrapped (S A K : Type) where
  fit : S → A → PyM S
  method : S → Option (A → PyM (Array12 K))
  ownFitTransform : Option (S → A → PyM (S × Array12 K))

section

variable {S A K : Type} (c : Wrapped S A K)

/-- A one-dimensional array becomes a column, gtda/mapper/utils/decorators.py:65-67. -/
def asColumn : Array12 K → Array12 K
  | .one l => .two (l.map fun x => [x])
  | .two l => .two l

/-- `ExtendedEstimator.transform`, gtda/mapper/utils/decorators.py:61-68; `none` is `None`. -/
def extTransform (s : S) (X : A) : PyM (Option (Array12 K)) :=
  match c.method s with
  | some m => do
      let r ← m X
      pure (some (asColumn r))
  | none => .ok none

/-- `ExtendedEstimator.fit_transform`, gtda/mapper/utils/decorators.py:60: the bases are `cls, TransformerMixin` in this order, so that a `fit_transform` of the wrapped class comes first;
otherwise it is `fit` followed by `transform`. -/
def extFitTransform (s : S) (X : A) : PyM (S × Option (Array12 K)) :=
  match c.ownFitTransform with
  | some f => do
      let r ← f s X
      pure (r.1, some r.2)
  | none => do
      let s' ← c.fit s X
      let r ← extTransform c s' X
      pure (s', r)

end

/-- The name of the new class, gtda/mapper/utils/decorators.py:70. -/
def extName (name : String) : String := "Extended" ++ name

/-! ### `transformer_from_callable_on_rows` and `identity` -/

section

variable {K : Type} [Zero K]

/-- `fit_transform` of `transformer_from_callable_on_rows(func, validate)` on a two-dimensional array, gtda/mapper/utils/pipeline.py:22-65: `FunctionTransformer` checks the array if `validate`, and
returns it if the function is `None`. -/
def rowsFitTransform (func : Option (Mapper.RowCallable K)) (validate : Bool) (X : Checks.Arr K) : PyM (List (List K)) := do
  let Xt ← if validate then Checks.checkArray false true true false X else pure X
  match func with
  | none => pure (Stateless.rows Xt)
  | some f => Mapper.callableOnRows f (Stateless.rows Xt)

/-- `fit_transform` of `identity(validate)`, gtda/mapper/utils/pipeline.py:68-69. -/
def identityFitTransform (validate : Bool) (X : Checks.Arr K) : PyM (Checks.Arr K) :=
  if validate then Checks.checkArray false true true false X else pure X

end

/-! ### `CollectionTransformer` -/

/-- A `CollectionTransformer` around an object of a class (see `Gtda.Local.Transformer`) in some state, with `_is_fitted`, gtda/metaestimators/collection_transformer.py:89-94, 129. -/
structure CollObj (S : Type) where
  transformer : S
  isFitted : Bool

section

variable {S A B : Type} (T : Local.Transformer S A B)

/-- `_validate_transformer`, gtda/metaestimators/collection_transformer.py:96-103, without the warning. -/
def validateTransformer : PyM Unit := if T.hasFitTransform then .ok () else .error .typeError

/-- `CollectionTransformer.fit`, gtda/metaestimators/collection_transformer.py:125-130; `check` is `check_collection`. -/
def collFit (check : List A → PyM (List A)) (o : CollObj S) (X : List A) : CollObj S × PyM Unit :=
  match check X with
  | .error e => (o, .error e)
  | .ok _ =>
      match validateTransformer T with
      | .error e => (o, .error e)
      | .ok () => ({ o with isFitted := true }, .ok ())

/-- `CollectionTransformer.fit_transform`, gtda/metaestimators/collection_transformer.py:132-166: the attribute does not exist if the transformer has no `fit_transform`; then the collection is
checked. The state afterwards is the wrapped transformer's. -/
def collFitTransform (check : List A → PyM (List A)) (order : List Nat) (o : CollObj S) (X : List A) : CollObj S × PyM (List B) :=
  if T.hasFitTransform then
    match check X with
    | .error e => (o, .error e)
    | .ok Y =>
        let r := Local.collectionFitTransform T o.transformer order Y
        ({ o with transformer := r.1.getD o.transformer }, r.2)
  else (o, .error .attributeError)

/-- `CollectionTransformer.transform`, gtda/metaestimators/collection_transformer.py:168-190. -/
def collTransform (check : List A → PyM (List A)) (order : List Nat) (o : CollObj S) (X : List A) : CollObj S × PyM (List B) := collFitTransform T check order o X

/-- The calls on a `CollectionTransformer`, gtda/metaestimators/collection_transformer.py:105-190. -/
inductive CollOp (A : Type) where
  | fit (X : List A)
  | fitTransform (order : List Nat) (X : List A)
  | transform (order : List Nat) (X : List A)

/-- The object after a call, gtda/metaestimators/collection_transformer.py:105-190. -/
def collStep (check : List A → PyM (List A)) (o : CollObj S) : CollOp A → CollObj S
  | .fit X => (collFit T check o X).1
  | .fitTransform order X => (collFitTransform T check order o X).1
  | .transform order X => (collTransform T check order o X).1

end

/-! ### `Nerve.fit` and `ParallelClustering.transform` -/

section

variable {P C : Type} [DecidableEq P] [DecidableEq C]

/-- `Nerve.fit`, gtda/mapper/nerve.py:70-89: `graph_` (`none` before) and whether the call returned (`none`: more than `fuel` steps of the loop of `_limit_mapping`). -/
def nerveFit (minInt : Int) (storeElements contract : Bool) (fuel : Nat) (graph : Option (Mapper.Graph P C)) (X : List (List (P × C))) : Option (Mapper.Graph P C) × PyM (Option Unit) :=
  match Mapper.nerve minInt storeElements contract fuel X with
  | .error e => (graph, .error e)
  | .ok none => (graph, .ok none)
  | .ok (some g) => (some g, .ok (some ()))

end

/-- `ParallelClustering.transform`, gtda/mapper/cluster.py:220-239. -/
def clusteringTransform {A B : Type} (_X : A) : PyM B := .error .notImplemented

end Gtda.Adapters
