import Verif.Py.Basic

set_option autoImplicit false

/-!
# Model of `gtda/pipeline.py` and `gtda/base.py`

An estimator is the record of its methods, acting on an object state `S`; `hasattr` is `Option.isSome`. Data passed between steps are of a type `V`, targets of a type `Y` (`none` is
Python's `None`), values of fit parameters of a type `P`. A method that raises may have changed the object before, so `fit`-like methods return the new state together with the outcome.
Methods that do not fit leave the object unchanged. `memory=None` (the default): steps are fitted in place, nothing is cloned or cached. `_validate_steps` and `_iter` are scikit-learn's.
-/

namespace Gtda.Pipeline
open Gtda.Py

/-- Names of steps and of parameters: lists of characters. Used in `split2`, gtda/pipeline.py:111. -/
abbrev Name := List Char

/-- A dictionary, as the list of its items in insertion order. Used in `mixin`, gtda/base.py:6-88. -/
abbrev Dict (P : Type) := List (Name × P)

/-- The number of positional data arguments of an `inverse_transform` method, and the method. Used in `mixin`, gtda/base.py:6-88. -/
inductive Inverse (V Y S : Type) where
  | one (f : S → V → PyM V)
  | two (f : S → V → Option Y → PyM V)

/-- The methods of an estimator. Used in `mixin`, gtda/base.py:6-88. -/
structure Est (V Y P S : Type) where
  fit : S → V → Option Y → Dict P → S × PyM Unit
  transform : Option (S → V → PyM V) := none
  resample : Option (S → Option Y → PyM Y) := none
  fitTransform : Option (S → V → Option Y → Dict P → S × PyM V) := none
  transformResample : Option (S → V → Option Y → PyM (V × Option Y)) := none
  fitTransformResample : Option (S → V → Option Y → Dict P → S × PyM (V × Option Y)) := none
  inverse : Option (Inverse V Y S) := none
  score : Option (S → V → Option Y → PyM P) := none

/-- A step of a pipeline: `None`, `'passthrough'` or an estimator object. Used in `emptyParams`, gtda/pipeline.py:108-109. -/
inductive Kind (V Y P S : Type) where
  | none
  | passthrough
  | est (e : Est V Y P S)

/-- A named step; `state` is the object's state (irrelevant for `None` and `'passthrough'`). Used in `emptyParams`, gtda/pipeline.py:108-109. -/
structure Step (V Y P S : Type) where
  name : Name
  kind : Kind V Y P S
  state : S

variable {V Y P S : Type}

/-! ### `TransformerResamplerMixin` and `TransformerMixin` -/

/-- `fit(...)` followed, if it does not raise, by a call on the fitted object. Used in `mixin`, gtda/base.py:6-88. -/
def thenCall {α : Type} (r : S × PyM Unit) (f : S → PyM α) : S × PyM α :=
  match r with
  | (s, .error e) => (s, .error e)
  | (s, .ok ()) => (s, f s)

/-- `TransformerResamplerMixin`, gtda/base.py:6-88: `fit_transform` (34-39), `transform_resample` (64) and `fit_transform_resample` (88) derived from `fit`, `transform` and `resample`
(whose second argument no class of the library uses). -/
def mixin (fit : S → V → Option Y → Dict P → S × PyM Unit) (transform : S → V → PyM V) (resample : S → Option Y → PyM Y) : Est V Y P S :=
  let transformResample := fun (s : S) (X : V) (y : Option Y) => do
    let Xt ← transform s X
    let yr ← resample s y
    Except.ok (Xt, some yr)
  { fit := fit
    transform := some transform
    resample := some resample
    fitTransform := some fun s X y prm => thenCall (fit s X y prm) fun s' => transform s' X
    transformResample := some transformResample
    fitTransformResample := some fun s X y prm => thenCall (fit s X y prm) fun s' => transformResample s' X y }

/-- scikit-learn's `TransformerMixin` (the base class of the transformers that do not resample): `fit_transform` derived from `fit` and `transform`. Used by the classes of gtda/base.py:6-88 and by the steps of gtda/pipeline.py. -/
def plainMixin (fit : S → V → Option Y → Dict P → S × PyM Unit) (transform : S → V → PyM V) : Est V Y P S :=
  { fit := fit
    transform := some transform
    fitTransform := some fun s X y prm => thenCall (fit s X y prm) fun s' => transform s' X }

/-! ### Routing of fit parameters -/

/-- `pname.split('__', 1)`, gtda/pipeline.py:111: the parts before and after the first double underscore; `none` if there is none (unpacking one part into two raises `ValueError`). -/
def split2 : Name → Option (Name × Name)
  | [] => none
  | '_' :: '_' :: t => some ([], t)
  | c :: t => (split2 t).map fun p => (c :: p.1, p.2)

/-- `d[k] = v`. Used in `emptyParams`, gtda/pipeline.py:108-109. -/
def Dict.set {A : Type} (d : List (Name × A)) (k : Name) (v : A) : List (Name × A) :=
  if d.any (fun kv => kv.1 = k) then d.map fun kv => if kv.1 = k then (k, v) else kv else d ++ [(k, v)]

/-- `d[k]`. Used in `routeOne`, gtda/pipeline.py:110-112. -/
def Dict.get {A : Type} (d : List (Name × A)) (k : Name) : PyM A :=
  match d.find? fun kv => kv.1 = k with
  | some kv => .ok kv.2
  | none => .error .keyError

/-- Is the step `None`? Used in `emptyParams`, gtda/pipeline.py:108-109. -/
def Kind.isNone : Kind V Y P S → Bool
  | .none => true
  | _ => false

/-- `{name: {} for name, step in self.steps if step is not None}`, gtda/pipeline.py:108-109. -/
def emptyParams (steps : List (Step V Y P S)) : List (Name × Dict P) :=
  (steps.filter fun s => !s.kind.isNone).foldl (fun d s => Dict.set d s.name []) []

/-- One iteration of the loop at gtda/pipeline.py:110-112. -/
def routeOne (d : List (Name × Dict P)) (kv : Name × P) : PyM (List (Name × Dict P)) :=
  match split2 kv.1 with
  | none => .error .valueError
  | some (step, param) => do
    let inner ← Dict.get d step
    .ok (Dict.set d step (Dict.set inner param kv.2))

/-- `fit_params_steps`, gtda/pipeline.py:108-112. -/
def routeParams (steps : List (Step V Y P S)) (fitParams : Dict P) : PyM (List (Name × Dict P)) := fitParams.foldlM routeOne (emptyParams steps)

/-! ### Fitting -/

/-- A method that the object does not have raises `AttributeError`. Used in `fitTransformOne`, gtda/pipeline.py:445-453. -/
def attr {α : Type} (m : Option α) : PyM α :=
  match m with
  | some f => .ok f
  | none => .error .attributeError

/-- `_fit_transform_one` without weight, gtda/pipeline.py:445-453. -/
def fitTransformOne (e : Est V Y P S) (s : S) (X : V) (y : Option Y) (prm : Dict P) : S × PyM V :=
  match e.fitTransform with
  | some f => f s X y prm
  | none => thenCall (e.fit s X y prm) fun s' => do (← attr e.transform) s' X

/-- `_fit_transform_resample_one` without weight, gtda/pipeline.py:456-467. -/
def fitTransformResampleOne (e : Est V Y P S) (s : S) (X : V) (y : Option Y) (prm : Dict P) : S × PyM (V × Option Y) :=
  match e.fitTransformResample with
  | some f => f s X y prm
  | none => thenCall (e.fit s X y prm) fun s' => do (← attr e.transformResample) s' X y

/-- Fitting of one step that is not the final one, gtda/pipeline.py:121-135. -/
def fitOne (e : Est V Y P S) (s : S) (X : V) (y : Option Y) (prm : Dict P) : S × PyM (V × Option Y) :=
  if (e.resample.isSome || e.fitTransformResample.isSome) && y.isSome then fitTransformResampleOne e s X y prm
  else
    match fitTransformOne e s X y prm with
    | (s', .ok X') => (s', .ok (X', y))
    | (s', .error err) => (s', .error err)

/-- The loop at gtda/pipeline.py:113-140 over the steps before the final one (`_iter` skips `None` and `'passthrough'`); steps fitted before an exception stay fitted. -/
def fitLoop (fps : List (Name × Dict P)) : List (Step V Y P S) → V → Option Y → List (Step V Y P S) × PyM (V × Option Y)
  | [], X, y => ([], .ok (X, y))
  | s :: t, X, y =>
    match s.kind with
    | .est e =>
      match Dict.get fps s.name with
      | .error err => (s :: t, .error err)
      | .ok prm =>
        match fitOne e s.state X y prm with
        | (st, .error err) => ({ s with state := st } :: t, .error err)
        | (st, .ok (X', y')) =>
          let r := fitLoop fps t X' y'
          ({ s with state := st } :: r.1, r.2)
    | _ =>
      let r := fitLoop fps t X y
      (s :: r.1, r.2)

/-- scikit-learn's `_validate_names` and `_validate_steps`: step names are distinct, contain no double underscore and are not names of constructor arguments (`ValueError`); steps other than
the final one transform (`TypeError`). An empty list of steps raises `ValueError`. Every estimator in the model has `fit`. Used in `fitInner`, gtda/pipeline.py:98-143. -/
def validateSteps (steps : List (Step V Y P S)) : PyM Unit :=
  let names := steps.map fun s => s.name
  if steps.isEmpty then .error .valueError
  else if ¬ names.Nodup then .error .valueError
  else if names.any (fun n => n ∈ ["steps".toList, "memory".toList, "verbose".toList]) then .error .valueError
  else if names.any (fun n => (split2 n).isSome) then .error .valueError
  else if steps.dropLast.any (fun s => match s.kind with | .est e => e.transform.isNone | _ => false) then .error .typeError
  else .ok ()

/-- Result of `Pipeline._fit`: data and targets for the final step and its fit parameters. Used in `fitInner`, gtda/pipeline.py:98-143. -/
structure Fitted (V Y P S : Type) where
  X : V
  y : Option Y
  params : Dict P
  final : Step V Y P S

/-- `Pipeline._fit`, gtda/pipeline.py:98-143: the steps before the final one after the call, and the outcome. -/
def fitInner (steps : List (Step V Y P S)) (X : V) (y : Option Y) (fitParams : Dict P) : List (Step V Y P S) × PyM (Fitted V Y P S) :=
  match validateSteps steps with
  | .error err => (steps.dropLast, .error err)
  | .ok () =>
    match routeParams steps fitParams with
    | .error err => (steps.dropLast, .error err)
    | .ok fps =>
      match fitLoop fps steps.dropLast X y with
      | (front, .error err) => (front, .error err)
      | (front, .ok (X', y')) =>
        match steps.getLast? with
        | none => (front, .error .indexError)
        | some s =>
          match s.kind with
          | .est _ =>
            match Dict.get fps s.name with
            | .error err => (front, .error err)
            | .ok prm => (front, .ok ⟨X', y', prm, s⟩)
          | _ => (front, .ok ⟨X', y', [], s⟩)

/-- Run `_fit` and then `last` on the final step; the resulting list of steps and outcome. Used in `fit`, gtda/pipeline.py:173-176. -/
def withFinal {α : Type} (steps : List (Step V Y P S)) (X : V) (y : Option Y) (fitParams : Dict P) (passthrough : V → Option Y → PyM α)
    (last : Est V Y P S → S → V → Option Y → Dict P → S × PyM α) : List (Step V Y P S) × PyM α :=
  match fitInner steps X y fitParams with
  | (front, .error err) => (front ++ steps.getLast?.toList, .error err)
  | (front, .ok r) =>
    match r.final.kind with
    | .est e =>
      let q := last e r.final.state r.X r.y r.params
      (front ++ [{ r.final with state := q.1 }], q.2)
    | _ => (front ++ [r.final], passthrough r.X r.y)

/-- `Pipeline.fit`, gtda/pipeline.py:173-176. -/
def fit (steps : List (Step V Y P S)) (X : V) (y : Option Y) (fitParams : Dict P) : List (Step V Y P S) × PyM Unit :=
  withFinal steps X y fitParams (fun _ _ => .ok ()) fun e => e.fit

/-- `Pipeline.fit_transform`, gtda/pipeline.py:206-213. -/
def fitTransform (steps : List (Step V Y P S)) (X : V) (y : Option Y) (fitParams : Dict P) : List (Step V Y P S) × PyM V :=
  withFinal steps X y fitParams (fun X _ => .ok X) fun e s X y prm =>
    match e.fitTransform with
    | some f => f s X y prm
    | none => thenCall (e.fit s X y prm) fun s' => do (← attr e.transform) s' X

/-- `Pipeline.fit_transform_resample`, gtda/pipeline.py:245-252; `none` is Python's `None`, returned when the final step has neither `fit_transform_resample` nor `fit_transform`. -/
def fitTransformResample (steps : List (Step V Y P S)) (X : V) (y : Option Y) (fitParams : Dict P) : List (Step V Y P S) × PyM (Option (V × Option Y)) :=
  withFinal steps X y fitParams (fun X y => .ok (some (X, y))) fun e s X y prm =>
    match e.fitTransformResample, e.fitTransform with
    | some f, _ => let q := f s X y prm; (q.1, some <$> q.2)
    | none, some f => let q := f s X y prm; (q.1, (fun Xt => some (Xt, y)) <$> q.2)
    | none, none => (s, .ok none)

/-! ### Methods of a fitted pipeline -/

/-- `_iter()`: the estimators among the steps, with their states. Used in `transform`, gtda/pipeline.py:373-377. -/
def iter (steps : List (Step V Y P S)) : List (Est V Y P S × S) :=
  steps.filterMap fun s => match s.kind with
    | .est e => some (e, s.state)
    | _ => none

/-- `Pipeline._transform`, gtda/pipeline.py:373-377. -/
def transform (steps : List (Step V Y P S)) (X : V) : PyM V :=
  (iter steps).foldlM (fun X es => do (← attr es.1.transform) es.2 X) X

/-- One iteration of the loop of `Pipeline._transform_resample`, gtda/pipeline.py:344-347. -/
def transformResampleOne (Xy : V × Option Y) (es : Est V Y P S × S) : PyM (V × Option Y) :=
  match es.1.transformResample with
  | some f => f es.2 Xy.1 Xy.2
  | none => do
    let Xt ← (← attr es.1.transform) es.2 Xy.1
    .ok (Xt, Xy.2)

/-- `Pipeline._transform_resample`, gtda/pipeline.py:341-348. -/
def transformResample (steps : List (Step V Y P S)) (X : V) (y : Option Y) : PyM (V × Option Y) := (iter steps).foldlM transformResampleOne (X, y)

/-- `Pipeline._resample(X, y=None)`, gtda/pipeline.py:307-311: its first argument, whatever it is, is not used. -/
def resample {A : Type} (steps : List (Step V Y P S)) (_X : A) (y : Option Y := none) : PyM (Option Y) :=
  (iter steps).foldlM (fun yr es => do some <$> (← attr es.1.resample) es.2 yr) y

/-- `Pipeline._inverse_transform(X, y=None)`, gtda/pipeline.py:403-408: every `inverse_transform` is called with two positional arguments (`TypeError` for a method that takes one). -/
def inverseTransform (steps : List (Step V Y P S)) (X : V) (y : Option Y := none) : PyM V :=
  (iter steps).reverse.foldlM (fun Xt es => do
    match ← attr es.1.inverse with
    | .one _ => .error .typeError
    | .two f => f es.2 Xt y) X

/-- `Pipeline.score` without sample weights, gtda/pipeline.py:432-442; a final step that is not an estimator has no `score`. -/
def score (steps : List (Step V Y P S)) (X : V) (y : Option Y) : PyM P := do
  let Xy ← (iter steps.dropLast).foldlM transformResampleOne (X, y)
  match iter steps.getLast?.toList with
  | [(e, st)] => (← attr e.score) st Xy.1 Xy.2
  | _ => .error .attributeError

end Gtda.Pipeline
