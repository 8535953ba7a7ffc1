import Verif.Model.TimeSeries

set_option autoImplicit false

/-!
# Model of `Labeller` and `SingleTakensEmbedding` as fitted objects

`gtda/time_series/target.py` and `gtda/time_series/embedding.py`: `fit` stores attributes one after the other, and `transform` and `resample` read stored attributes as well as present parameters.

Simplifications: time series are lists of numbers (see `Verif/Model/Stateless.lean` for `column_or_1d` and the checks made by `SlidingWindow`). The function of a `Labeller` is applied to every window and does not raise.
Positive integer parameters are natural numbers, so that zero is the only value to refuse. The search for the parameters of the Takens embedding (modelled in `Verif/Model/TakensSearch.lean`) is a parameter.
-/

namespace Gtda.SeriesObject
open Gtda.Py Gtda.TimeSeries

section
variable {Fn Q K : Type}

/-- The functions that a `Labeller` may be given: `apply func params window`, and the empty dictionary of parameters. Used in `fit`, gtda/time_series/target.py:110-114. -/
structure Env (Fn Q K : Type) where
  apply : Fn → Q → List K → K
  noParams : Q

/-- The parameters of `Labeller`, gtda/time_series/target.py:80-86. -/
structure LParams (Fn Q K : Type) where
  size : Nat
  func : Fn
  funcParams : Option Q
  percentiles : Option (List K)
  nSteps : Nat

/-- A `Labeller`: its parameters, the size of `_sliding_window`, `_effective_func_params` and `thresholds_` (`none`: not set; the inner `none` is Python's), gtda/time_series/target.py:108-120. -/
structure Labeller (Fn Q K : Type) where
  params : LParams Fn Q K
  window : Option Nat
  eff : Option Q
  thresholds : Option (Option (List K))

/-- `__init__`, gtda/time_series/target.py:80-86. -/
def newLabeller (p : LParams Fn Q K) : Labeller Fn Q K := ⟨p, none, none, none⟩

variable [Field K] [LinearOrder K] [FloorRing K]

/-- `validate_params`, gtda/time_series/target.py:68-78, 106. -/
def labellerValidate (p : LParams Fn Q K) : PyM Unit :=
  if p.size < 1 ∨ p.nSteps < 1 then .error .valueError
  else if (p.percentiles.getD []).all fun q => decide (0 ≤ q ∧ q ≤ 100) then .ok () else .error .valueError

/-- `Labeller.fit`, gtda/time_series/target.py:105-122: the object afterwards, and whether the call succeeded. `SlidingWindow.fit` refuses a series without values. -/
def labellerFit (E : Env Fn Q K) (o : Labeller Fn Q K) (X : List K) : Labeller Fn Q K × PyM Unit :=
  match labellerValidate o.params with
  | .error e => (o, .error e)
  | .ok _ =>
    if X.length = 0 then (o, .error .valueError)
    else
      let o1 : Labeller Fn Q K := { o with window := some o.params.size }
      match slidingTransform o.params.size 1 X with
      | .error e => (o1, .error e)
      | .ok w =>
        let eff := match o.params.funcParams with
          | none => E.noParams
          | some q => q
        let v := w.map (E.apply o.params.func eff)
        ({ o1 with eff := some eff, thresholds := some (o.params.percentiles.map fun ps => ps.map (percentile (v.map absK))) }, .ok ())

/-- `Labeller.transform`, gtda/time_series/target.py:142-149: size and number of steps are those of the parameters. -/
def labellerObjTransform (o : Labeller Fn Q K) (X : List K) : PyM (List K) :=
  match o.thresholds with
  | none => .error .notFitted
  | some _ => .ok (labellerTransform o.params.size o.params.nSteps X)

/-- What `resample` returns: values, or classes. Used in `labellerObjResample`, gtda/time_series/target.py:188. -/
inductive Labels (K : Type)
  | values (l : List K)
  | classes (l : List Nat)
  deriving DecidableEq

/-- `Labeller.resample`, gtda/time_series/target.py:169-188: windows and parameters of the function are those of `fit`, the function, the size in the final cut and the number of steps are the present ones. -/
def labellerObjResample (E : Env Fn Q K) (o : Labeller Fn Q K) (y : List K) : PyM (Labels K) :=
  match o.thresholds with
  | none => .error .notFitted
  | some th =>
    match o.window, o.eff with
    | some w, some eff => do
      let yr ← labellerWindowed w (E.apply o.params.func eff) y
      match th with
      | none => .ok (.values (labellerCut o.params.size o.params.nSteps yr))
      | some t => do
        let c ← labellerClassify t (yr.map absK)
        .ok (.classes (labellerCut o.params.size o.params.nSteps c))
    | _, _ => .error .attributeError

/-- What is done with a `Labeller` before it is used: `set_params` (scikit-learn) and `fit`. Used with gtda/time_series/target.py:80-122. -/
inductive LOp (Fn Q K : Type)
  | set (p : LParams Fn Q K)
  | fit (X : List K)

/-- The object after a history, exceptions being caught. Used with gtda/time_series/target.py:80-122. -/
def labellerRun (E : Env Fn Q K) (ops : List (LOp Fn Q K)) (o : Labeller Fn Q K) : Labeller Fn Q K :=
  ops.foldl (fun o op => match op with
    | .set p => { o with params := p }
    | .fit X => (labellerFit E o X).1) o

end

/-! ### `SingleTakensEmbedding` -/

section
variable {K : Type}

/-- The parameters of `SingleTakensEmbedding`; `search` says whether `parameters_type == 'search'`, gtda/time_series/embedding.py:411-417. -/
structure TParams where
  search : Bool
  timeDelay : Nat
  dimension : Nat
  stride : Nat
  deriving DecidableEq

/-- A `SingleTakensEmbedding`: its parameters, `time_delay_` and `dimension_`, gtda/time_series/embedding.py:444-452. -/
structure Takens where
  params : TParams
  found : Option (Nat × Nat)
  deriving DecidableEq

/-- `__init__`, gtda/time_series/embedding.py:411-417. -/
def newTakens (p : TParams) : Takens := ⟨p, none⟩

/-- `SingleTakensEmbedding.fit`, gtda/time_series/embedding.py:440-454. `search X time_delay dimension stride` is `takens_embedding_optimal_parameters`. -/
def takensFit (search : List K → Nat → Nat → Nat → PyM (Nat × Nat)) (o : Takens) (X : List K) : Takens × PyM Unit :=
  if o.params.timeDelay < 1 ∨ o.params.dimension < 1 ∨ o.params.stride < 1 then (o, .error .valueError)
  else if o.params.search then
    match search X o.params.timeDelay o.params.dimension o.params.stride with
    | .error e => (o, .error e)
    | .ok r => ({ o with found := some r }, .ok ())
  else ({ o with found := some (o.params.timeDelay, o.params.dimension) }, .ok ())

/-- `SingleTakensEmbedding.transform`, gtda/time_series/embedding.py:475-483: the stride is that of the parameters. -/
def takensTransform {α : Type} (o : Takens) (X : List α) : PyM (List (List α)) :=
  match o.found with
  | none => .error .notFitted
  | some r => if o.params.stride = 0 then .error .zeroDivision else singleTakensTransform r.1 r.2 o.params.stride X

/-- `SingleTakensEmbedding.resample`, gtda/time_series/embedding.py:506-511. -/
def takensResample {α : Type} (o : Takens) (y : List α) : PyM (List α) :=
  match o.found with
  | none => .error .notFitted
  | some r => if o.params.stride = 0 then .error .valueError else .ok (singleTakensResample r.1 r.2 o.params.stride y)

/-- What is done with a `SingleTakensEmbedding` before it is used. Used with gtda/time_series/embedding.py:411-454. -/
inductive TOp (K : Type)
  | set (p : TParams)
  | fit (X : List K)

/-- The object after a history, exceptions being caught. Used with gtda/time_series/embedding.py:411-454. -/
def takensRun (search : List K → Nat → Nat → Nat → PyM (Nat × Nat)) (ops : List (TOp K)) (o : Takens) : Takens :=
  ops.foldl (fun o op => match op with
    | .set p => { o with params := p }
    | .fit X => (takensFit search o X).1) o

end

end Gtda.SeriesObject
