import Verif.Model.MapperCluster
import Verif.Model.Validation
import Verif.Model.Diagrams
import Verif.Model.TimeSeries

set_option autoImplicit false

/-!
# Model of `gtda/curves/preprocessing.py` (`Derivative`) and `gtda/curves/features.py`, `gtda/curves/_functions.py` (`StandardFeatures`)

A collection of curves is a list of samples, each a list of channels, each a list of values. Arithmetic is exact.
-/

namespace Gtda.CurveFeatures
open Gtda.Py Gtda.Parallel Gtda.Validation

/-! ### `Derivative` -/

section
variable {K : Type} [Sub K]

/-- `np.diff(x, n=n)`: `n` times the difference of neighbours. Used in `derivativeTransform`, gtda/curves/preprocessing.py:89-119. -/
def diffN : Nat → List K → List K
  | 0, x => x
  | n + 1, x => diffN n (TimeSeries.npDiff x)

/-- `Derivative(order).fit(X)`, gtda/curves/preprocessing.py:51-87: checks only. `nBins` is `X.shape[2]`. -/
def derivativeFit (order : Int) (nBins : Nat) : PyM Unit :=
  if order < 1 then .error .valueError
  else if (nBins : Int) ≤ order then .error .valueError
  else .ok ()

/-- `Derivative(order, n_jobs).fit(X).transform(Y)`, gtda/curves/preprocessing.py:89-119. -/
def derivativeTransform (order : Int) (nJobs nBins : Nat) (Y : List (List (List K))) : PyM (List (List (List K))) := do
  derivativeFit order nBins
  pure (chunked (List.map fun c => c.map (diffN order.toNat)) nJobs Y)

end

/-! ### `StandardFeatures` -/

section
variable {K : Type}

/-- Keyword arguments. Used in `channelParams`, gtda/curves/features.py:195-203. -/
abbrev Kwargs := List (String × PyVal)

/-- What a feature function returns: a scalar or a one-dimensional array. Used in `callChannel`, gtda/curves/_functions.py:42. -/
inductive Out (K : Type)
  | scalar (x : K)
  | vec (l : List K)

/-- `np.ravel`. Used in `featurize`, gtda/curves/_functions.py:34-52. -/
def ravel : Out K → List K
  | .scalar x => [x]
  | .vec l => l

/-- A feature function as passed by the user: keyword arguments and one channel. Used in `checkEntry`, gtda/curves/features.py:81-85. -/
abbrev FnVal (K : Type) := Kwargs → List K → PyM (Out K)

/-- An entry of `function`: a string, a function, `None` or some other object. Used in `checkEntry`, gtda/curves/features.py:81-85. -/
inductive FnSpec (K : Type)
  | str (s : String)
  | fn (f : FnVal K)
  | none
  | other

/-- The parameter `function`. Used in `validateFunctionType`, gtda/curves/features.py:94-113. -/
inductive FunctionParam (K : Type)
  | one (f : FnSpec K)
  | many (fs : List (FnSpec K))

/-- The parameter `function_params`: `None`, a dictionary, or a list of dictionaries and `None`. Used in `validateFunction`, gtda/curves/features.py:94-124. -/
inductive ParamsParam
  | none
  | dict (p : Kwargs)
  | many (ps : List (Option Kwargs))

/-- Keys of `_AVAILABLE_FUNCTIONS`, gtda/curves/_functions.py:9-19. -/
def available : List String := ["identity", "argmax", "argmin", "min", "max", "mean", "std", "median", "average"]

/-- `_AVAILABLE_FUNCTIONS[s]`, gtda/curves/_functions.py:9-19. -/
def paramRefs (s : String) : Refs :=
  if s = "average" then .cons "weights" (.mk (some (.one .ndarray)) none none .none) .nil else .nil

/-- The check of one entry of a list by `validate_params` ('of' of `function`), gtda/curves/features.py:81-85. -/
def checkEntry : FnSpec K → PyM Unit
  | .str s => if s ∈ available then .ok () else .error .valueError
  | .fn _ => .error .valueError
  | .none => .ok ()
  | .other => .error .typeError

/-- `isinstance(f, str)`. Used in `validateEntries`, gtda/curves/features.py:99-113. -/
def FnSpec.isStr : FnSpec K → Bool
  | .str _ => true
  | _ => false

/-- The two attempts at validating a list of functions, gtda/curves/features.py:99-113. -/
def validateEntries (fs : List (FnSpec K)) : PyM Unit :=
  match fs.forM checkEntry with
  | .error .valueError => (fs.filter FnSpec.isStr).forM checkEntry
  | r => r

/-- The check of `function` against `_hyperparameters`, gtda/curves/features.py:94-113. -/
def validateFunctionType : FunctionParam K → PyM Unit
  | .one (.str s) => if s ∈ available then .ok () else .error .valueError
  | .one (.fn _) => .ok ()
  | .one _ => .error .typeError
  | .many fs => validateEntries fs

/-- `StandardFeatures._validate_params`, gtda/curves/features.py:94-124. If the first attempt fails with a `ValueError` for a list, the strings of the list are checked alone. -/
def validateFunction (f : FunctionParam K) (p : ParamsParam) : PyM Unit := do
  validateFunctionType f
  match f, p with
  | .many _, .dict _ => .error .typeError
  | .one _, .many _ => .error .typeError
  | _, _ => .ok ()

/-- `effective_function_` and `effective_function_params_`. Used in `featuresFit`, gtda/curves/features.py:126-208. -/
inductive Effective (K : Type)
  | single (s : String) (p : Kwargs)
  | channels (fs : List (FnSpec K × Kwargs))

/-- The parameters of one channel, gtda/curves/features.py:195-203: those of strings are validated (`None` has no `items`). -/
def channelParams (f : FnSpec K) (p : Option Kwargs) : PyM (FnSpec K × Kwargs) :=
  match f with
  | .str s => match p with
    | none => .error .attributeError
    | some q => do validateParams q (paramRefs s) []; pure (f, q)
  | _ => .ok (f, p.getD [])

/-- The list of parameters of the channels, gtda/curves/features.py:183-191. -/
def paramsList (p : ParamsParam) (nChannels : Nat) : PyM (List (Option Kwargs)) :=
  match p with
  | .many ps => if ps.length ≠ nChannels then .error .valueError else .ok ps
  | _ => .ok (List.replicate nChannels (some []))

/-- `StandardFeatures.fit`, gtda/curves/features.py:126-208. -/
def featuresFit (f : FunctionParam K) (p : ParamsParam) (nChannels : Nat) : PyM (Effective K) := do
  validateFunction f p
  match f with
  | .one (.str s) => match p with
    | .dict q => do validateParams q (paramRefs s) []; pure (.single s q)
    | _ => pure (.single s [])
  | .one g => match p with
    | .dict q => pure (.channels (List.replicate nChannels (g, q)))
    | _ => pure (.channels (List.replicate nChannels (g, [])))
  | .many fs =>
    if fs.length ≠ nChannels then .error .valueError
    else do
      let ps ← paramsList p nChannels
      let eff ← (fs.zip ps).mapM fun q => channelParams q.1 q.2
      pure (.channels eff)

/-- `function[j](Xt[i, j], **function_params[j])`, gtda/curves/_functions.py:42. `np s q x` is the value of NumPy's function named `s` on the array `x`. The recipe of `"identity"`
has a second positional argument `axis`, which is not passed: `TypeError`. -/
def callChannel (np : String → Kwargs → List K → PyM K) (f : FnSpec K) (q : Kwargs) (x : List K) : PyM (Out K) :=
  match f with
  | .str s => if s = "identity" then .error .typeError else do let y ← np s q x; pure (.scalar y)
  | .fn g => g q x
  | _ => .error .typeError

/-- `f is not None`. Used in `featureTasks`, gtda/curves/_functions.py:38-44. -/
def FnSpec.notNone : FnSpec K → Bool
  | .none => false
  | _ => true

/-- The parallel tasks, gtda/curves/_functions.py:38-44: samples, and for each sample the channels whose function is not `None`. -/
def featureTasks (np : String → Kwargs → List K → PyM K) (fs : List (FnSpec K × Kwargs)) (X : List (List (List K))) : List (Unit → PyM (Out K)) :=
  X.flatMap fun c => ((fs.zip c).filter fun p => p.1.1.notNone).map fun p _ => callChannel np p.1.1 p.1.2 p.2

/-- `_parallel_featurization`, gtda/curves/_functions.py:34-52. Whether or not the results have the same shape, the array is filled with their ravelled values and reshaped
to as many rows as there are samples. -/
def featurize (np : String → Kwargs → List K → PyM K) (order : List Nat) (X : List (List (List K))) : Effective K → PyM (List (List K))
  | .single s q => if s = "identity" then .ok (X.map List.flatten) else X.mapM fun c => c.mapM (np s q)
  | .channels fs => do
    let r ← Mapper.scheduled (featureTasks np fs X) order
    let flat := r.flatMap ravel
    Diagrams.reshape2 X.length (flat.length / X.length) flat

/-- `StandardFeatures(function, function_params).fit(X).transform(X)` for a collection of curves with `nChannels` channels, gtda/curves/features.py:210-243. `order` is the order in
which the parallel tasks are executed. -/
def featuresFitTransform (np : String → Kwargs → List K → PyM K) (order : List Nat) (f : FunctionParam K) (p : ParamsParam) (nChannels : Nat) (X : List (List (List K))) :
    PyM (List (List K)) := do
  let eff ← featuresFit f p nChannels
  featurize np order X eff

end

end Gtda.CurveFeatures
