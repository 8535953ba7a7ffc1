import Verif.Model.Pipeline

set_option autoImplicit false

/-!
# Model of the attributes of a `gtda.pipeline.Pipeline`, and of pipelines as steps of pipelines

A pipeline is itself an estimator. `asEst` collects the methods of a pipeline in the record of `Verif.Model.Pipeline`; its state is the list of the states of its steps. Steps of the outer
pipeline that are not pipelines have a list with one state (`lift`).
-/

namespace Gtda.PipelineNesting
open Gtda.Py Gtda.Pipeline

variable {V Y P S : Type}

/-- `self._final_estimator` (scikit-learn's; `None` counts as `'passthrough'`): the final step if it is an estimator. Used in gtda/pipeline.py:141, 206, 245, 303, 333, 369. An empty list of steps
(`IndexError`) is not distinguished from a final `'passthrough'`. -/
def finalEst (steps : List (Step V Y P S)) : Option (Est V Y P S) :=
  match steps.getLast? with
  | some s => match s.kind with
    | .est e => some e
    | _ => none
  | none => none

/-- Is there a method `transform`? gtda/pipeline.py:369-371. -/
def hasTransform (steps : List (Step V Y P S)) : Bool :=
  match finalEst steps with
  | some e => e.transform.isSome
  | none => true

/-- Is there a method `resample`? gtda/pipeline.py:303-305. -/
def hasResample (steps : List (Step V Y P S)) : Bool :=
  match finalEst steps with
  | some e => e.resample.isSome
  | none => true

/-- Is there a method `transform_resample`? gtda/pipeline.py:333-339. -/
def hasTransformResample (steps : List (Step V Y P S)) : Bool :=
  match finalEst steps with
  | some e => if e.transformResample.isSome then true else e.transform.isSome
  | none => true

/-- Is there a method `inverse_transform`? gtda/pipeline.py:399-401. -/
def hasInverse (steps : List (Step V Y P S)) : Bool := (iter steps).all fun es => es.1.inverse.isSome

/-- Is there a method `score`? gtda/pipeline.py:410 (`if_delegate_has_method`): the string `'passthrough'` has none. -/
def hasScore (steps : List (Step V Y P S)) : Bool :=
  match finalEst steps with
  | some e => e.score.isSome
  | none => false

/-- `hasattr(p, 'transform')` and calling it, gtda/pipeline.py:350-377. -/
def callTransform (steps : List (Step V Y P S)) (X : V) : PyM V := if hasTransform steps then transform steps X else .error .attributeError

/-- Calling `resample`, gtda/pipeline.py:284-311. -/
def callResample {A : Type} (steps : List (Step V Y P S)) (X : A) (y : Option Y := none) : PyM (Option Y) := if hasResample steps then resample steps X y else .error .attributeError

/-- Calling `transform_resample`, gtda/pipeline.py:313-348. -/
def callTransformResample (steps : List (Step V Y P S)) (X : V) (y : Option Y) : PyM (V × Option Y) :=
  if hasTransformResample steps then transformResample steps X y else .error .attributeError

/-- Calling `inverse_transform`, gtda/pipeline.py:379-408. -/
def callInverse (steps : List (Step V Y P S)) (X : V) (y : Option Y := none) : PyM V := if hasInverse steps then inverseTransform steps X y else .error .attributeError

/-- Calling `score`, gtda/pipeline.py:410-442. -/
def callScore (steps : List (Step V Y P S)) (X : V) (y : Option Y) : PyM P := if hasScore steps then score steps X y else .error .attributeError

/-! ### A pipeline as an estimator -/

/-- The states of the steps, gtda/pipeline.py:99. -/
def states (steps : List (Step V Y P S)) : List S := steps.map fun s => s.state

/-- The steps with other states, gtda/pipeline.py:99, 140. -/
def put (steps : List (Step V Y P S)) (st : List S) : List (Step V Y P S) := List.zipWith (fun s x => { s with state := x }) steps st

/-- A pipeline with these steps as an estimator, gtda/pipeline.py:12-442. `fit_transform` and `fit_transform_resample` are always there (178, 215). The result `None` of `fit_transform_resample` (249-252: the final step
has neither method) cannot be unpacked at 126 (`TypeError`); a final nested pipeline, whose caller would get `None`, is also modelled like this. `resample(yr)` at 310 passes its argument as `X` (307);
the result `None` for a pipeline without estimators is modelled as an exception. -/
def asEst (steps : List (Step V Y P S)) : Est V Y P (List S) where
  fit := fun st X y prm => let q := Pipeline.fit (put steps st) X y prm; (states q.1, q.2)
  transform := if hasTransform steps then some (fun st X => transform (put steps st) X) else none
  resample := if hasResample steps then some (fun st y => do
    match ← resample (put steps st) y none with
    | some yr => .ok yr
    | none => .error .typeError) else none
  fitTransform := some (fun st X y prm => let q := Pipeline.fitTransform (put steps st) X y prm; (states q.1, q.2))
  transformResample := if hasTransformResample steps then some (fun st X y => transformResample (put steps st) X y) else none
  fitTransformResample := some (fun st X y prm =>
    let q := Pipeline.fitTransformResample (put steps st) X y prm
    (states q.1, do
      match ← q.2 with
      | some r => .ok r
      | none => .error .typeError))
  inverse := if hasInverse steps then some (.two fun st X y => inverseTransform (put steps st) X y) else none
  score := if hasScore steps then some (fun st X y => score (put steps st) X y) else none

/-- A method that fits, on a list with one state. Used in `lift`, gtda/pipeline.py:113. -/
def lift1 {α : Type} (f : S → V → Option Y → Dict P → S × PyM α) : List S → V → Option Y → Dict P → List S × PyM α
  | [s], X, y, prm => let q := f s X y prm; ([q.1], q.2)
  | st, _, _, _ => (st, .error .attributeError)

/-- A method that does not fit, on a list with one state. Used in `lift`, gtda/pipeline.py:113. -/
def lift0 {α : Type} (f : S → PyM α) : List S → PyM α
  | [s] => f s
  | _ => .error .attributeError

/-- An ordinary estimator next to nested pipelines: its state is a list with one element. gtda/pipeline.py:113. -/
def lift (e : Est V Y P S) : Est V Y P (List S) where
  fit := lift1 e.fit
  transform := e.transform.map fun f st X => lift0 (fun s => f s X) st
  resample := e.resample.map fun f st y => lift0 (fun s => f s y) st
  fitTransform := e.fitTransform.map lift1
  transformResample := e.transformResample.map fun f st X y => lift0 (fun s => f s X y) st
  fitTransformResample := e.fitTransformResample.map lift1
  inverse := e.inverse.map fun i => match i with
    | .one f => .one fun st X => lift0 (fun s => f s X) st
    | .two f => .two fun st X y => lift0 (fun s => f s X y) st
  score := e.score.map fun f st X y => lift0 (fun s => f s X y) st

/-- An ordinary step next to nested pipelines, gtda/pipeline.py:113. -/
def liftStep (s : Step V Y P S) : Step V Y P (List S) :=
  ⟨s.name, match s.kind with
    | .none => .none
    | .passthrough => .passthrough
    | .est e => .est (lift e), [s.state]⟩

/-- A pipeline as a step, gtda/pipeline.py:113. -/
def nest (name : Name) (steps : List (Step V Y P S)) : Step V Y P (List S) := ⟨name, .est (asEst steps), states steps⟩

/-! ### `fit_predict` and `make_pipeline` -/

/-- `Pipeline.fit_predict`, gtda/pipeline.py:254-282; `predict` is the method of the final step (`none`: it does not exist). -/
def fitPredict {A : Type} (predict : Option (S → V → Option Y → Dict P → S × PyM A)) (steps : List (Step V Y P S)) (X : V) (y : Option Y) (fitParams : Dict P) : List (Step V Y P S) × PyM A :=
  match finalEst steps, predict with
  | some _, some f => withFinal steps X y fitParams (fun _ _ => .error .attributeError) fun _ => f
  | _, _ => (steps, .error .attributeError)

/-- `str.lower` of a class name is given, the estimators are those passed to `make_pipeline`. scikit-learn's `_name_estimators`, called at gtda/pipeline.py:517: names that occur several times get
`-1`, `-2`, ... in order. `show` writes a number. -/
def nameEstimators (show_ : Nat → List Char) (names : List Name) : List Name :=
  names.zipIdx.map fun q =>
    if 1 < names.count q.1 then q.1 ++ '-' :: show_ ((names.take (q.2 + 1)).count q.1) else q.1

/-- `make_pipeline`, gtda/pipeline.py:513-517: the pairs of names and estimators and the `memory` argument; other keyword arguments raise `TypeError`. -/
def makePipeline {A B : Type} (show_ : Nat → List Char) (lower : A → Name) (steps : List A) (kwargs : List (Name × B)) : PyM (List (Name × A) × Option B) :=
  let memory := (kwargs.find? fun kv => kv.1 = "memory".toList).map Prod.snd
  if (kwargs.filter fun kv => kv.1 ≠ "memory".toList).isEmpty then .ok ((nameEstimators show_ (steps.map lower)).zip steps, memory) else .error .typeError

end Gtda.PipelineNesting
