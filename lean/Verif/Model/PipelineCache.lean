import Verif.Model.Pipeline

set_option autoImplicit false

/-!
# Model of the `memory` argument of `gtda.pipeline.Pipeline`

`Verif.Model.Pipeline` models `memory=None` with one object per step. Here estimators are objects in a heap, steps refer to them by address (so the same object can be used in several
steps and is still held by the user), and the functions that fit a step go through a cache (`joblib.Memory`, an external library): a call with arguments seen before returns a stored
copy of the result, other calls are executed and, unless they raise, stored. Arguments are compared exactly (joblib compares hashes of them, so no collisions are modelled), stored results
never expire. `clone` is scikit-learn's: a new object with the same constructor parameters and nothing fitted.
-/

namespace Gtda.PipelineCache
open Gtda.Py Gtda.Pipeline

/-- The second component of a step: `None`, `'passthrough'`, or an estimator, given by its class and its address in the heap. gtda/pipeline.py:108-113. -/
inductive CKind (C : Type) where
  | none
  | passthrough
  | est (cls : C) (ref : Nat)

/-- One of the pairs in `self.steps`, gtda/pipeline.py:99. -/
structure CStep (C : Type) where
  name : Name
  kind : CKind C

/-- The arguments of a call of one of the two cached functions (`resampling` tells which one), gtda/pipeline.py:104-106, 126-135: the estimator (class and state), data, targets, and fit parameters.
The weight is always `None`. -/
structure Key (C V Y P S : Type) where
  resampling : Bool
  cls : C
  state : S
  X : V
  y : Option Y
  params : Dict P
deriving DecidableEq

/-- A stored result: the fitted estimator and the data and targets for the next step, gtda/pipeline.py:452, 466. For `_fit_transform_one`, which does not return targets, `y` is the targets it was given. -/
structure Stored (V Y S : Type) where
  state : S
  X : V
  y : Option Y

/-- Objects, the content of the cache directory, and the calls executed (not answered from the cache) so far, gtda/pipeline.py:101-106. -/
structure World (C V Y P S : Type) where
  heap : List S := []
  cache : List (Key C V Y P S × Stored V Y S) := []
  trace : List (Key C V Y P S) := []

variable {C V Y P S : Type} [DecidableEq C] [DecidableEq V] [DecidableEq Y] [DecidableEq P] [DecidableEq S] [Inhabited S]

/-- The state of the object at an address, used wherever a step's estimator is accessed, gtda/pipeline.py:113. -/
def deref (heap : List S) (ref : Nat) : S := heap.getD ref default

/-- Lookup in the cache, done by the functions created at gtda/pipeline.py:104-106. -/
def lookup (cache : List (Key C V Y P S × Stored V Y S)) (k : Key C V Y P S) : Option (Stored V Y S) :=
  (cache.find? fun e => e.1 = k).map fun e => e.2

/-- A step as `Verif.Model.Pipeline` sees it: the methods of the class and the state of the object, gtda/pipeline.py:113. -/
def resolve (M : C → Est V Y P S) (heap : List S) (s : CStep C) : Step V Y P S :=
  match s.kind with
  | .none => ⟨s.name, .none, default⟩
  | .passthrough => ⟨s.name, .passthrough, default⟩
  | .est c ref => ⟨s.name, .est (M c), deref heap ref⟩

/-- Which of the two functions is called, gtda/pipeline.py:122-124. -/
def resamples (e : Est V Y P S) (y : Option Y) : Bool := (e.resample.isSome || e.fitTransformResample.isSome) && y.isSome

/-- The body of the loop, gtda/pipeline.py:114-140, for one estimator: with `memory=None` the object itself is fitted (114-117); otherwise a clone (118-119) is fitted or the result loaded from
the cache, which creates a new object. Returns the address of the fitted object and the data and targets for the next step. -/
def stepFit (M : C → Est V Y P S) (clone : C → S → S) (memory : Bool) (w : World C V Y P S) (c : C) (ref : Nat) (X : V) (y : Option Y) (prm : Dict P) :
    World C V Y P S × PyM (Nat × V × Option Y) :=
  if memory then
    let s := clone c (deref w.heap ref)
    let key : Key C V Y P S := ⟨resamples (M c) y, c, s, X, y, prm⟩
    match lookup w.cache key with
    | some r => ({ w with heap := w.heap ++ [s, r.state] }, .ok (w.heap.length + 1, r.X, r.y))
    | none =>
      match fitOne (M c) s X y prm with
      | (s', .error err) => ({ w with heap := w.heap ++ [s'], trace := w.trace ++ [key] }, .error err)
      | (s', .ok r) => ({ heap := w.heap ++ [s'], cache := w.cache ++ [(key, ⟨s', r.1, r.2⟩)], trace := w.trace ++ [key] }, .ok (w.heap.length, r.1, r.2))
  else
    let key : Key C V Y P S := ⟨resamples (M c) y, c, deref w.heap ref, X, y, prm⟩
    let q := fitOne (M c) (deref w.heap ref) X y prm
    ({ w with heap := w.heap.set ref q.1, trace := w.trace ++ [key] }, (fun r => (ref, r.1, r.2)) <$> q.2)

/-- The loop at gtda/pipeline.py:113-140: the steps after it (`self.steps[step_idx] = (name, fitted_transformer)`, 140, is not reached by a step that raises) and the outcome. -/
def loop (M : C → Est V Y P S) (clone : C → S → S) (memory : Bool) (fps : List (Name × Dict P)) :
    World C V Y P S → List (CStep C) → V → Option Y → World C V Y P S × List (CStep C) × PyM (V × Option Y)
  | w, [], X, y => (w, [], .ok (X, y))
  | w, s :: t, X, y =>
    match s.kind with
    | .est c ref =>
      match Dict.get fps s.name with
      | .error err => (w, s :: t, .error err)
      | .ok prm =>
        match stepFit M clone memory w c ref X y prm with
        | (w', .error err) => (w', s :: t, .error err)
        | (w', .ok r) =>
          let q := loop M clone memory fps w' t r.2.1 r.2.2
          (q.1, { s with kind := .est c r.1 } :: q.2.1, q.2.2)
    | _ =>
      let q := loop M clone memory fps w t X y
      (q.1, s :: q.2.1, q.2.2)

/-- The three methods that fit a pipeline, gtda/pipeline.py:145-252. -/
inductive Method where
  | fit
  | fitTransform
  | fitTransformResample
deriving DecidableEq

/-- What they return: the pipeline itself, data, or data and targets (`none` is Python's `None`), gtda/pipeline.py:176, 208-213, 247-252. -/
inductive Out (V Y : Type) where
  | self
  | data (X : V)
  | pair (r : Option (V × Option Y))
deriving DecidableEq

/-- The result when the final step is `None` or `'passthrough'`, gtda/pipeline.py:174, 207-208, 246-247. -/
def passOut : Method → V → Option Y → Out V Y
  | .fit, _, _ => .self
  | .fitTransform, X, _ => .data X
  | .fitTransformResample, X, y => .pair (some (X, y))

/-- The call on the final step, gtda/pipeline.py:174-176, 209-213, 248-252. -/
def lastCall : Method → Est V Y P S → S → V → Option Y → Dict P → S × PyM (Out V Y)
  | .fit, e, s, X, y, prm => let q := e.fit s X y prm; (q.1, (fun _ => Out.self) <$> q.2)
  | .fitTransform, e, s, X, y, prm => let q := fitTransformOne e s X y prm; (q.1, Out.data <$> q.2)
  | .fitTransformResample, e, s, X, y, prm =>
    match e.fitTransformResample, e.fitTransform with
    | some f, _ => let q := f s X y prm; (q.1, (fun r => Out.pair (some r)) <$> q.2)
    | none, some f => let q := f s X y prm; (q.1, (fun Xt => Out.pair (some (Xt, y))) <$> q.2)
    | none, none => (s, .ok (.pair none))

/-- `Pipeline.fit`, `fit_transform` and `fit_transform_resample`, gtda/pipeline.py:98-143, 173-176, 205-213, 244-252, with `memory` on or off: objects and cache after the call, the pipeline's
steps after the call, and the outcome. The final step is fitted in place whatever `memory` is. -/
def call (M : C → Est V Y P S) (clone : C → S → S) (memory : Bool) (m : Method) (w : World C V Y P S) (steps : List (CStep C)) (X : V) (y : Option Y) (fitParams : Dict P) :
    World C V Y P S × List (CStep C) × PyM (Out V Y) :=
  match validateSteps (steps.map (resolve M w.heap)) with
  | .error err => (w, steps, .error err)
  | .ok () =>
    match routeParams (steps.map (resolve M w.heap)) fitParams with
    | .error err => (w, steps, .error err)
    | .ok fps =>
      match loop M clone memory fps w steps.dropLast X y with
      | (w', front, .error err) => (w', front ++ steps.getLast?.toList, .error err)
      | (w', front, .ok r) =>
        match steps.getLast? with
        | none => (w', front, .error .indexError)
        | some s =>
          match s.kind with
          | .est c ref =>
            match Dict.get fps s.name with
            | .error err => (w', front ++ [s], .error err)
            | .ok prm =>
              let q := lastCall m (M c) (deref w'.heap ref) r.1 r.2 prm
              ({ w' with heap := w'.heap.set ref q.1 }, front ++ [s], q.2)
          | _ => (w', front ++ [s], .ok (passOut m r.1 r.2))

/-- What can happen to objects and cache over time: an object is created, an object is changed (`set_params`, a fit outside any pipeline), or a pipeline is fitted, gtda/pipeline.py:98-252. -/
inductive Op (C V Y P S : Type) where
  | new (s : S)
  | change (ref : Nat) (s : S)
  | fit (memory : Bool) (m : Method) (steps : List (CStep C)) (X : V) (y : Option Y) (fitParams : Dict P)

/-- One operation, gtda/pipeline.py:98-252. -/
def step (M : C → Est V Y P S) (clone : C → S → S) (w : World C V Y P S) : Op C V Y P S → World C V Y P S
  | .new s => { w with heap := w.heap ++ [s] }
  | .change ref s => { w with heap := w.heap.set ref s }
  | .fit memory m steps X y prm => (call M clone memory m w steps X y prm).1

/-- A history of operations, gtda/pipeline.py:98-252. -/
def run (M : C → Est V Y P S) (clone : C → S → S) (w : World C V Y P S) (ops : List (Op C V Y P S)) : World C V Y P S := ops.foldl (step M clone) w

end Gtda.PipelineCache
