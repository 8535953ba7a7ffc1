import Verif.Model.Pipeline

set_option autoImplicit false

/-!
# Specification of pipelines
-/

namespace Gtda.Pipeline
open Gtda.Py

variable {V Y P S : Type}

/-- `f` is "`fit`, then `g` on the fitted object": exceptions of `fit` pass through. -/
def IsFitThen {α : Type} (fit : S → V → Option Y → Dict P → S × PyM Unit) (g : S → V → Option Y → PyM α) (f : S → V → Option Y → Dict P → S × PyM α) : Prop :=
  ∀ s X y prm, (∀ s', fit s X y prm = (s', .ok ()) → f s X y prm = (s', g s' X y)) ∧
    ∀ s' err, fit s X y prm = (s', .error err) → f s X y prm = (s', .error err)

/-- An estimator that only transforms: it has no method that resamples, and `fit_transform` is `fit`, then `transform`. -/
def IsTransformer (e : Est V Y P S) : Prop :=
  ∃ (tr : S → V → PyM V) (ft : S → V → Option Y → Dict P → S × PyM V),
    e.transform = some tr ∧ e.fitTransform = some ft ∧ IsFitThen e.fit (fun s X _ => tr s X) ft ∧ e.resample = none ∧ e.transformResample = none ∧ e.fitTransformResample = none

/-- An estimator that transforms data and resamples targets: `fit_transform` is `fit`, then `transform`; `transform_resample` returns the results of `transform` and `resample`;
`fit_transform_resample` is `fit`, then `transform_resample`. -/
def IsResampler (e : Est V Y P S) : Prop :=
  ∃ (tr : S → V → PyM V) (rs : S → Option Y → PyM Y) (ft : S → V → Option Y → Dict P → S × PyM V) (trs : S → V → Option Y → PyM (V × Option Y))
    (ftrs : S → V → Option Y → Dict P → S × PyM (V × Option Y)),
    e.transform = some tr ∧ e.resample = some rs ∧ e.fitTransform = some ft ∧ IsFitThen e.fit (fun s X _ => tr s X) ft ∧ e.transformResample = some trs ∧
    (∀ s X y, trs s X y = do let Xt ← tr s X; let yr ← rs s y; .ok (Xt, some yr)) ∧ e.fitTransformResample = some ftrs ∧ IsFitThen e.fit trs ftrs

/-- The step is `None`, `'passthrough'`, a transformer or a resampler. -/
def Lawful (s : Step V Y P S) : Prop := ∀ e, s.kind = .est e → IsTransformer e ∨ IsResampler e

/-- Like `IsTransformer`, but `fit_transform` may be missing. -/
def IsFrontTransformer (e : Est V Y P S) : Prop :=
  ∃ (tr : S → V → PyM V), e.transform = some tr ∧ (∀ ft, e.fitTransform = some ft → IsFitThen e.fit (fun s X _ => tr s X) ft) ∧ e.resample = none ∧
    e.transformResample = none ∧ e.fitTransformResample = none

/-- Like `IsResampler`, but `fit_transform` and `fit_transform_resample` may be missing. -/
def IsFrontResampler (e : Est V Y P S) : Prop :=
  ∃ (tr : S → V → PyM V) (rs : S → Option Y → PyM Y) (trs : S → V → Option Y → PyM (V × Option Y)),
    e.transform = some tr ∧ e.resample = some rs ∧ (∀ ft, e.fitTransform = some ft → IsFitThen e.fit (fun s X _ => tr s X) ft) ∧ e.transformResample = some trs ∧
    (∀ s X y, trs s X y = do let Xt ← tr s X; let yr ← rs s y; .ok (Xt, some yr)) ∧ ∀ ftrs, e.fitTransformResample = some ftrs → IsFitThen e.fit trs ftrs

/-- What is asked of a step that is not the final one: `None`, `'passthrough'`, or a transformer or resampler whose combined methods, if present, agree with the separate ones. -/
def LawfulFront (s : Step V Y P S) : Prop := ∀ e, s.kind = .est e → IsFrontTransformer e ∨ IsFrontResampler e

/-- `n` is split at its first double underscore into `a` and `b`. -/
def FirstSplit (n a b : Name) : Prop := n = a ++ '_' :: '_' :: b ∧ ∀ a' b', n = a' ++ '_' :: '_' :: b' → a.length ≤ a'.length

/-- The names of a dictionary are distinct. -/
def IsDict (d : Dict P) : Prop := (d.map Prod.fst).Nodup

/-- The steps make up a pipeline: there is a step, names are distinct, contain no double underscore and are not names of constructor arguments, and every estimator other than a final one has `transform`. -/
def ValidSteps (steps : List (Step V Y P S)) : Prop :=
  steps ≠ [] ∧ (steps.map fun s => s.name).Nodup ∧ (∀ s ∈ steps, s.name ∉ ["steps".toList, "memory".toList, "verbose".toList] ∧ ∀ a b, s.name ≠ a ++ '_' :: '_' :: b) ∧
    ∀ pre s post e, steps = pre ++ s :: post → post ≠ [] → s.kind = .est e → ∃ tr, e.transform = some tr

/-- The last estimator among the steps, followed by `None` and `'passthrough'` only, is `e`, in state `st`. -/
def LastEstimator (steps : List (Step V Y P S)) (e : Est V Y P S) (st : S) : Prop :=
  ∃ pre s post, steps = pre ++ s :: post ∧ s.kind = .est e ∧ s.state = st ∧ ∀ t ∈ post, ∀ e', t.kind ≠ .est e'

end Gtda.Pipeline
