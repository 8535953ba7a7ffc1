import Verif.Model.PipelineNesting
import Verif.Spec.Pipeline
import Verif.Spec.PipelineCache

/-!
# Specifications for nested pipelines
-/

set_option autoImplicit false

namespace Gtda.Spec.PipelineNesting

open Py Gtda.Pipeline Gtda.PipelineNesting

variable {V Y P S : Type}

/-- A pipeline with the steps `pre`, then a pipeline `n` with the steps `inner`, then the steps `post`. -/
def nested (n : Name) (pre inner post : List (Step V Y P S)) : List (Step V Y P (List S)) := pre.map liftStep ++ nest n inner :: post.map liftStep

/-- A fit parameter is addressed to one of the steps (which is not `None`). -/
def AddressedTo (steps : List (Step V Y P S)) (k : Name) : Prop := ∃ s ∈ steps, s.kind.isNone = false ∧ ∃ p, FirstSplit k s.name p

/-- Fit parameters for the flat pipeline (left) and for the nested one (right): those for steps of `inner` get the prefix `n__`. -/
def Readdressed (n : Name) (pre inner post : List (Step V Y P S)) (kv kv' : Name × P) : Prop :=
  kv'.2 = kv.2 ∧ ((AddressedTo inner kv.1 ∧ kv'.1 = n ++ '_' :: '_' :: kv.1) ∨ (AddressedTo (pre ++ post) kv.1 ∧ kv'.1 = kv.1))

/-- The states of all estimators of a nested pipeline, in order. -/
def allStates (steps : List (Step V Y P (List S))) : List S := (steps.map fun s => s.state).flatten

/-- Every estimator among the steps has a method `transform`. -/
def AllTransform (steps : List (Step V Y P S)) : Prop := ∀ s ∈ steps, ∀ e, s.kind = .est e → e.transform.isSome = true

/-- No method of any step raises `AttributeError` by itself. -/
def NoAttributeError (steps : List (Step V Y P S)) : Prop := ∀ s ∈ steps, ∀ e, s.kind = .est e →
  (∀ f, e.transform = some f → ∀ st X, f st X ≠ .error .attributeError) ∧ (∀ f, e.transformResample = some f → ∀ st X y, f st X y ≠ .error .attributeError) ∧
    (∀ f, e.inverse = some (.two f) → ∀ st X y, f st X y ≠ .error .attributeError) ∧ ∀ f, e.score = some f → ∀ st X y, f st X y ≠ .error .attributeError

/-- The final step, if it is an estimator, satisfies a condition. -/
def FinalHas (steps : List (Step V Y P S)) (Q : Est V Y P S → Prop) : Prop := ∀ s e, steps.getLast? = some s → s.kind = .est e → Q e

end Gtda.Spec.PipelineNesting
