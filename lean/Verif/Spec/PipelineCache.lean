import Verif.Model.PipelineCache

/-!
# Specifications for pipelines with a cache: what fitting means when nothing is cached and no object is shared
-/

set_option autoImplicit false

namespace Gtda.Spec.PipelineCache

open Py Gtda.Pipeline Gtda.PipelineCache

variable {C V Y P S : Type} [DecidableEq C] [DecidableEq V] [DecidableEq Y] [DecidableEq P] [DecidableEq S] [Inhabited S]

/-- The estimator objects of the steps. -/
def objects (steps : List (CStep C)) : List Nat := steps.filterMap fun s => match s.kind with
  | .est _ ref => some ref
  | _ => none

/-- All estimators of the steps exist. -/
def Exist (w : World C V Y P S) (steps : List (CStep C)) : Prop := ∀ r ∈ objects steps, r < w.heap.length

/-- The estimators of the steps, each with a state of its own. -/
def own (M : C → Est V Y P S) (w : World C V Y P S) (steps : List (CStep C)) : List (Step V Y P S) := steps.map (resolve M w.heap)

/-- Fitting steps that share no objects, without a cache: the methods of `Verif.Model.Pipeline`. -/
def fitted (m : Method) (steps : List (Step V Y P S)) (X : V) (y : Option Y) (prm : Dict P) : List (Step V Y P S) × PyM (Out V Y) :=
  match m with
  | .fit => let q := Pipeline.fit steps X y prm; (q.1, (fun _ => Out.self) <$> q.2)
  | .fitTransform => let q := Pipeline.fitTransform steps X y prm; (q.1, Out.data <$> q.2)
  | .fitTransformResample => let q := Pipeline.fitTransformResample steps X y prm; (q.1, Out.pair <$> q.2)

/-- Two calls return the same, or raise the same, and leave the object in the same state if they do not raise. -/
def Same {α : Type} (a b : S × PyM α) : Prop := a.2 = b.2 ∧ ∀ r, b.2 = .ok r → a.1 = b.1

/-- Fitting an object of the class does not depend on what was fitted before: the object can be replaced by a clone. -/
def Forgets (M : C → Est V Y P S) (clone : C → S → S) (c : C) : Prop :=
  ∀ s X y prm, Same ((M c).fit (clone c s) X y prm) ((M c).fit s X y prm) ∧
    (∀ f, (M c).fitTransform = some f → Same (f (clone c s) X y prm) (f s X y prm)) ∧
    ∀ f, (M c).fitTransformResample = some f → Same (f (clone c s) X y prm) (f s X y prm)

/-- All classes of the steps before the final one are such. -/
def Forgetful (M : C → Est V Y P S) (clone : C → S → S) (steps : List (CStep C)) : Prop := ∀ s ∈ steps.dropLast, ∀ c ref, s.kind = .est c ref → Forgets M clone c

/-- Two steps with the same name and both `None`, both `'passthrough'`, or both estimators of the same class with the same constructor parameters. -/
def SameStep (clone : C → S → S) (h₁ h₂ : List S) (a b : CStep C) : Prop :=
  a.name = b.name ∧
    match a.kind, b.kind with
    | .none, .none => True
    | .passthrough, .passthrough => True
    | .est c r, .est c' r' => c = c' ∧ clone c (h₁.getD r default) = clone c (h₂.getD r' default)
    | _, _ => False

end Gtda.Spec.PipelineCache
