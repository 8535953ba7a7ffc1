import Verif.Model.Adapters

/-!
# Specifications for adapters
-/

set_option autoImplicit false

namespace Gtda.Spec.Adapters

open Py Gtda.Adapters

section

variable {S A B W : Type} (c : Objects S A B W)

/-- The weight given to a name, if any: the first entry. -/
def WeightOf (weights : List (String × W)) (name : String) : Option W → Prop
  | none => ∀ w, (name, w) ∉ weights
  | some w => ∃ l r, weights = l ++ (name, w) :: r ∧ ∀ v, (name, v) ∉ l

/-- The value of a step: the result of its transformer, times the weight of its name. -/
def ValueOf (weights : List (String × W)) (name : String) (b b' : B) : Prop :=
  ∃ w, WeightOf weights name w ∧ ((w = none ∧ b' = b) ∨ ∃ v, w = some v ∧ c.scale v b = .ok b')

/-- Fitting and transforming step by step: the new steps and the results. Steps that are dropped stay dropped and have no result; the others all see the same data. -/
inductive FitsTo (weights : List (String × W)) (X : A) : List (String × Option S) → List (String × Option S) → List B → Prop
  | nil : FitsTo weights X [] [] []
  | drop {n : String} {l l' : List (String × Option S)} {out : List B} : FitsTo weights X l l' out → FitsTo weights X ((n, none) :: l) ((n, none) :: l') out
  | step {n : String} {s s' : S} {b b' : B} {l l' : List (String × Option S)} {out : List B} : c.fitTransform s X = .ok (b, s') → ValueOf c weights n b b' →
      FitsTo weights X l l' out → FitsTo weights X ((n, some s) :: l) ((n, some s') :: l') (b' :: out)

/-- Transforming step by step. -/
inductive TransformsTo (weights : List (String × W)) (X : A) : List (String × Option S) → List B → Prop
  | nil : TransformsTo weights X [] []
  | drop {n : String} {l : List (String × Option S)} {out : List B} : TransformsTo weights X l out → TransformsTo weights X ((n, none) :: l) out
  | step {n : String} {s : S} {b b' : B} {l : List (String × Option S)} {out : List B} : c.transform s X = .ok b → ValueOf c weights n b b' →
      TransformsTo weights X l out → TransformsTo weights X ((n, some s) :: l) (b' :: out)

/-- The steps of a union are acceptable: at least one, with different names without `__`, and transformers all. -/
def Valid (u : Union S W) : Prop :=
  u.steps ≠ [] ∧ (u.steps.map (·.1)).Nodup ∧ (∀ e ∈ u.steps, ¬ ['_', '_'] <:+: e.1.toList) ∧ ∀ n s, (n, some s) ∈ u.steps → c.isTransformer s = true

/-- Some step is not dropped. -/
def SomeActive (u : Union S W) : Prop := ∃ n s, (n, some s) ∈ u.steps

/-- All tasks are executed. -/
def Complete (u : Union S W) (order : List Nat) : Prop := ∀ i < u.steps.length, i ∈ order

end

/-- The values of an array with one or two axes in order. -/
def flat {K : Type} : Array12 K → List K
  | .one l => l
  | .two l => l.flatten

end Gtda.Spec.Adapters
