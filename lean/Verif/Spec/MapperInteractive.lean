import Verif.Spec.MapperParams
import Verif.Model.MapperInteractive

/-!
# What the interactive Mapper plot should keep true

Taken from the model: the types `Val`, `Slots` and `Kind` (values, what a pipeline is built from, types of
values) and `getParams`, scikit-learn's `get_params`.
-/

set_option autoImplicit false

namespace Gtda.Spec.MParams

open Gtda.MParams

variable {A : Type}

/-- A parameter which is not an estimator. -/
def plain (p : List Char × Val A) : Option (List Char × A) :=
  match p.2 with
  | .atom a => some (p.1, a)
  | _ => none

/-- The parameters which are not estimators, with their names. -/
def plainParams (l : List (List Char × Val A)) : List (List Char × A) := l.filterMap plain

/-- A name without a double underscore and not ending with an underscore. -/
def GoodName (n : List Char) : Prop := ¬ ['_', '_'] <:+: n ++ ['_']

mutual

/-- The constructor parameters and steps of an estimator, and of the estimators it contains, have good and different names. -/
def WellNamed : Val A → Prop
  | .atom _ => True
  | .steps _ => True
  | .est _ own kids => (∀ n ∈ own.names ++ kids.names, GoodName n) ∧ (own.names ++ kids.names).Nodup ∧ WellNamedFields own ∧ WellNamedFields kids

/-- The same for all values of a list. -/
def WellNamedFields : Fields A → Prop
  | .nil => True
  | .cons _ v rest => WellNamed v ∧ WellNamedFields rest

end

/-- The list of named values with the value of one name replaced. -/
def assign (name : List Char) (a : A) (l : List (List Char × A)) : List (List Char × A) := l.map fun p => if p.1 = name then (p.1, a) else p

/-- A parameter with the value displayed for it, or its own value if it has no widget. -/
def shown (widgets : List (List Char × A)) (p : List Char × A) : List Char × A := (p.1, (widgets.lookup p.1).getD p.2)

/-- The value last entered for a parameter, if any was. -/
def lastEntered (history : List (List Char × A)) (name : List Char) : Option A := ((history.filter fun p => p.1 = name).map Prod.snd).getLast?

/-- The kinds of the parameters which are not estimators. -/
def hasKind (kind : A → MInter.Kind) (ks : List MInter.Kind) : Val A → Prop
  | .atom a => kind a ∈ ks
  | _ => True

/-- A pipeline whose cover and clusterer, and the estimators they contain, have parameters with good and different names,
and whose `min_intersection` and `contract_nodes` are not floats or strings (the last step of the pipeline refuses those). -/
def Plottable (kind : A → MInter.Kind) (s : Slots A) : Prop :=
  WellNamed s.cover ∧ WellNamed s.clusterer ∧ (∀ v ∈ slotValues s, DistinctNames v) ∧
    ∀ t, s.nerve = some t → hasKind kind [.int, .bool, .other] t.1 ∧ hasKind kind [.int, .bool, .other] t.2.2

/-- Parameters which get a widget if they are numbers, booleans or strings. -/
def Adjustable (name : List Char) : Prop :=
  "cover__".toList <+: name ∨ "clusterer__".toList <+: name ∨ name = "min_intersection".toList ∨ name = "contract_nodes".toList

end Gtda.Spec.MParams
