import Verif.Model.Gudhi

/-!
# Specifications for the classes around GUDHI
-/

set_option autoImplicit false

namespace Gtda.Spec.Gudhi

open Py Gtda.Gudhi

variable {Cx Pc V : Type}

/-- The complex after a history: its changes, in order. -/
def complexAfter (cx : Cx) : List (Call Cx V) → Cx
  | [] => cx
  | .change f :: calls => complexAfter (f cx) calls
  | .persistence _ _ _ :: calls => complexAfter cx calls

/-- No call of `persistence` in a history. -/
def NoPersistence (calls : List (Call Cx V)) : Prop := ∀ c ∈ calls, ∃ f, c = .change f

/-- A new object on a complex, on which no method was called. -/
def fresh (cx : Cx) : Obj Cx Pc := ⟨some cx, .none⟩

/-- Second arguments in a history that are booleans. -/
def BooleanFlags (calls : List (Call Cx V)) : Prop := ∀ c ∈ calls, ∀ flag field m, c = .persistence flag field m → ∃ b, flag = some b

end Gtda.Spec.Gudhi
