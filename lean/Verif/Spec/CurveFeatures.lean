import Verif.Model.CurveFeatures

set_option autoImplicit false

/-!
# Specification of features of curves
-/

namespace Gtda.Spec
open Gtda.Py Gtda.CurveFeatures Gtda.Validation

/-- `HasValue np f q x l`: the function `f` with keyword arguments `q` has the feature values `l` on the channel `x`; `np` gives the values of the functions named by strings. -/
inductive HasValue {K : Type} (np : String → Kwargs → List K → PyM K) : FnSpec K → Kwargs → List K → List K → Prop
  | str (s : String) (q : Kwargs) (x : List K) (y : K) (h : np s q x = .ok y) : HasValue np (.str s) q x [y]
  | scalar (f : FnVal K) (q : Kwargs) (x : List K) (y : K) (h : f q x = .ok (.scalar y)) : HasValue np (.fn f) q x [y]
  | vec (f : FnVal K) (q : Kwargs) (x : List K) (l : List K) (h : f q x = .ok (.vec l)) : HasValue np (.fn f) q x l

/-- `IsRow np fs c row`: `row` is the concatenation, over the channels of the curve `c`, of the values of their functions; channels whose function is `None` are skipped. -/
inductive IsRow {K : Type} (np : String → Kwargs → List K → PyM K) : List (FnSpec K × Kwargs) → List (List K) → List K → Prop
  | nil : IsRow np [] [] []
  | skip (q : Kwargs) (fs : List (FnSpec K × Kwargs)) (x : List K) (c : List (List K)) (row : List K) (h : IsRow np fs c row) : IsRow np ((.none, q) :: fs) (x :: c) row
  | cons (f : FnSpec K) (q : Kwargs) (fs : List (FnSpec K × Kwargs)) (x : List K) (c : List (List K)) (l row : List K) (h1 : HasValue np f q x l) (h : IsRow np fs c row) :
      IsRow np ((f, q) :: fs) (x :: c) (l ++ row)

/-- The keyword arguments of the channels: none at all, or those given. -/
def channelKwargs (n : Nat) : ParamsParam → List Kwargs
  | .many ps => ps.map fun p => p.getD []
  | _ => List.replicate n []

/-- The names of functions in the documentation of `StandardFeatures`. -/
def curveFunctions : List String := ["identity", "argmax", "argmin", "min", "max", "mean", "std", "median", "average"]

/-- The keyword arguments which the function named `s` accepts: an array of weights for `"average"`, none for the others. -/
def Accepts (s : String) (q : Kwargs) : Prop := ∀ a ∈ q, s = "average" ∧ a.1 = "weights" ∧ ∃ l, a.2 = .ndarray l

end Gtda.Spec
