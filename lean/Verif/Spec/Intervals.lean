import Verif.Model.Intervals
import Mathlib.Order.Interval.Set.Defs

set_option autoImplicit false

/-!
# Specification of intervals: the sets they denote
-/

namespace Gtda.Spec
open Gtda.Intervals

/-- The set of numbers between `l` and `r`, with the end points named by `closed`. -/
def members {α : Type} [LinearOrder α] (closed : String) (l r : α) : Set α :=
  match closed with
  | "both" => Set.Icc l r
  | "left" => Set.Ico l r
  | "right" => Set.Ioc l r
  | _ => Set.Ioo l r

/-- `z = x + y` where `x` and `z` may be infinite. -/
inductive ExtSum {K : Type} [Field K] (y : K) : Ext K → Ext K → Prop
  | negInf : ExtSum y ⊥ ⊥
  | posInf : ExtSum y ⊤ ⊤
  | finite (x : K) : ExtSum y (fin x) (fin (x + y))

/-- `z = x * y` for positive `y` where `x` and `z` may be infinite. -/
inductive ExtProd {K : Type} [Field K] (y : K) : Ext K → Ext K → Prop
  | negInf : ExtProd y ⊥ ⊥
  | posInf : ExtProd y ⊤ ⊤
  | finite (x : K) : ExtProd y (fin x) (fin (x * y))

end Gtda.Spec
