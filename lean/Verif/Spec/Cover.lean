import Mathlib.Order.Defs.LinearOrder
import Mathlib.Data.Option.Basic
import Mathlib.Data.List.Dedup

set_option autoImplicit false

/-!
# Specification of open intervals with possibly infinite limits
-/

namespace Gtda.Spec

/-- `x` lies in the open interval with the given limits; a missing limit means that the interval is unbounded on that side. -/
def InOpen {K : Type} [LT K] (I : Option K × Option K) (x : K) : Prop :=
  (∀ l, I.1 = some l → l < x) ∧ (∀ r, I.2 = some r → x < r)

/-- The number of distinct values in the data that are smaller than `x`. -/
def distinctBelow {K : Type} [LinearOrder K] (X : List K) (x : K) : Nat := (X.dedup.filter (· < x)).length

end Gtda.Spec
