import Mathlib.Algebra.BigOperators.Group.Finset.Basic
import Mathlib.Data.Nat.Choose.Basic
import Mathlib.Algebra.Ring.Defs

set_option autoImplicit false

/-!
# Specification for C156: what a derivative keeps of a curve
-/

namespace Gtda.Spec.CurveDerivatives

/-- Channel `j` of sample `s` of a collection is `x`. -/
def Channel {K : Type} (X : List (List (List K))) (s j : Nat) (x : List K) : Prop := ∃ c, X[s]? = some c ∧ c[j]? = some x

/-- The values of `x` are those of a polynomial of degree less than `k` in the number of the bin, written with binomial coefficients `i`, `i (i - 1) / 2`, … instead of powers. -/
def IsPoly {K : Type} [CommRing K] (k : Nat) (x : List K) : Prop := ∃ c : Nat → K, ∀ (i : Nat) a, x[i]? = some a → a = ∑ m ∈ Finset.range k, c m * (i.choose m : K)

end Gtda.Spec.CurveDerivatives
