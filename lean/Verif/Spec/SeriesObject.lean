import Verif.Spec.TimeSeries
import Verif.Model.SeriesObject

set_option autoImplicit false

/-!
# Specification vocabulary for `Labeller` and `SingleTakensEmbedding` as fitted objects
-/

namespace Gtda.Spec.SeriesObject
open Gtda.Py Gtda.SeriesObject

section
variable {Fn Q K : Type} [Field K] [LinearOrder K]

/-- A `Labeller` with parameters `p` can be fitted on `X`: the parameters are admissible, and the series is as long as a window. -/
def Fittable (p : LParams Fn Q K) (X : List K) : Prop :=
  1 ≤ p.size ∧ 1 ≤ p.nSteps ∧ (∀ ps, p.percentiles = some ps → ∀ q ∈ ps, 0 ≤ q ∧ q ≤ 100) ∧ p.size ≤ X.length

/-- The parameters after a history. -/
def lastParams (p : LParams Fn Q K) : List (LOp Fn Q K) → LParams Fn Q K
  | [] => p
  | .set p' :: ops => lastParams p' ops
  | .fit _ :: ops => lastParams p ops

/-- No fit of the history was acceptable. -/
def NeverFitted (p : LParams Fn Q K) : List (LOp Fn Q K) → Prop
  | [] => True
  | .set p' :: ops => NeverFitted p' ops
  | .fit X :: ops => ¬ Fittable p X ∧ NeverFitted p ops

/-- The value of the function for the `size` consecutive samples of `y` that end with sample number `t`. -/
def windowValue (E : Env Fn Q K) (func : Fn) (params : Q) (size : Nat) (y : List K) (t : Nat) : K := E.apply func params ((y.drop (t + 1 - size)).take size)

/-- All values of a series: one for each sample at which a window can end. -/
def allValues (E : Env Fn Q K) (func : Fn) (params : Q) (size : Nat) (y : List K) : List K :=
  (List.range (y.length - size + 1)).map fun i => windowValue E func params size y (i + size - 1)

end

/-- The result of a fit of a `SingleTakensEmbedding` with parameters `p`: the pair that is found, or the pair of parameters; `none` if the fit is refused. -/
def takensFound {K : Type} (search : List K → Nat → Nat → Nat → PyM (Nat × Nat)) (p : TParams) (X : List K) : Option (Nat × Nat) :=
  if 1 ≤ p.timeDelay ∧ 1 ≤ p.dimension ∧ 1 ≤ p.stride then
    if p.search then (search X p.timeDelay p.dimension p.stride).toOption else some (p.timeDelay, p.dimension)
  else none

/-- Present parameters, and the pair of the last accepted fit. -/
def takensAfter {K : Type} (search : List K → Nat → Nat → Nat → PyM (Nat × Nat)) (s : TParams × Option (Nat × Nat)) : List (TOp K) → TParams × Option (Nat × Nat)
  | [] => s
  | .set p :: ops => takensAfter search (p, s.2) ops
  | .fit X :: ops => takensAfter search (s.1, (takensFound search s.1 X).or s.2) ops

end Gtda.Spec.SeriesObject
