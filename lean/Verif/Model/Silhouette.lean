import Verif.Model.Vectorization

set_option autoImplicit false

/-!
# Model of silhouettes

`gtda/diagrams/_metrics.py` (`silhouettes`), `Silhouette.transform`. The power function `x ↦ x ** power` is a parameter `pw`, and `big` is the condition `power > 8.`.
NaN is `none`.
-/

namespace Gtda.Diagrams
open Gtda.Py Gtda.Parallel

variable {K Q : Type} [Field K] [LinearOrder K]

/-- The weights of the points of a diagram, gtda/diagrams/_metrics.py:164-167; `none` if they are NaN: if `power > 8.` and the largest lifetime is zero,
`0 / 0` is computed. Lifetimes are assumed non-negative (otherwise `x / 0` is infinite). -/
def silhouetteWeights (pw : K → K) (big : Bool) (D : List (Pt K Q)) : PyM (Option (List K)) :=
  let w := D.map fun p => p.d - p.b
  if big then do
    let m ← npMax w
    .ok (if m = 0 then none else some (w.map fun x => pw (x / m)))
  else .ok (some (w.map pw))

/-- `fibers_weighted_sum` for one diagram, gtda/diagrams/_metrics.py:168-174. A zero total weight is replaced by infinity, which makes the quotient zero. -/
def silhouetteValues (sampling : List K) (D : List (Pt K Q)) : Option (List K) → List (Option K)
  | none => sampling.map fun _ => none
  | some ws =>
    let total := ws.sum
    sampling.map fun s => some (if total = 0 then 0 else (List.zipWith (· * ·) ws (D.map (fiber s))).sum / total)

/-- `silhouettes` for one diagram, gtda/diagrams/_metrics.py:159-175. -/
def silhouetteOne (pw : K → K) (big : Bool) (sampling : List K) (D : List (Pt K Q)) : PyM (List (Option K)) := do
  let ws ← silhouetteWeights pw big D
  .ok (silhouetteValues sampling D ws)

/-- `Silhouette.transform` after validation, gtda/diagrams/representations.py:1137-1146. -/
def silhouetteTransform [DecidableEq Q] (pw : K → K) (big : Bool) (dims : List Q) (sampling : Q → List K) (nJobs : Nat) (X : List (List (Pt K Q))) :
    PyM (List (List (List (Option K)))) :=
  perDim (fun q Y => Y.mapM (silhouetteOne pw big (sampling q))) dims nJobs X

end Gtda.Diagrams
