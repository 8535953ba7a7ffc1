import Verif.Model.PipelineSeries

set_option autoImplicit false

/-!
# `Pipeline.score` with sample weights

The `score` method of the final estimator is a function of its state, data, targets and weights (`none`: the argument is not given).
-/

namespace Gtda.Pipeline
open Gtda.Py

variable {V Y P S W : Type}

/-- `Pipeline.score(X, y, sample_weight)`, gtda/pipeline.py:411-442, of a pipeline with steps `front` before the final estimator, whose state is `st` and whose method is `final`. -/
def scoreWeighted (front : List (Step V Y P S)) (final : S → V → Option Y → Option W → PyM P) (st : S) (X : V) (y : Option Y) (sampleWeight : Option W := none) : PyM P := do
  let Xy ← (iter front).foldlM transformResampleOne (X, y)
  match sampleWeight with
  | some w => final st Xy.1 Xy.2 (some w)
  | none => final st Xy.1 Xy.2 none

end Gtda.Pipeline
