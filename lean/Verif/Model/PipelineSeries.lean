import Verif.Model.Pipeline
import Verif.Model.TimeSeries

set_option autoImplicit false

/-!
# The transformer-resamplers of `gtda/time_series` as pipeline steps

Data are arrays of any number of axes, as the list of their rows; targets are lists. Object states are pairs of numbers, used by `SingleTakensEmbedding` for its fitted parameters.
`resample(None)` fails validation (`column_or_1d`, `check_array`).
-/

namespace Gtda.Pipeline
open Gtda.Py Gtda.TimeSeries

/-- Arrays of any number of axes. Used in `slidingStep`, gtda/time_series/embedding.py:118-277. -/
inductive Arr (K : Type) where
  | num (x : K)
  | arr (l : List (Arr K))

/-- Data of a pipeline of time series: list of rows. Used in `slidingStep`, gtda/time_series/embedding.py:118-277. -/
abbrev Rows (K : Type) := List (Arr K)

variable {K β P : Type}

/-- A `resample` method defined on targets that are not `None`. Used in `slidingStep`, gtda/time_series/embedding.py:118-277. -/
def onTargets (r : Nat × Nat → List β → List β) (s : Nat × Nat) (y : Option (List β)) : PyM (List β) :=
  match y with
  | some y => .ok (r s y)
  | none => .error .valueError

/-- `fit` of a class that stores nothing that `transform` uses. Used in `slidingStep`, gtda/time_series/embedding.py:118-277. -/
def noFit (s : Nat × Nat) (_X : Rows K) (_y : Option (List β)) (_prm : Dict P) : (Nat × Nat) × PyM Unit := (s, .ok ())

/-- `SlidingWindow(size, stride)`, gtda/time_series/embedding.py:118-277. -/
def slidingStep (size stride : Nat) : Est (Rows K) (List β) P (Nat × Nat) :=
  mixin noFit (fun _ X => (fun W => W.map Arr.arr) <$> slidingTransform size stride X) (onTargets fun _ y => slidingResample size stride y)

/-- `Resampler(period)`, gtda/time_series/preprocessing.py:14-122. -/
def resamplerStep (period : Nat) : Est (Rows K) (List β) P (Nat × Nat) :=
  mixin noFit (fun _ X => .ok (resamplerTransform period X)) (onTargets fun _ y => resamplerResample period y)

/-- `Stationarizer(operation='return')`, gtda/time_series/preprocessing.py:125-245; arithmetic of rows is elementwise. -/
def returnStep [Sub (Arr K)] [Div (Arr K)] : Est (Rows K) (List β) P (Nat × Nat) := mixin noFit (fun _ X => .ok (stationReturn X)) (onTargets fun _ y => stationResample y)

/-- `Stationarizer(operation='log-return')`, gtda/time_series/preprocessing.py:125-245. -/
def logReturnStep [Sub (Arr K)] (log : Arr K → Arr K) : Est (Rows K) (List β) P (Nat × Nat) :=
  mixin noFit (fun _ X => .ok (stationLogReturn log X)) (onTargets fun _ y => stationResample y)

/-- `SingleTakensEmbedding`, gtda/time_series/embedding.py:281-511; `fit` sets the state to `(time_delay_, dimension_)`. `mi X` and `fnn X` stand for mutual information and
false nearest neighbours. -/
def takensStep {F : Type} [Field F] [LinearOrder F] (search : Bool) (mi : Rows K → Nat → F) (fnn : Rows K → Nat → Nat → F) (timeDelay dimension stride : Nat) :
    Est (Rows K) (List β) P (Nat × Nat) :=
  mixin (fun s X _ _ => match singleTakensFit search (mi X) (fnn X) timeDelay dimension with
      | .ok q => (q, .ok ())
      | .error e => (s, .error e))
    (fun s X => (fun E => E.map Arr.arr) <$> singleTakensTransform s.1 s.2 stride X)
    (onTargets fun s y => singleTakensResample s.1 s.2 stride y)

end Gtda.Pipeline
