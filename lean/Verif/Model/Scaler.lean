import Verif.Model.Distances

set_option autoImplicit false

/-!
# Model of the scale computed by `Scaler`

`gtda/diagrams/preprocessing.py`, for `metric="bottleneck"` and `function=np.max`. (`Scaler.transform` on arrays in memory is in `Model/Diagrams`.)
-/

namespace Gtda.Diagrams
open Gtda.Py Gtda.Parallel

variable {K Q : Type} [Field K] [LinearOrder K]

/-- `scale_` with `metric="bottleneck"` and `function=np.max`, gtda/diagrams/preprocessing.py:262-266. -/
def scalerFit [DecidableEq Q] (dims : List Q) (nJobs : Nat) (X : List (List (Pt K Q))) : PyM K := do
  let amplitudes ← parallelAmplitude (fun _ => bottleneckAmplitudes) dims nJobs X
  npMax amplitudes.flatten

/-- `Xs[:, :, :2] /= self.scale_`, gtda/diagrams/preprocessing.py:295. -/
def scalerDivide (scale : K) (X : List (List (Pt K Q))) : List (List (Pt K Q)) := X.map fun D => D.map fun p => ⟨p.b / scale, p.d / scale, p.q⟩

/-- `Scaler(metric="bottleneck", function=np.max).fit_transform(X)` after validation. See gtda/diagrams/preprocessing.py:208-296. -/
def scalerFitTransform [DecidableEq Q] (dims : List Q) (nJobs : Nat) (X : List (List (Pt K Q))) : PyM (List (List (Pt K Q))) := do
  let scale ← scalerFit dims nJobs X
  .ok (scalerDivide scale X)

end Gtda.Diagrams
