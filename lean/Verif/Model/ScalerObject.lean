import Verif.Model.DiagramMetrics

set_option autoImplicit false

/-!
# Model of `Scaler` as an estimator

The class `Scaler` of `gtda/diagrams/preprocessing.py` as an object: parameters that can be set at any time, `fit` (which may fail half way), `transform` and `inverse_transform`.

Simplifications: as for `Amplitude` in `Verif/Model/DiagramMetrics.lean`. The function of the amplitudes is an arbitrary function which may raise or return NaN (`none`). Births and deaths of arguments are
finite; entries of results which are infinite or NaN are `none` (which of the two is described in `Verif/Model/Diagrams.lean`).
-/

namespace Gtda.ScalerObject
open Gtda.Py Gtda.Parallel Gtda.Diagrams Gtda.Vectorizers Gtda.DiagramMetrics

/-- Constructor parameters, gtda/diagrams/preprocessing.py:201-206. `metric` is `none` for a string that is no key, `function` is `none` if it is `None`; `n_jobs` is an argument of `fit`. -/
structure SParams (K : Type) where
  metric : Option Metric
  mp : Option (MParams K)
  function : Option (List (List (Option K)) → PyM (Option K))

/-- A scaler: its parameters, and the attributes set by `fit` (`none`: not set): `effective_metric_params_`, `homology_dimensions_`, `scale_` (the inner `none` is NaN). See
gtda/diagrams/preprocessing.py:201-267. -/
structure SEst (K Q : Type) where
  params : SParams K
  eff : Option (Eff K Q)
  dims : Option (List Q)
  scale : Option (Option K)

/-- `__init__`, gtda/diagrams/preprocessing.py:201-206. -/
def snew {K Q : Type} (P : SParams K) : SEst K Q := ⟨P, none, none, none⟩

/-- `set_params` (inherited from scikit-learn): only parameters are replaced. Used with `fit`, gtda/diagrams/preprocessing.py:208-267. -/
def ssetParams {K Q : Type} (P : SParams K) (e : SEst K Q) : SEst K Q := { e with params := P }

section
variable {K Q : Type} [Field K] [LinearOrder K]

/-- `validate_params(self.get_params(), self._hyperparameters, exclude=['n_jobs'])`, gtda/diagrams/preprocessing.py:195-199, 233-234: the metric. `None` is accepted for `function`. -/
def svalidate (P : SParams K) : PyM Metric :=
  match P.metric with
  | none => .error .valueError
  | some m => .ok m

/-- `self.function(amplitude_array)`, gtda/diagrams/preprocessing.py:265: calling `None` raises `TypeError`. -/
def callFunction (P : SParams K) (A : List (List (Option K))) : PyM (Option K) :=
  match P.function with
  | none => .error .typeError
  | some f => f A

/-- `fit`, gtda/diagrams/preprocessing.py:232-267: the object afterwards, and whether the call succeeded. Attributes are replaced as the call proceeds. -/
def sfit [FloorRing K] [LinearOrder Q] (E : Engine K Q) (nJobs : Nat) (X : List (List (Pt K Q))) (e : SEst K Q) : SEst K Q × PyM Unit :=
  match check X with
  | .error er => (e, .error er)
  | .ok _ =>
    match svalidate e.params with
    | .error er => (e, .error er)
    | .ok metric =>
      let m := e.params.mp.getD {}
      let e1 : SEst K Q := { e with eff := some ⟨m, none⟩ }
      match validateMetric .amplitude metric m with
      | .error er => (e1, .error er)
      | .ok _ =>
        let dims := observedDims X
        let e2 : SEst K Q := { e1 with dims := some dims }
        match binSampling (decide (metric = .image)) (m.nBins.getD 100) dims X with
        | .error er => (e2, .error er)
        | .ok L =>
          let eff : Eff K Q := ⟨storeWeight metric m, some (metric, dims.zip L)⟩
          let e3 : SEst K Q := { e2 with eff := some eff }
          match parallelAmplitude (amplitudeFn E metric eff) dims nJobs X with
          | .error er => (e3, .error er)
          | .ok A =>
            match callFunction e.params A with
            | .error er => (e3, .error er)
            | .ok s => ({ e3 with scale := some s }, .ok ())

/-- Division of a finite number by the scale; infinite and NaN results are `none`. Used in `stransform`, gtda/diagrams/preprocessing.py:295. -/
def divScale (s : Option K) (x : K) : Option K :=
  match s with
  | none => none
  | some s => if s = 0 then none else some (x / s)

/-- Multiplication of a finite number by the scale; NaN is `none`. Used in `sinverse`, gtda/diagrams/preprocessing.py:316. -/
def mulScale (s : Option K) (x : K) : Option K :=
  match s with
  | none => none
  | some s => some (x * s)

/-- `transform`, gtda/diagrams/preprocessing.py:292-296. -/
def stransform (X : List (List (Pt K Q))) (e : SEst K Q) : PyM (List (List (Pt (Option K) Q))) :=
  match e.eff with
  | none => .error .notFitted
  | some _ => do
    check X
    let s ← attr e.scale
    .ok (X.map fun D => D.map fun p => ⟨divScale s p.b, divScale s p.d, p.q⟩)

/-- `inverse_transform`, gtda/diagrams/preprocessing.py:313-317. -/
def sinverse (X : List (List (Pt K Q))) (e : SEst K Q) : PyM (List (List (Pt (Option K) Q))) :=
  match e.eff with
  | none => .error .notFitted
  | some _ => do
    check X
    let s ← attr e.scale
    .ok (X.map fun D => D.map fun p => ⟨mulScale s p.b, mulScale s p.d, p.q⟩)

/-- What a user does with a scaler before calling `transform`. Used with `fit`, gtda/diagrams/preprocessing.py:208-267. -/
inductive SOp (K Q : Type)
  | fit (nJobs : Nat) (X : List (List (Pt K Q)))
  | set (P : SParams K)

/-- The object after a sequence of such operations, exceptions being caught. Used with `fit`, gtda/diagrams/preprocessing.py:208-267. -/
def srun [FloorRing K] [LinearOrder Q] (E : Engine K Q) (ops : List (SOp K Q)) (e : SEst K Q) : SEst K Q :=
  ops.foldl (fun e op => match op with
    | .fit nJobs X => (sfit E nJobs X e).1
    | .set P => ssetParams P e) e

end

end Gtda.ScalerObject
