import Verif.Model.Stateless

/-!
# Specifications for transformers whose `fit` is documented to do nothing
-/

set_option autoImplicit false

namespace Gtda.Spec.Stateless

open Py Gtda.Checks Gtda.Stateless

/-- All entries are finite numbers. -/
def AllFinite {K : Type} (x : Arr K) : Prop := ∀ a ∈ x.data, ∃ v, a = .fin v

/-- A matrix with finite entries and at least one row and one column. -/
def IsMatrix {K : Type} (x : Arr K) : Prop := x.sparse = false ∧ AllFinite x ∧ ∃ n m, x.shape = [n, m] ∧ 0 < n ∧ 0 < m

/-- At least two axes and finite entries; something along the first axis, and columns if it is a matrix. -/
def IsBatch {K : Type} (x : Arr K) : Prop :=
  x.sparse = false ∧ AllFinite x ∧ ((∃ n m, x.shape = [n, m] ∧ 0 < n ∧ 0 < m) ∨ ∃ n a b r, x.shape = n :: a :: b :: r ∧ 0 < n)

/-- The same with one axis allowed. -/
def IsSeries {K : Type} (x : Arr K) : Prop :=
  x.sparse = false ∧ AllFinite x ∧ ((∃ n, x.shape = [n] ∧ 0 < n) ∨ (∃ n m, x.shape = [n, m] ∧ 0 < n ∧ 0 < m) ∨ ∃ n a b r, x.shape = n :: a :: b :: r ∧ 0 < n)

/-- One column. -/
def IsColumn {K : Type} (y : Arr K) : Prop := ∃ n, y.shape = [n] ∨ y.shape = [n, 1]

section

variable {P I C O : Type}

/-- The parameters after a history. -/
def lastParams (p : P) : List (Op P I C) → P
  | [] => p
  | .setParams q :: ops => lastParams q ops
  | .fit _ :: ops => lastParams p ops
  | .fitTransform _ :: ops => lastParams p ops
  | .call _ :: ops => lastParams p ops

/-- Was there a call of `fit` or `fit_transform` with data which are accepted with the parameters at that time? -/
def Fitted (Acc : P → I → Prop) (p : P) : List (Op P I C) → Prop
  | [] => False
  | .setParams q :: ops => Fitted Acc q ops
  | .fit X :: ops => Acc p X ∨ Fitted Acc p ops
  | .fitTransform X :: ops => Acc p X ∨ Fitted Acc p ops
  | .call _ :: ops => Fitted Acc p ops

/-- Objects of a class are stateless: `fit` accepts the data described by `Acc`, whatever happened before. The other methods raise `NotFittedError` before the first accepted fit. After it
they have the value described by `value`, a function of the present parameters and the arguments of this call only (`none`: an exception). `fit_transform` is this value too. -/
def Behaves (c : Cls P I C O) (Acc : P → I → Prop) (value : P → C → Option O) : Prop :=
  ∀ (p : P) (ops : List (Op P I C)),
    (∀ X, (fit c (run c (new p) ops) X).2 = .ok () ↔ Acc (lastParams p ops) X) ∧
    (¬ Fitted Acc p ops → ∀ x, call c (run c (new p) ops) x = .error .notFitted) ∧
    (Fitted Acc p ops → ∀ x, (call c (run c (new p) ops) x).toOption = value (lastParams p ops) x) ∧
    (∀ X, Acc (lastParams p ops) X → (fitTransform c (run c (new p) ops) X).2.toOption = value (lastParams p ops) (c.transform X)) ∧
    (∀ X, ¬ Acc (lastParams p ops) X → (fitTransform c (run c (new p) ops) X).2.toOption = none)

end

open Classical in
/-- The eccentricities of the rows of a matrix (see C52). -/
noncomputable def eccentricities (p : EccParams) (X : Arr ℝ) : Option (List (List ℝ)) :=
  if IsMatrix X then
    some (match p.metric with
      | none => Mapper.eccentricity p.exponent true (fun _ _ => 0) (rows X)
      | some d => Mapper.eccentricity p.exponent false d (rows X))
  else none

open Classical in
/-- The entropies of the rows of a matrix (see C52). -/
noncomputable def entropies (X : Arr ℝ) : Option (List (List (Option ℝ))) := if IsMatrix X then some (Mapper.entropyFilter (rows X)) else none

open Classical in
/-- The Pearson dissimilarities of a collection of multivariate time series. -/
noncomputable def dissimilarities (absolute : Bool) (X : Arr ℝ) : Option (List (List (List (Option ℝ)))) :=
  if IsBatch X then
    match X.shape with
    | [_, _, m] => some ((matrices X).map (Series.pearsonDissimilarity absolute m))
    | _ => none
  else none

open Classical in
/-- The permutation entropies of a collection of matrices: one after the other, however many jobs there are (`tensor`: for more than three axes). -/
noncomputable def permutationEntropies (tensor : ℕ+ → Arr ℝ → PyM (List (List (Option ℝ)))) (nJobs : ℕ+) (X : Arr ℝ) : Option (List (List (Option ℝ))) :=
  if IsBatch X then
    match X.shape with
    | [_, _, _] => some ((matrices X).map fun x => [Series.entropy2d (x.map Series.argsort)])
    | _ :: _ :: _ :: _ => (tensor nJobs X).toOption
    | _ => none
  else none

section

variable {K : Type} [Field K] [LinearOrder K]

open Classical in
/-- Every `period`-th entry from the first one. -/
noncomputable def resampled (period : Nat) : Call K → Option (Result K)
  | .transform X => if IsSeries X ∧ 0 < period then some (.rows (TimeSeries.resamplerTransform period (entries X))) else none
  | .resample y => if IsColumn y ∧ 0 < period then some (.targets (TimeSeries.resamplerResample period (y.data.map Neighbors.value))) else none

open Classical in
/-- The windows, and the targets at their ends. -/
noncomputable def windows (p : Nat × Nat) : Call K → Option (Result K)
  | .transform X => if IsSeries X ∧ 0 < p.2 then (TimeSeries.slidingTransform p.1 p.2 (entries X)).toOption.map .windows else none
  | .resample y => if IsColumn y ∧ 0 < p.2 then some (.targets (TimeSeries.slidingResample p.1 p.2 (y.data.map Neighbors.value))) else none

open Classical in
/-- The returns or the logarithmic returns, row by row, and the targets without the first one. -/
noncomputable def returns (log : K → K) (p : Operation) : Call K → Option (Result K)
  | .transform X =>
      if IsSeries X then
        some (.rows (if p = .ret then List.zipWith (fun a b => List.zipWith (fun u v => (v - u) / v) a b) (entries X) (entries X).tail
          else List.zipWith (fun a b => List.zipWith (fun u v => log v - log u) a b) (entries X) (entries X).tail))
      else none
  | .resample y => if IsColumn y then some (.targets (y.data.map Neighbors.value).tail) else none

/-- Which collections are accepted: a non-empty array of finite numbers with at least two axes, or a list of arrays with at least one axis. -/
def IsCollection : Input K → Prop
  | .array x => IsBatch x
  | .list l => ∀ x ∈ l, IsSeries x

/-- The finite columns of a frame, at least one, all with `n > 0` entries. -/
def IsFrame (n : Nat) (columns : List (Key × List (Num K))) : Prop :=
  0 < n ∧ columns ≠ [] ∧ ∀ e ∈ columns, ∀ i < n, ∃ v, e.2[i]? = some (Num.fin v)

/-- The items of a collection: the entries along the first axis, or the elements of the list. -/
def items : Input K → List (Arr K)
  | .array x => Neighbors.iterate (.array x)
  | .list l => l

open Classical in
/-- The time-delay embeddings of a collection of time series, one by one. -/
noncomputable def embeddings (tensor : TakensParams → List Nat → List K → PyM (Embedded K)) (p : TakensParams) (X : Input K) : Option (List (Embedded K)) :=
  if IsCollection X ∧ 0 < p.stride ∧ 0 < p.timeDelay then
    ((items X).mapM fun x => takensEntry tensor p x.shape (x.data.map Neighbors.value)).toOption
  else none

/-- A column of a frame. -/
def column (columns : List (Key × List (Num K))) (k : Key) : Option (List (Num K)) := (columns.find? fun e => decide (e.1 = k)).map (·.2)

/-- A column number, if it is one. -/
def number : Key → Option Int
  | .int j => some j
  | .str _ => none

open Classical in
/-- The selected columns: of a frame by label, only these have to be finite; of a matrix by number. -/
noncomputable def projected : Cols → Table K → Option (List (List K))
  | .one k, .frame n columns => (column columns k).bind fun c =>
      if 0 < n ∧ ∀ a ∈ c, ∃ v, a = .fin v then some (c.map fun a => [Neighbors.value a]) else none
  | .many ks, .frame n columns => (ks.mapM (column columns)).bind fun cs =>
      if 0 < n ∧ ks ≠ [] ∧ ∀ c ∈ cs, ∀ i < n, ∃ v, c[i]? = some (.fin v) then
        some ((List.range n).map fun i => cs.map fun c => Neighbors.value (c.getD i .nan))
      else none
  | .one (.int j), .array x => if IsMatrix x then (Mapper.projection (.one j) (rows x)).toOption else none
  | .one (.str _), .array _ => none
  | .many ks, .array x =>
      if IsMatrix x then (ks.mapM number).bind fun js => (Mapper.projection (.many js) (rows x)).toOption else none

/-- Which tables `Projection.fit` accepts: those without any entry that is not finite. -/
def IsTable : Table K → Prop
  | .array x => IsMatrix x
  | .frame n columns => IsFrame n columns

/-- The diagrams with all homology dimensions replaced by infinity. -/
def forgotten (X : Diagrams.Arr K) : Diagrams.Arr K :=
  { X with data := X.data.map fun D => D.map fun p => p.set 2 (some ((⊤ : WithTop K) : Diagrams.Ext K)) }

/-- The distance matrices of a collection of graphs, one by one. -/
def distances (engine : Graphs.Engine K) (p : Graphs.GeodesicParams) (X : List (Graphs.GraphInput K)) : Option (List (Nat × (Nat → Nat → WithTop K))) :=
  if X.isEmpty then none else (X.mapM (Graphs.geodesic engine p)).toOption

/-! ### `KNeighborsGraph`, `TransitionGraph` -/

/-- The parameters after a history. -/
def knnParams (p : Neighbors.Params K) : List (KnnOp K) → Neighbors.Params K
  | [] => p
  | .setParams q :: ops => knnParams q ops
  | .fit _ :: ops => knnParams p ops

/-- Was some fit accepted? -/
def knnFitted (p : Neighbors.Params K) : List (KnnOp K) → Bool
  | [] => false
  | .setParams q :: ops => knnFitted q ops
  | .fit X :: ops => (Neighbors.fit p X).isOk || knnFitted p ops

/-- Was the metric `'precomputed'` when `fit` was called last, accepted or not? `none` if it was not called. -/
def lastKind (p : Neighbors.Params K) (k : Option Bool) : List (KnnOp K) → Option Bool
  | [] => k
  | .setParams q :: ops => lastKind q k ops
  | .fit _ :: ops => lastKind p (some p.metric.isNone) ops

/-- All parameters of a history agree on whether the metric is `'precomputed'`. -/
def SameKind (b : Bool) : List (KnnOp K) → Prop
  | [] => True
  | .setParams q :: ops => q.metric.isNone = b ∧ SameKind b ops
  | .fit _ :: ops => SameKind b ops

end

section

variable {K : Type} [Zero K] [LinearOrder K]

/-- The function a value of `func` stands for, if `fit` accepts it. -/
def asFunction : Func K → Option (List K → List K)
  | .none => some fun x => x
  | .function f => some f
  | .callable _ => none

/-- The function at the last accepted fit. -/
def lastFunc (f : Func K) (best : Option (List K → List K)) : List (TgOp K) → Option (List K → List K)
  | [] => best
  | .setParams g :: ops => lastFunc g best ops
  | .fit X :: ops => lastFunc f (if (checkPointClouds false false none X).isOk then (asFunction f).or best else best) ops

end

end Gtda.Spec.Stateless
