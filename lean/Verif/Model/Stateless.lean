import Mathlib.Data.List.Lex
import Mathlib.Data.PNat.Defs
import Verif.Model.Graphs
import Verif.Model.Images
import Verif.Model.MapperFilters
import Verif.Model.Neighbors
import Verif.Model.SeriesFeatures
import Verif.Model.TimeSeries

/-!
# Transformers whose `fit` is documented to do nothing

Most of them store a flag in `fit`, which the other methods look up (`check_is_fitted(self, '_is_fitted')`). They are modelled as objects with parameters and the flag; what the methods do
besides looking up the flag is given class by class. `KNeighborsGraph`, `TransitionGraph` and `ImageToPointCloud` store more and have models of their own. Arrays are as in
`Verif.Model.InputChecks`; the shape of the results is dropped except where they are lists of lists. Positive integer parameters are natural numbers, so that zero is the only value to refuse.
-/

set_option autoImplicit false
set_option linter.unusedSectionVars false

namespace Gtda.Stateless

open Py Gtda.Checks

/-! ### Objects that remember that they were fitted -/

/-- An object with its parameters and `_is_fitted`. As in gtda/mapper/filter.py:73. -/
structure Obj (P : Type) where
  params : P
  isFitted : Bool

/-- What distinguishes the classes: the checks of `fit` on parameters `P` and data `I`, and the methods after `check_is_fitted`, for a call `C` with result `O`; `transform` is the call
of `transform` on data. As in gtda/mapper/filter.py:71-74, 95-104. -/
structure Cls (P I C O : Type) where
  fitCheck : P → I → PyM Unit
  transform : I → C
  body : P → C → PyM O

section

variable {P I C O : Type} (c : Cls P I C O)

/-- A new object. As in gtda/mapper/filter.py:41-44. -/
def new (p : P) : Obj P := ⟨p, false⟩

/-- `fit`: the flag is set once the checks have passed. As in gtda/mapper/filter.py:71-74. -/
def fit (o : Obj P) (X : I) : Obj P × PyM Unit :=
  match c.fitCheck o.params X with
  | .error e => (o, .error e)
  | .ok () => ({ o with isFitted := true }, .ok ())

/-- A method that starts with `check_is_fitted(self, '_is_fitted')`. As in gtda/mapper/filter.py:95. -/
def call (o : Obj P) (x : C) : PyM O := if o.isFitted then c.body o.params x else .error .notFitted

/-- `fit_transform` of `TransformerMixin`: `fit`, then `transform`. Inherited in gtda/mapper/filter.py:16. -/
def fitTransform (o : Obj P) (X : I) : Obj P × PyM O :=
  match fit c o X with
  | (o', .error e) => (o', .error e)
  | (o', .ok ()) => (o', call c o' (c.transform X))

/-- What is done with an object: `set_params` is that of scikit-learn. As in gtda/mapper/filter.py:16-104. -/
inductive Op (P I C : Type) where
  | setParams (p : P)
  | fit (X : I)
  | fitTransform (X : I)
  | call (x : C)

/-- The object after one operation, whether it raises or not. As in gtda/mapper/filter.py:16-104. -/
def step (o : Obj P) : Op P I C → Obj P
  | .setParams p => { o with params := p }
  | .fit X => (fit c o X).1
  | .fitTransform X => (fitTransform c o X).1
  | .call _ => o

/-- The object after a history. As in gtda/mapper/filter.py:16-104. -/
def run (o : Obj P) (ops : List (Op P I C)) : Obj P := ops.foldl (step c) o

end

/-! ### Arrays as nested lists -/

section

variable {K : Type} [Zero K]

/-- The rows of a two-dimensional array with finite entries. As in gtda/mapper/filter.py:100. -/
def rows (x : Arr K) : List (List K) :=
  match x.shape with
  | [n, m] => Neighbors.chunks m n (x.data.map Neighbors.value)
  | _ => []

/-- The matrices of a three-dimensional array with finite entries. As in gtda/time_series/multivariate.py:105. -/
def matrices (x : Arr K) : List (List (List K)) :=
  match x.shape with
  | [n, a, b] => (Neighbors.chunks (a * b) n (x.data.map Neighbors.value)).map (Neighbors.chunks b a)
  | _ => []

/-- The entries along the first axis, flattened, of an array with finite entries. As in gtda/time_series/embedding.py:248. -/
def entries (x : Arr K) : List (List K) :=
  match x.shape with
  | n :: rest => Neighbors.chunks rest.prod n (x.data.map Neighbors.value)
  | [] => []

/-- `column_or_1d` of scikit-learn: one axis, or a second axis of length one. Used in gtda/time_series/embedding.py:273. -/
def columnOr1d (y : Arr K) : PyM (List K) :=
  match y.shape with
  | [_] => .ok (y.data.map Neighbors.value)
  | [_, 1] => .ok (y.data.map Neighbors.value)
  | _ => .error .valueError

end

/-! ### `gtda/mapper/filter.py` -/

/-- The parameters of `Eccentricity`: the exponent, and the metric with its parameters, `none` for `'precomputed'`, gtda/mapper/filter.py:41-44. -/
structure EccParams where
  exponent : ENNReal
  metric : Option (List ℝ → List ℝ → ℝ)

/-- `Eccentricity`, gtda/mapper/filter.py:46-74, 76-104. -/
noncomputable def eccentricityCls : Cls EccParams (Arr ℝ) (Arr ℝ) (List (List ℝ)) where
  fitCheck _ X := do let _ ← checkArray false true true false X; pure ()
  transform X := X
  body p X := do
    let Xt ← checkArray false true true false X
    match p.metric with
    | none => pure (Mapper.eccentricity p.exponent true (fun _ _ => 0) (rows Xt))
    | some d => pure (Mapper.eccentricity p.exponent false d (rows Xt))

/-- `Entropy`, gtda/mapper/filter.py:120-143, 145-176. -/
noncomputable def entropyCls : Cls Unit (Arr ℝ) (Arr ℝ) (List (List (Option ℝ))) where
  fitCheck _ X := do let _ ← checkArray false true true false X; pure ()
  transform X := X
  body _ X := do
    let Xt ← checkArray false true true false X
    pure (Mapper.entropyFilter (rows Xt))

/-- A column number or a label, gtda/mapper/filter.py:193-194. -/
inductive Key where
  | int (i : Int)
  | str (s : String)
  deriving DecidableEq

/-- The parameter `columns` of `Projection`, gtda/mapper/filter.py:193-194. -/
inductive Cols where
  | one (k : Key)
  | many (ks : List Key)

/-- An array, or a data frame with `n` rows: its labels (all different) with the columns, gtda/mapper/filter.py:240-246. -/
inductive Table (K : Type) where
  | array (x : Arr K)
  | frame (n : Nat) (columns : List (Key × List (Num K)))

section

variable {K : Type} [Zero K]

/-- The array made of columns of length `n`, row by row, as made by `check_array` from a data frame, gtda/mapper/filter.py:216, 243. -/
def ofColumns (n : Nat) (cols : List (List (Num K))) : Arr K :=
  ⟨[n, cols.length], (List.range n).flatMap fun i => cols.map fun c => c.getD i .nan, false⟩

/-- `X[label]` for a data frame, gtda/mapper/filter.py:243. -/
def lookup (columns : List (Key × List (Num K))) (k : Key) : PyM (List (Num K)) :=
  match columns.find? fun e => decide (e.1 = k) with
  | some e => .ok e.2
  | none => .error .keyError

/-- A column number for `Xt[:, columns]`; a string is refused with an `IndexError`, gtda/mapper/filter.py:246. -/
def asIndex : Key → PyM Int
  | .int i => .ok i
  | .str _ => .error .indexError

/-- `Projection`, gtda/mapper/filter.py:196-219, 221-248. -/
def projectionCls : Cls Cols (Table K) (Table K) (List (List K)) where
  fitCheck _ X :=
    match X with
    | .array x => do let _ ← checkArray false true true false x; pure ()
    | .frame n columns => do let _ ← checkArray false true true false (ofColumns n (columns.map (·.2))); pure ()
  transform X := X
  body p X :=
    match X with
    | .frame n columns =>
        match p with
        | .one k => do
            let col ← lookup columns k
            let Xt ← checkArray false true false false ⟨[n], col, false⟩
            pure (Xt.data.map fun x => [Neighbors.value x])
        | .many ks => do
            let cols ← ks.mapM (lookup columns)
            let Xt ← checkArray false true false false (ofColumns n cols)
            pure (rows Xt)
    | .array x => do
        let Xt ← checkArray false true true false x
        match p with
        | .one k => do
            let j ← asIndex k
            Mapper.projection (.one j) (rows Xt)
        | .many ks => do
            let js ← ks.mapM asIndex
            Mapper.projection (.many js) (rows Xt)

end

/-! ### `gtda/time_series` -/

/-- `PearsonDissimilarity` (parameter `absolute_value`), gtda/time_series/multivariate.py:54-80, 82-109. Two-dimensional arrays have no `X.shape[2]`; `np.corrcoef` refuses samples with more
than two axes. -/
noncomputable def pearsonCls : Cls Bool (Arr ℝ) (Arr ℝ) (List (List (List (Option ℝ)))) where
  fitCheck _ X := do let _ ← checkArray false true true true X; pure ()
  transform X := X
  body absoluteValue X := do
    let Xt ← checkArray false true true true X
    match Xt.shape with
    | [_, _, m] => pure (Series.pearsonTransform absoluteValue m (matrices Xt))
    | _ :: _ :: _ :: _ => .error .valueError
    | _ => .error .indexError

/-- `PermutationEntropy` (parameter `n_jobs`, as the effective number of jobs), gtda/time_series/features.py:59-82, 84-110. Two-dimensional arrays have no axis 2 (a `ValueError`); what is
computed for more than three axes is the parameter `tensor`. -/
noncomputable def permutationEntropyCls (tensor : ℕ+ → Arr ℝ → PyM (List (List (Option ℝ)))) : Cls ℕ+ (Arr ℝ) (Arr ℝ) (List (List (Option ℝ))) where
  fitCheck _ X := do let _ ← checkArray false true true true X; pure ()
  transform X := X
  body nJobs X := do
    let Xt ← checkArray false true true true X
    match Xt.shape with
    | [_, _, _] => pure (Series.permutationEntropyTransform (nJobs : ℕ) (matrices Xt))
    | _ :: _ :: _ :: _ => tensor nJobs Xt
    | _ => .error .valueError

/-- The parameters of `TakensEmbedding`, gtda/time_series/embedding.py:635-641. -/
structure TakensParams where
  timeDelay : Nat := 1
  dimension : Nat := 2
  stride : Nat := 1
  flatten : Bool := true
  ensureLast : Bool := true

/-- The embedding of one time series: vectors, or vectors for each variable, gtda/time_series/embedding.py:676-725. -/
inductive Embedded (K : Type) where
  | cloud (l : List (List K))
  | perVariable (l : List (List (List K)))
  deriving DecidableEq

/-- A call of `transform` or of `resample`. As in gtda/time_series/preprocessing.py:73, 100. -/
inductive Call (K : Type) where
  | transform (X : Arr K)
  | resample (y : Arr K)

/-- The results of the calls: windows, rows, or targets. As in gtda/time_series/preprocessing.py:73-122. -/
inductive Result (K : Type) where
  | windows (l : List (List (List K)))
  | rows (l : List (List K))
  | targets (l : List K)
  deriving DecidableEq

section

variable {K : Type} [Field K] [LinearOrder K]

/-- `_time_delay_embedding` of one time series, given by shape and values, gtda/time_series/_utils.py:11-41 with the first axis of length one or one entry along it. What is computed for more
than two axes is the parameter `tensor`. -/
def takensEntry (tensor : TakensParams → List Nat → List K → PyM (Embedded K)) (p : TakensParams) (shape : List Nat) (data : List K) : PyM (Embedded K) :=
  match shape with
  | [_] => do
      let l ← TimeSeries.takens1 p.timeDelay p.dimension p.stride p.ensureLast data
      pure (.cloud l)
  | [v, t] =>
      if p.flatten then do
        let l ← TimeSeries.takensMultiFlat p.timeDelay p.dimension p.stride p.ensureLast t (Neighbors.chunks t v data)
        pure (.cloud l)
      else do
        let l ← TimeSeries.takensMulti p.timeDelay p.dimension p.stride p.ensureLast t (Neighbors.chunks t v data)
        pure (.perVariable l)
  | _ => tensor p shape data

/-- `TakensEmbedding`, gtda/time_series/embedding.py:643-674, 676-725. A stride or a time delay of zero, which only `fit` refuses, divides by zero. -/
def takensCls (tensor : TakensParams → List Nat → List K → PyM (Embedded K)) : Cls TakensParams (Input K) (Input K) (List (Embedded K)) where
  fitCheck p X := do
    let _ ← checkCollection false true X
    if p.timeDelay < 1 ∨ p.dimension < 1 ∨ p.stride < 1 then .error .valueError else pure ()
  transform X := X
  body p X := do
    let Xt ← checkCollection false true X
    if p.stride = 0 ∨ p.timeDelay = 0 then .error .zeroDivision
    else (Neighbors.iterate Xt).mapM fun x => takensEntry tensor p x.shape (x.data.map Neighbors.value)

/-- `SlidingWindow` (parameters `size` and `stride`), gtda/time_series/embedding.py:200-223, 225-249, 251-276. A stride of zero, which only `fit` refuses, is a `ZeroDivisionError` in
`transform` and a `ValueError` in `resample`. -/
def slidingCls : Cls (Nat × Nat) (Arr K) (Call K) (Result K) where
  fitCheck p X := do
    let _ ← checkArray false true false true X
    if p.1 < 1 ∨ p.2 < 1 then .error .valueError else pure ()
  transform X := .transform X
  body p x :=
    match x with
    | .transform X => do
        let Xt ← checkArray false true false true X
        if p.2 = 0 then .error .zeroDivision
        else do
          let l ← TimeSeries.slidingTransform p.1 p.2 (entries Xt)
          pure (.windows l)
    | .resample y => do
        let yr ← columnOr1d y
        if p.2 = 0 then .error .valueError else pure (.targets (TimeSeries.slidingResample p.1 p.2 yr))

/-- `Resampler` (parameter `period`), gtda/time_series/preprocessing.py:48-71, 73-98, 100-122. A period of zero, which only `fit` refuses, is a `ValueError`. -/
def resamplerCls : Cls Nat (Arr K) (Call K) (Result K) where
  fitCheck p X := do
    let _ ← checkArray false true false true X
    if p < 1 then .error .valueError else pure ()
  transform X := .transform X
  body p x :=
    match x with
    | .transform X => do
        let Xt ← checkArray false true false true X
        if p = 0 then .error .valueError else pure (.rows (TimeSeries.resamplerTransform p (entries Xt)))
    | .resample y => do
        let yr ← columnOr1d y
        if p = 0 then .error .valueError else pure (.targets (TimeSeries.resamplerResample p yr))

/-- The parameter `operation` of `Stationarizer`; every other value is refused by `fit` and treated as the last one by `transform`, gtda/time_series/preprocessing.py:163-168. -/
inductive Operation where
  | ret
  | logRet
  | other
  deriving DecidableEq

/-- Two rows combined entry by entry: the difference of the later and the earlier one. Used in `stationarizerCls`, gtda/time_series/preprocessing.py:219-222. -/
def rowDiffs (X : List (List K)) : List (List K) := List.zipWith (fun a b => List.zipWith (fun u v => v - u) a b) X X.tail

/-- `Stationarizer`, gtda/time_series/preprocessing.py:170-193, 195-222, 224-245, with `np.log` as a parameter; divisions by zero and logarithms of numbers which are not positive are not
modelled. -/
def stationarizerCls (log : K → K) : Cls Operation (Arr K) (Call K) (Result K) where
  fitCheck p X := do
    let _ ← checkArray false true false true X
    if p = .other then .error .valueError else pure ()
  transform X := .transform X
  body p x :=
    match x with
    | .transform X => do
        let Xt ← checkArray false true false true X
        if p = .ret then
          pure (.rows (List.zipWith (List.zipWith (· / ·)) (rowDiffs (entries Xt)) (pySlice (some 1) none 1 (entries Xt))))
        else pure (.rows (rowDiffs ((entries Xt).map (List.map log))))
    | .resample y => do
        let yr ← columnOr1d y
        pure (.targets (TimeSeries.stationResample yr))

/-! ### `ForgetDimension` and `GraphGeodesicDistance` -/

/-- `ForgetDimension`, gtda/diagrams/preprocessing.py:37-62, 64-89. The array is copied, so that the argument keeps its values (see `Gtda.Diagrams.forgetDimension`). -/
def forgetDimensionCls [FloorRing K] : Cls Unit (Diagrams.Arr K) (Diagrams.Arr K) (Diagrams.Arr K) where
  fitCheck _ X := do let _ ← Diagrams.checkDiagrams X; pure ()
  transform X := X
  body _ X := do
    let Xt ← Diagrams.checkDiagrams X
    pure { Xt with data := Xt.data.map fun D => D.map fun p => p.set 2 (some ((⊤ : WithTop K) : Diagrams.Ext K)) }

/-- `GraphGeodesicDistance`, gtda/graphs/geodesic_distance.py:123-148, 150-183; `check_graph` returns its argument (gtda/utils/validation.py:90-92). `Xt[0]` does not exist for no graphs. -/
def geodesicCls (engine : Graphs.Engine K) : Cls Graphs.GeodesicParams (List (Graphs.GraphInput K)) (List (Graphs.GraphInput K)) (List (Nat × (Nat → Nat → WithTop K))) where
  fitCheck _ _ := .ok ()
  transform X := X
  body p X := do
    let Xt ← X.mapM (Graphs.geodesic engine p)
    if Xt = [] then .error .indexError else pure Xt

/-! ### `KNeighborsGraph` -/

/-- A `KNeighborsGraph` with `_is_precomputed` and `_is_fitted`, gtda/graphs/kneighbors.py:117, 121. -/
structure KnnObj (K : Type) where
  params : Neighbors.Params K
  isPrecomputed : Option Bool
  isFitted : Bool

/-- A new `KNeighborsGraph`, gtda/graphs/kneighbors.py:84-91. -/
def knnNew (p : Neighbors.Params K) : KnnObj K := ⟨p, none, false⟩

/-- `KNeighborsGraph.fit`, gtda/graphs/kneighbors.py:117-122: `_is_precomputed` is set before the data are checked. -/
def knnFit (o : KnnObj K) (X : Input K) : KnnObj K × PyM Unit :=
  let o' := { o with isPrecomputed := some o.params.metric.isNone }
  match checkPointClouds true o.params.metric.isNone none X with
  | .error e => (o', .error e)
  | .ok _ => ({ o' with isFitted := true }, .ok ())

/-- `KNeighborsGraph.transform`, gtda/graphs/kneighbors.py:150-162. -/
def knnTransform (engine : Neighbors.Params K → Arr K → PyM (Neighbors.Graph K)) (order : List Nat) (o : KnnObj K) (X : Input K) : PyM (List (Neighbors.Graph K)) :=
  if o.isFitted then Neighbors.transform engine o.isPrecomputed o.params X order else .error .notFitted

/-- The operations on a `KNeighborsGraph`, gtda/graphs/kneighbors.py:84-162. -/
inductive KnnOp (K : Type) where
  | setParams (p : Neighbors.Params K)
  | fit (X : Input K)

/-- The object after one operation, gtda/graphs/kneighbors.py:84-162. -/
def knnStep (o : KnnObj K) : KnnOp K → KnnObj K
  | .setParams p => { o with params := p }
  | .fit X => (knnFit o X).1

/-- The object after a history, gtda/graphs/kneighbors.py:84-162. -/
def knnRun (o : KnnObj K) (ops : List (KnnOp K)) : KnnObj K := ops.foldl knnStep o

end

/-! ### `TransitionGraph` -/

section

variable {K : Type} [Zero K] [LinearOrder K]

/-- The parameter `func`: `None`, a function, or another callable (which is no instance of `FunctionType`), gtda/graphs/transition.py:109. -/
inductive Func (K : Type) where
  | none
  | function (f : List K → List K)
  | callable (f : List K → List K)

/-- A `TransitionGraph` with the parameter `func` and the attribute `_func`, which is set together with `effective_func_params_`, gtda/graphs/transition.py:112-115, 157-165. The parameter
`func_params` has no effect (see C67). -/
structure TgObj (K : Type) where
  func : Func K
  fitted : Option (List K → List K)

/-- `TransitionGraph.fit`, gtda/graphs/transition.py:153-167, with `identity`, gtda/graphs/transition.py:16-18. -/
def tgFit (o : TgObj K) (X : Input K) : TgObj K × PyM Unit :=
  match checkPointClouds false false none X with
  | .error e => (o, .error e)
  | .ok _ =>
      match o.func with
      | .none => ({ o with fitted := some id }, .ok ())
      | .function f => ({ o with fitted := some f }, .ok ())
      | .callable _ => (o, .error .typeError)

/-- `TransitionGraph.transform`, gtda/graphs/transition.py:191-197, for graphs with rows of numbers as states. -/
def tgTransform (o : TgObj K) (X : Input K) : PyM (List (List (List Nat))) :=
  match o.fitted with
  | none => .error .notFitted
  | some f => do
      let Xt ← checkPointClouds false false none X
      pure ((Neighbors.iterate Xt.2).map fun x => Graphs.adjacency f (rows x))

/-- The operations on a `TransitionGraph`, gtda/graphs/transition.py:112-197. -/
inductive TgOp (K : Type) where
  | setParams (f : Func K)
  | fit (X : Input K)

/-- The object after one operation, gtda/graphs/transition.py:112-197. -/
def tgStep (o : TgObj K) : TgOp K → TgObj K
  | .setParams f => { o with func := f }
  | .fit X => (tgFit o X).1

/-- The object after a history, gtda/graphs/transition.py:112-197. -/
def tgRun (o : TgObj K) (ops : List (TgOp K)) : TgObj K := ops.foldl tgStep o

end

/-! ### `ImageToPointCloud` -/

section

variable {K : Type} [Field K] [LinearOrder K] [IsStrictOrderedRing K]

/-- An `ImageToPointCloud` (parameter `n_jobs`, as the effective number of jobs) with `n_dimensions_`, gtda/images/preprocessing.py:563-564, 593. -/
structure ImgObj where
  nJobs : Nat
  nDimensions : Option Nat
  deriving DecidableEq

/-- What is passed: an array or a nested list, which has no `ndim`, gtda/images/preprocessing.py:592-593. -/
inductive ImgInput (K : Type) where
  | ndarray (x : Arr K)
  | nested (x : Arr K)

/-- The array in both cases, gtda/images/preprocessing.py:592, 622. -/
def ImgInput.arr : ImgInput K → Arr K
  | .ndarray x => x
  | .nested x => x

/-- `ImageToPointCloud.fit`, gtda/images/preprocessing.py:592-598: `n_dimensions_` is set before it is checked. -/
def imgFit (o : ImgObj) (X : ImgInput K) : ImgObj × PyM Unit :=
  match checkArray false true true true X.arr with
  | .error e => (o, .error e)
  | .ok _ =>
      match X with
      | .nested _ => (o, .error .attributeError)
      | .ndarray x =>
          let d := x.shape.length - 1
          let o' := { o with nDimensions := some d }
          if 3 < d then (o', .error .valueError) else (o', .ok ())

/-- The value at the multi-index `p` in an array of shape `shape` stored in row-major order, called in gtda/images/preprocessing.py:624-628. -/
def pixel (shape : List Nat) (data : List K) (p : List Nat) : K := data.getD ((shape.zip p).foldl (fun a e => a * e.1 + e.2) 0) 0

/-- `ImageToPointCloud.transform`, gtda/images/preprocessing.py:621-631. -/
def imgTransform (o : ImgObj) (X : ImgInput K) : PyM (List (List Images.Idx)) :=
  match o.nDimensions with
  | none => .error .notFitted
  | some _ => do
      let Xt ← checkArray false true true true X.arr
      match Xt.shape with
      | n :: shape => Images.toPointCloud o.nJobs shape ((Neighbors.chunks shape.prod n (Xt.data.map Neighbors.value)).map (pixel shape))
      | [] => .error .valueError

end

end Gtda.Stateless
