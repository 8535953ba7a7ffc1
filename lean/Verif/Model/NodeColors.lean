import Verif.Model.Visualization

/-!
# Model of static Mapper plots: colour arguments and traces

`_infer_color_features_kind`, `_validate_color_kwargs` and `_calculate_graph_data`
(`gtda/mapper/utils/_visualization.py:170-382`), and what `plot_static_mapper_graph` (`gtda/mapper/visualization.py:170-188`) makes of them.
Arrays have one or two axes; pandas objects are a list of column labels with rows, or a list of values. Layouts, statistics, transformers and the printing of numbers are parameters.
-/

set_option autoImplicit false

namespace Gtda.Vis

open Py

/-- A label or index of a column. Used in `applyFeatures`, gtda/mapper/utils/_visualization.py:255-272. -/
inductive Key where
  | str (s : List Char)
  | int (i : Int)
deriving DecidableEq

/-- An array with one axis, or with two and `cols` columns. Used in `validateColors`, gtda/mapper/utils/_visualization.py:190-284. -/
inductive Arr (V : Type) where
  | vec (l : List V)
  | mat (cols : Nat) (rows : List (List V))
deriving DecidableEq

/-- A numpy array, a pandas dataframe (it has `columns`) or a pandas series (it has `name`). Used in `validateColors`, gtda/mapper/utils/_visualization.py:200-209. -/
inductive Data (V : Type) where
  | array (a : Arr V)
  | frame (names : List Key) (rows : List (List V))
  | series (values : List V)

/-- `to_numpy()`. Used in `validateColors`, gtda/mapper/utils/_visualization.py:198, 249-251, 258. -/
def Data.toNumpy {V : Type} : Data V → Arr V
  | .array a => a
  | .frame names rows => .mat names.length rows
  | .series l => .vec l

/-- `len`. Used in `validateColors`, gtda/mapper/utils/_visualization.py:205, 281. -/
def Arr.len {V : Type} : Arr V → Nat
  | .vec l => l.length
  | .mat _ rows => rows.length

/-- `check_array(…, ensure_2d=False)` of scikit-learn: no empty axis and no entry that is not finite (`finite` decides). Called in gtda/mapper/utils/_visualization.py:198, 225. -/
def checkArray {V : Type} (finite : V → Bool) : Arr V → PyM (Arr V)
  | .vec l => if l.isEmpty || !(l.all finite) then .error .valueError else .ok (.vec l)
  | .mat c rows => if rows.isEmpty || c == 0 || !(rows.all fun r => r.all finite) then .error .valueError else .ok (.mat c rows)

/-- `a.reshape((len(a), -1))`: rows and the number of columns. An array without rows is a `ValueError`. Models gtda/mapper/utils/_visualization.py:235-236, 280-281. -/
def Arr.table {V : Type} : Arr V → PyM (Nat × List (List V))
  | .vec l => if l.isEmpty then .error .valueError else .ok (1, l.map fun v => [v])
  | .mat c rows => if rows.isEmpty then .error .valueError else .ok (c, rows)

/-- One column, or a list of columns. Used in `applyFeatures`, gtda/mapper/utils/_visualization.py:255-272. -/
inductive Selection where
  | one (k : Key)
  | many (ks : List Key)

/-- What matters about the object `color_features`: whether it has the attributes `dtype` or `dtypes`, its methods `fit_transform` and `transform`, what it does when called, whether it is
`None`, and its meaning as a selection. Used in `inferKind`, gtda/mapper/utils/_visualization.py:170-187. -/
structure FeatureObj (V : Type) where
  hasDtype : Bool
  fitTransform : Option (Data V → PyM (Data V))
  transform : Option (Data V → PyM (Data V))
  call : Option (Data V → PyM (Data V))
  isNone : Bool
  key : Selection

/-- The kinds of `color_features`. Used in `inferKind`, gtda/mapper/utils/_visualization.py:170-187. -/
inductive Kind (V : Type) where
  | fitTransformer (f : Data V → PyM (Data V))
  | transformer (f : Data V → PyM (Data V))
  | callable (f : Data V → PyM (Data V))
  | none
  | else (key : Selection)

/-- `_infer_color_features_kind`, gtda/mapper/utils/_visualization.py:170-187. -/
def inferKind {V : Type} (o : FeatureObj V) : PyM (Kind V) :=
  if o.hasDtype then .error .valueError
  else match o.fitTransform with
    | some f => .ok (.fitTransformer f)
    | none =>
      match o.transform with
      | some f => .ok (.transformer f)
      | none =>
        match o.call with
        | some f => .ok (.callable f)
        | none => if o.isNone then .ok .none else .ok (.else o.key)

/-- The labels `range(n)`. Used in `validateColors`, gtda/mapper/utils/_visualization.py:233, 278. -/
def rangeNames (n : Nat) : List Key := (List.range n).map fun (i : Nat) => .int i

/-- Position of a column label of a dataframe, `KeyError` if there is none. Simplification: the first one if there are several. Used in `applyFeatures`, gtda/mapper/utils/_visualization.py:256. -/
def frameIndex (names : List Key) (k : Key) : PyM Nat :=
  match names.findIdx? (· = k) with
  | some j => .ok j
  | none => .error .keyError

/-- `row[k]` for a row of an array. Used in `applyFeatures`, gtda/mapper/utils/_visualization.py:269. -/
def rowKey {V : Type} (row : List V) : Key → PyM V
  | .str _ => .error .indexError
  | .int i => npIndex row i

/-- The output of a transformer: numpy arrays only have `reshape`. Simplification: the `AttributeError` is raised here and not in line 280. Used in `applyFeatures`, gtda/mapper/utils/_visualization.py:239-242. -/
def transformed {V : Type} (names : Option (List Key)) : Data V → PyM (Arr V × Option (List Key))
  | .array a => .ok (a, names)
  | _ => .error .attributeError

/-- Data taken as they are, with the column labels of a dataframe. Used in `applyFeatures`, gtda/mapper/utils/_visualization.py:243-258. -/
def asFeatures {V : Type} (names : Option (List Key)) : Data V → Arr V × Option (List Key)
  | .array a => (a, names)
  | .frame ns rows => (.mat ns.length rows, some ns)
  | .series l => (.vec l, names)

/-- A column or columns, gtda/mapper/utils/_visualization.py:255-272. -/
def selectColumns {V : Type} (names : Option (List Key)) (key : Selection) : Data V → PyM (Arr V × Option (List Key))
  | .frame ns rows =>
      match key with
      | .one k => do
          let j ← frameIndex ns k
          let c ← columnOf rows j
          pure (.vec c, none)
      | .many ks => do
          let js ← ks.mapM (frameIndex ns)
          let rs ← rows.mapM fun r => js.mapM fun (j : Nat) => npIndex r (j : Int)
          pure (.mat ks.length rs, some ks)
  | .series _ => .error .valueError
  | .array (.vec _) => .error .indexError
  | .array (.mat _ rows) =>
      match key with
      | .one k => do
          let c ← rows.mapM fun r => rowKey r k
          pure (.vec c, names)
      | .many ks => do
          let rs ← rows.mapM fun r => ks.mapM (rowKey r)
          pure (.mat ks.length rs, some ks)

/-- The features of interest, gtda/mapper/utils/_visualization.py:238-272. `names` are the column labels found so far. -/
def applyFeatures {V : Type} (kind : Kind V) (names : Option (List Key)) (data : Data V) : PyM (Arr V × Option (List Key)) :=
  match kind with
  | .fitTransformer f => f data >>= transformed names
  | .transformer f => f data >>= transformed names
  | .callable f => do
      let d ← f data
      pure (asFeatures names d)
  | .none => .ok (asFeatures names data)
  | .else key => selectColumns names key data

/-- The parameter `node_color_statistic`; `other` is neither callable nor an array. Used in `validateStatistic`, gtda/mapper/utils/_visualization.py:192-239. -/
inductive Statistic (V W : Type) where
  | default
  | callable (f : List V → PyM W)
  | ndarray (a : Arr W)
  | other

/-- The statistic after validation. Used in `validateStatistic`, gtda/mapper/utils/_visualization.py:192-239. -/
inductive Colors (V W : Type) where
  | compute (f : List V → PyM W)
  | given (cols : Nat) (rows : List (List W))

/-- Column labels of an array of node colours: `None` for one axis. Used in `validateStatistic`, gtda/mapper/utils/_visualization.py:232-236. -/
def Arr.labels {V : Type} : Arr V → Option (List Key)
  | .vec _ => none
  | .mat c _ => some (rangeNames c)

/-- `node_color_statistic` and the first column labels, gtda/mapper/utils/_visualization.py:192-193 and 211-239. `mean` is `np.mean`. -/
def validateStatistic {V W : Type} (finite : W → Bool) (mean : List V → PyM W) (interactive : Bool) (nNodes : Nat) (s : Statistic V W) : PyM (Colors V W × Option (List Key)) :=
  match s with
  | .default => .ok (.compute mean, none)
  | .callable f => .ok (.compute f, none)
  | .ndarray a =>
      if interactive then .error .valueError
      else do
        let a ← checkArray finite a
        if a.len ≠ nNodes then .error .valueError
        else do
          let t ← a.table
          pure (.given t.1 t.2, a.labels)
  | .other => .error .valueError

/-- Labels of the columns of an array with two axes unless there are some. Used in `validateColors`, gtda/mapper/utils/_visualization.py:274-276. -/
def defaultNames {V : Type} (names : Option (List Key)) : Arr V → Option (List Key)
  | .vec _ => names
  | .mat c _ => some (names.getD (rangeNames c))

/-- The result of `_validate_color_kwargs`: number of columns and rows of the features, column labels, statistic. Used in `validateColors`, gtda/mapper/utils/_visualization.py:283-284. -/
structure Validated (V W : Type) where
  cols : Nat
  rows : List (List V)
  names : Option (List Key)
  stat : Colors V W

/-- `_validate_color_kwargs`, gtda/mapper/utils/_visualization.py:190-284. `arange n` is `np.arange(n)`. -/
def validateColors {V W : Type} (finite : V → Bool) (finiteW : W → Bool) (arange : Nat → List V) (mean : List V → PyM W) (nNodes nData : Nat) (colorData : Option (Data V))
    (features : FeatureObj V) (s : Statistic V W) (interactive : Bool) : PyM (Validated V W) := do
  let d := colorData.getD (.array (.vec (arange nData)))
  let checked ← checkArray finite d.toNumpy
  if checked.len ≠ nData then .error .valueError
  else do
    let st ← validateStatistic finiteW mean interactive nNodes s
    let kind ← inferKind features
    let out ← applyFeatures kind st.2 d
    let t ← out.1.table
    pure ⟨t.1, t.2, defaultNames out.2 out.1, st.1⟩

/-- The Mapper graph: rows of the data in each node, labels of pullback sets and partial clusters, and edges as pairs of node indices. Used in `calculateGraph`,
gtda/mapper/utils/_visualization.py:287-382. -/
structure MGraph where
  elements : List (List Nat)
  pullback : List Int
  partialLabels : List Int
  edges : List (Nat × Nat)

/-- `node_pos[v, c]`. Used in `edgeCoords`, gtda/mapper/utils/_visualization.py:335-352. -/
def posAt {K : Type} (pos : List (List K)) (v c : Nat) : PyM K :=
  match pos[v]? with
  | some row =>
      match row[c]? with
      | some x => .ok x
      | none => .error .indexError
  | none => .error .indexError

/-- `edge_x`, `edge_y` and `edge_z`, gtda/mapper/utils/_visualization.py:335-352 and 367-375: one coordinate of both end points of each edge, followed by `None`. -/
def edgeCoords {K : Type} (pos : List (List K)) (edges : List (Nat × Nat)) (c : Nat) : PyM (List (Option K)) := do
  let parts ← edges.mapM fun e => do
    let a ← posAt pos e.1 c
    let b ← posAt pos e.2 c
    pure [some a, some b, none]
  pure parts.flatten

/-- What is shown: sizes, reference size, colours, hover texts and coordinates of the nodes, coordinates of the edges. Used in `calculateGraph`, gtda/mapper/utils/_visualization.py:287-382. -/
structure Traces (W K : Type) where
  sizes : List Nat
  ref : K
  color : List W
  hovertext : List (List Char)
  nodeCoords : List (List K)
  edgeCoords : List (List (Option K))

/-- The matrix of node colours with its number of columns, gtda/mapper/utils/_visualization.py:293-298. -/
def nodeColors {V W : Type} (v : Validated V W) (elements : List (List Nat)) : PyM (Nat × List (List W)) :=
  match v.stat with
  | .compute f => do
      let m ← nodeStatistics f v.rows v.cols elements
      pure (v.cols, m)
  | .given c rows => .ok (c, rows)

/-- `_calculate_graph_data`, gtda/mapper/utils/_visualization.py:287-382. `layout d` are the coordinates of the nodes in `d` dimensions. -/
def calculateGraph {V W K : Type} [Field K] [LinearOrder K] (showInt : Int → List Char) (print : W → List Char) (layout : Nat → PyM (List (List K))) (g : MGraph) (v : Validated V W)
    (layoutDim : Int) (nodeScale : K) : PyM (Traces W K × Nat × List (List W)) := do
  let colors ← nodeColors v g.elements
  let sizes := nodeSizes g.elements
  let ref ← sizeref sizes nodeScale
  let first ← columnOf colors.2 0
  let text := hoverTexts showInt print ((List.range g.elements.length).map fun (i : Nat) => (i : Int)) g.pullback g.partialLabels (sizes.map fun (n : Nat) => (n : Int)) first
  if layoutDim ≠ 2 ∧ layoutDim ≠ 3 then .error .valueError
  else do
    let pos ← layout layoutDim.toNat
    let nodes ← (List.range layoutDim.toNat).mapM fun (c : Nat) => columnOf pos c
    let edges ← (List.range layoutDim.toNat).mapM fun (c : Nat) => edgeCoords pos g.edges c
    pure (⟨sizes, ref, first, text, nodes, edges⟩, colors)

/-- How a label is shown in the menu: `f"{name}"`. Used in `staticPlot`, gtda/mapper/utils/_visualization.py:137, 153. -/
def showKey (showInt : Int → List Char) : Key → List Char
  | .str s => s
  | .int i => showInt i

/-- The menu of colour columns: none for one column, `None[0]` is a `TypeError`. Models gtda/mapper/utils/_visualization.py:448-455. -/
def menu {W : Type} (showInt : Int → List Char) (print : W → List Char) (colors : Nat × List (List W)) (text : List (List Char)) (names : Option (List Key)) : PyM (Option (List (Button W))) :=
  if 1 < colors.1 then
    match names with
    | some ns => do
        let b ← columnButtons print colors.2 text (ns.map (showKey showInt))
        pure (some b)
    | none => .error .typeError
  else .ok none

/-- `plot_static_mapper_graph` after the pipeline, gtda/mapper/visualization.py:173-188: traces and the menu. Colours of hover labels (`hoverColors`) and the parameters of plotly are left out. -/
def staticPlot {V W K : Type} [Field K] [LinearOrder K] (finite : V → Bool) (finiteW : W → Bool) (arange : Nat → List V) (mean : List V → PyM W) (showInt : Int → List Char)
    (print : W → List Char) (layout : Nat → PyM (List (List K))) (g : MGraph) (nData : Nat) (colorData : Option (Data V)) (features : FeatureObj V) (s : Statistic V W)
    (layoutDim : Int) (nodeScale : K) : PyM (Traces W K × Option (List (Button W))) := do
  let v ← validateColors finite finiteW arange mean g.elements.length nData colorData features s false
  let t ← calculateGraph showInt print layout g v layoutDim nodeScale
  let m ← menu showInt print t.2 t.1.hovertext v.names
  pure (t.1, m)

end Gtda.Vis
