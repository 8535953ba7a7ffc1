import Verif.Model.Persistence
import Verif.Model.Raster
import Verif.Model.Silhouette
import Verif.Model.CurveFeatures
import Verif.Model.Validation

set_option autoImplicit false

/-!
# Model of the plotting functions

`gtda/plotting/*.py`, the `plot` methods of the transformers and `PlotterMixin` (`gtda/base.py`). A figure is what is handed to plotly: the coordinates, hover texts and
names of the traces and the ranges of the axes. Colours, fonts, axis titles, `plotly_params` and plotly's own rendering are not modelled. The decimal constants `0.02` and
`0.1` are exact.
-/

namespace Gtda.Plotting
open Gtda.Py Gtda.Diagrams Gtda.Validation

/-! ### Persistence diagrams -/

/-- `gobj.Scatter(x=…, y=…, mode="markers", hovertext=…, name=…)`, gtda/plotting/persistence_diagrams.py:87-90. -/
structure Markers (K : Type) where
  x : List (WithTop K)
  y : List (WithTop K)
  text : List String
  name : String
  deriving DecidableEq

/-- The figure of `plot_diagram`: the two end points of the dashed diagonal (same abscissa and ordinate), one scatter per homology dimension, the height of the dashed line for
points with infinite death, and the common range of both axes. Used in `plotDiagram`, gtda/plotting/persistence_diagrams.py:8-145. -/
structure DiagramFigure (K : Type) where
  diagonal : K × K
  markers : List (Markers K)
  infinityLine : Option K
  range : K × K
  deriving DecidableEq

/-- `f"H{int(dim)}" if dim != np.inf else "Any homology dimension"`, gtda/plotting/persistence_diagrams.py:71. -/
def diagramLabel : WithTop Nat → String
  | none => "Any homology dimension"
  | some n => "H" ++ toString n

section
variable {K Q : Type} [Field K] [LinearOrder K] [LinearOrder Q]

/-- `diagram[diagram[:, 0] != diagram[:, 1]]`, gtda/plotting/persistence_diagrams.py:39. -/
def removeDiagonal (D : List (Pt (WithTop K) Q)) : List (Pt (WithTop K) Q) := D.filter fun p => decide (p.b ≠ p.d)

/-- The entries of `diagram_no_dims` which are not `inf`, gtda/plotting/persistence_diagrams.py:40-45. Births and deaths `-inf` are not modelled, so that both the maximum and the
minimum are taken over these entries. -/
def finiteEntries (D : List (Pt (WithTop K) Q)) : List K := D.flatMap fun p => [p.b, p.d].filterMap fun v => v

/-- `min_val` and `max_val`, gtda/plotting/persistence_diagrams.py:43-49. -/
def limits (D : List (Pt (WithTop K) Q)) : K × K :=
  match finiteEntries D with
  | [] => (0, 1)
  | v :: t => (t.foldl min v, t.foldl max v)

/-- Lexicographic order on rows, used by `np.unique(…, axis=0)`. Used in `hoverTexts`, gtda/plotting/persistence_diagrams.py:73-83. -/
def rowLe (p p' : Pt (WithTop K) Q) : Bool :=
  decide (p.b < p'.b) || (decide (p.b = p'.b) && (decide (p.d < p'.d) || (decide (p.d = p'.d) && decide (p.q ≤ p'.q))))

/-- `np.unique(rows, axis=0)`. Used in `hoverTexts`, gtda/plotting/persistence_diagrams.py:73-83. -/
def uniqueRows (P : List (Pt (WithTop K) Q)) : List (Pt (WithTop K) Q) := P.dedup.insertionSort fun p p' => rowLe p p' = true

/-- The hover texts, gtda/plotting/persistence_diagrams.py:73-83: `inverse` gives for every row its position among the unique rows, `counts` the multiplicities. `print b d` is
`f"{(b, d)}"`. -/
def hoverTexts (print : WithTop K → WithTop K → String) (P : List (Pt (WithTop K) Q)) : List String :=
  let unique := uniqueRows P
  let inverse := P.map fun p => unique.idxOf p
  let counts := unique.map fun u => P.count u
  inverse.filterMap fun i => do
    let u ← unique[i]?
    let c ← counts[i]?
    some (print u.b u.d ++ (if c > 1 then ", multiplicity: " ++ toString c else ""))

/-- The body of the loop over homology dimensions, gtda/plotting/persistence_diagrams.py:70-90; `P` is the diagram without diagonal points. -/
def dimMarkers (print : WithTop K → WithTop K → String) (label : Q → String) (hasInf : Bool) (infVal : K) (P : List (Pt (WithTop K) Q)) (q : Q) : Markers K :=
  let sub := P.filter fun p => decide (p.q = q)
  { x := sub.map (·.b)
    y := sub.map fun p => if hasInf ∧ p.d = ⊤ then (infVal : WithTop K) else p.d
    text := hoverTexts print sub
    name := label q }

/-- The default for `homology_dimensions`, gtda/plotting/persistence_diagrams.py:36-37. -/
def requestedDims (hdims : Option (List Q)) (D : List (Pt (WithTop K) Q)) : List Q :=
  match hdims with
  | none => (D.map fun p => p.q).dedup.insertionSort (· ≤ ·)
  | some l => l

/-- `plot_diagram`, gtda/plotting/persistence_diagrams.py:8-145. -/
def plotDiagram (print : WithTop K → WithTop K → String) (label : Q → String) (hdims : Option (List Q)) (D : List (Pt (WithTop K) Q)) : DiagramFigure K :=
  let hdims := requestedDims hdims D
  let P := removeDiagonal D
  let lim := limits P
  let range := lim.2 - lim.1
  let hasInf := P.any fun p => decide (p.d = ⊤)
  let infVal := lim.2 + 1 / 10 * range
  let extra := (if hasInf then 1 / 50 + 1 / 10 else 1 / 50) * range
  let lo := lim.1 - extra
  let hi := lim.2 + extra
  { diagonal := (lo, hi)
    markers := hdims.map (dimMarkers print label hasInf infVal P)
    infinityLine := if hasInf then some infVal else none
    range := (lo, hi) }

/-- The `plot` methods of the persistent homology transformers, `Scaler` and `Filtering` (which use `homology_dimensions_` as default): `plot_diagram(Xt[sample], homology_dimensions=…)`, gtda/homology/simplicial.py:342-345, 697-730,
gtda/homology/simplicial.py:968-1001, 1218-1251, 1443-1476, 1733-1766, gtda/local_homology/simplicial.py:158-191, gtda/homology/cubical.py:256-259, gtda/diagrams/preprocessing.py:349-357. `at i` is `Xt[i]`. -/
def diagramPlot (print : WithTop K → WithTop K → String) (label : Q → String) (hdims : Option (List Q)) (at_ : Int → PyM (List (Pt (WithTop K) Q))) (sample : Int) :
    PyM (DiagramFigure K) := do
  let D ← at_ sample
  .ok (plotDiagram print label hdims D)

/-- `ForgetDimension.plot`, gtda/diagrams/preprocessing.py:92-120. -/
def forgetPlot (print : WithTop K → WithTop K → String) (at_ : Int → PyM (List (Pt (WithTop K) (WithTop Nat)))) (sample : Int) : PyM (DiagramFigure K) :=
  diagramPlot print diagramLabel (some [⊤]) at_ sample

end

/-! ### Transforming and plotting one sample -/

/-- `PlotterMixin.transform_plot`, gtda/base.py:121-144: `plot` gets the dictionary `{sample: Xt[0]}`. The result is the transformed collection and the figure shown. -/
def transformPlot {A B F : Type} (transform : List A → PyM (List B)) (plot : (Int → PyM B) → Int → PyM F) (X : List A) (sample : Int) : PyM (List B × F) := do
  let Xt ← transform (pySlice (some sample) (some (sample + 1)) 1 X)
  let x ← npIndex Xt 0
  let fig ← plot (fun i => if i = sample then .ok x else .error .keyError) sample
  .ok (Xt, fig)

/-! ### Curves -/

/-- `Scatter(x=…, y=…, mode="lines", name=…)`. Used in `curvesPlot`, gtda/diagrams/representations.py:172-249, 1148-1225. -/
structure Line (X Y : Type) where
  x : List X
  y : List Y
  name : String
  deriving DecidableEq

section
variable {K Q α : Type} [DecidableEq Q]

/-- `_make_homology_dimensions_mapping`, gtda/diagrams/_utils.py:170-186. -/
def dimsMapping (hdims : Option (List Q)) (ref : List Q) : PyM (List (Nat × Q)) :=
  match hdims with
  | none => .ok (ref.zipIdx.map fun p => (p.2, p.1))
  | some l => l.mapM fun dim => if dim ∈ ref then .ok (ref.idxOf dim, dim) else .error .valueError

/-- `BettiCurve.plot` and `Silhouette.plot`, gtda/diagrams/representations.py:172-249, 1148-1225; `sampling q` is `samplings_[q]`, `label q` is `f"H{q}"`. -/
def curvesPlot (label : Q → String) (dims : List Q) (sampling : Q → List K) (hdims : Option (List Q)) (at_ : Int → PyM (List (List α))) (sample : Int) :
    PyM (List (Line K α)) := do
  let mapping ← dimsMapping hdims dims
  mapping.mapM fun m => do
    let rows ← at_ sample
    let y ← npIndex rows (m.1 : Int)
    .ok ⟨sampling m.2, y, label m.2⟩

/-- `PersistenceLandscape.plot`, gtda/diagrams/representations.py:411-506: one subplot per homology dimension, with its title and one line per layer. -/
def landscapePlot (label : Q → String) (dims : List Q) (sampling : Q → List K) (hdims : Option (List Q)) (at_ : Int → PyM (List (List α))) (sample : Int) :
    PyM (List (String × List (Line K α))) := do
  let mapping ← dimsMapping hdims dims
  let rows ← at_ sample
  if dims.length = 0 then .error .zeroDivision
  else
    let nLayers := rows.length / dims.length
    mapping.mapM fun m => do
      let suffix := if mapping.length - 1 ≠ 0 then " (" ++ label m.2 ++ ")" else ""
      let lines ← (List.range nLayers).mapM fun layer => do
        let y ← npIndex rows ((m.1 * nLayers + layer : Nat) : Int)
        .ok (⟨sampling m.2, y, "Layer " ++ toString (layer + 1) ++ suffix⟩ : Line K α)
      .ok (label m.2, lines)

end

section
variable {K α : Type}

/-- `d[k]` for a dictionary or a sequence given by a lookup function. Used in `plotBettiCurves`, gtda/plotting/diagram_representations.py:8-89. -/
def lookup {V : Type} (e : PyErr) (o : Option V) : PyM V :=
  match o with
  | some v => .ok v
  | none => .error e

/-- `plot_betti_curves`, gtda/plotting/diagram_representations.py:8-89; `samplings` is a dictionary keyed by homology dimensions, or `None`. -/
def plotBettiCurves (betti : List (List α)) (samplings : Option (Nat → Option (List K))) (hdims : Option (List Nat)) : PyM (List (Line K α)) :=
  (hdims.getD (List.range betti.length)).mapM fun dim => do
    let s ← lookup .typeError samplings
    let x ← lookup .keyError (s dim)
    let y ← npIndex betti (dim : Int)
    .ok ⟨x, y, "H" ++ toString dim⟩

/-- One `Surface(x=…, y=…, z=…)` with the title of its figure. Used in `plotBettiSurfaces`, gtda/plotting/diagram_representations.py:92-187. -/
structure Surface (K α : Type) where
  x : List K
  y : List Nat
  z : List (List α)
  title : String
  deriving DecidableEq

/-- The result of `plot_betti_surfaces`. Used in `plotBettiSurfaces`, gtda/plotting/diagram_representations.py:92-187. -/
inductive Surfaces (K α : Type)
  | curves (l : List (Line K α))
  | surfaces (l : List (Surface K α))
  deriving DecidableEq

/-- `plot_betti_surfaces`, gtda/plotting/diagram_representations.py:92-187; `nDims` is `betti_curves.shape[1]`. -/
def plotBettiSurfaces (nDims : Nat) (curves : List (List (List α))) (samplings : Option (Nat → Option (List K))) (hdims : Option (List Nat)) : PyM (Surfaces K α) :=
  match curves with
  | [c] => do
    let l ← plotBettiCurves c samplings hdims
    .ok (.curves l)
  | _ => do
    let l ← (hdims.getD (List.range nDims)).mapM fun dim => do
      let s ← lookup .typeError samplings
      let x ← lookup .keyError (s dim)
      let z ← curves.mapM fun c => npIndex c (dim : Int)
      .ok (⟨x, List.range curves.length, z, "Betti surface for homology dimension " ++ toString dim⟩ : Surface K α)
    .ok (.surfaces l)

/-- `Derivative.plot`, gtda/curves/preprocessing.py:121-199. -/
def derivativePlot (nChannels : Nat) (channels : Option (List Int)) (at_ : Int → PyM (List (List α))) (sample : Int) : PyM (List (Line Nat α)) := do
  let channels := channels.getD ((List.range nChannels).map fun (c : Nat) => (c : Int))
  let rows ← at_ sample
  channels.zipIdx.mapM fun c => do
    let y ← npIndex rows (c.2 : Int)
    .ok ⟨List.range rows.length, y, "Channel " ++ toString c.1⟩

end

/-! ### Images -/

/-- `gobj.Heatmap(z=…, x=…, y=…)`; plotly draws `z[i][j]` at abscissa `x[j]` and ordinate `y[i]`. Used in `heatPlot`, gtda/diagrams/representations.py:676-726. -/
structure Heatmap (K α : Type) where
  z : List (List α)
  x : List K
  y : List K
  deriving DecidableEq

section
variable {K Q α : Type}

/-- `HeatKernel.plot`, gtda/diagrams/representations.py:676-726. -/
def heatPlot (dims : List Q) (sampling : Q → List K) (idx : Int) (at_ : Int → PyM (List (List (List α)))) (sample : Int) : PyM (Heatmap K α) := do
  let q ← npIndex dims idx
  let images ← at_ sample
  let z ← npIndex images idx
  .ok ⟨z, sampling q, (sampling q).reverse⟩

/-- `PersistenceImage.plot`, gtda/diagrams/representations.py:929-982. -/
def imagePlot (dims : List Q) (s₀ s₁ : Q → List K) (idx : Int) (at_ : Int → PyM (List (List (List α)))) (sample : Int) : PyM (Heatmap K α) := do
  let q ← npIndex dims idx
  let images ← at_ sample
  let z ← npIndex images idx
  .ok ⟨z, s₀ q, (s₁ q).reverse⟩

end

/-! ### Point clouds -/

/-- `gobj.Scatter` or `gobj.Scatter3d` with the marker colours, gtda/plotting/point_clouds.py:84-92, 119-128. -/
inductive CloudFigure (α : Type)
  | two (x y : List α) (color : List Nat)
  | three (x y z : List α) (color : List Nat)
  deriving DecidableEq

/-- The declaration of `dimension`, gtda/plotting/point_clouds.py:40. -/
def dimensionRef : Ref := .mk (some (.many [.int, .noneType])) (some fun v => match v with | .int n => decide (n = 2 ∨ n = 3) | .float x => decide (x = 2 ∨ x = 3) | _ => false) none .none

/-- `point_cloud[:, j]`. Used in `plotPointCloud`, gtda/plotting/point_clouds.py:10-135. -/
def cloudColumn {α : Type} (cloud : List (List α)) (j : Nat) : PyM (List α) := cloud.mapM fun p => npIndex p (j : Int)

/-- The default for `dimension`, gtda/plotting/point_clouds.py:41-42 (after validation the only other values are integers). -/
def effectiveDimension (ncols : Nat) : PyVal → Int
  | .int n => n
  | _ => ((min 3 ncols : Nat) : Int)

/-- `plot_point_cloud`, gtda/plotting/point_clouds.py:10-135; `ncols` is `point_cloud.shape[1]`. If neither branch assigns `fig`, the last line raises
`UnboundLocalError`, a subclass of `NameError`. -/
def plotPointCloud {α : Type} (ncols : Nat) (cloud : List (List α)) (dimension : PyVal) : PyM (CloudFigure α) := do
  checkParam dimensionRef dimension
  let dim := effectiveDimension ncols dimension
  if (ncols : Int) < dim then .error .valueError
  else if dim = 2 then do
    let x ← cloudColumn cloud 0
    let y ← cloudColumn cloud 1
    .ok (.two x y (List.range cloud.length))
  else if dim = 3 then do
    let x ← cloudColumn cloud 0
    let y ← cloudColumn cloud 1
    let z ← cloudColumn cloud 2
    .ok (.three x y z (List.range cloud.length))
  else .error .nameError

end Gtda.Plotting
