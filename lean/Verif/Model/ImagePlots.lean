import Verif.Model.Plotting

set_option autoImplicit false

/-!
# Model of heat-map plots

`gtda/plotting/images.py`, the `plot` methods built on it, and `PlotterMixin.fit_transform_plot` (`gtda/base.py`).

A plotly figure with one heat map is a pair of property trees, written as lists of pairs of a path (`["yaxis", "autorange"]`) and a value, in the order in which they were set (the last one counts). Updates
merge trees recursively, that is path by path. Plotly refuses unknown property names with `ValueError`: which are known is a parameter. Not modelled: names with underscores as paths (`yaxis_autorange`), values
`None` in updates, plotly's checks of values and its rendering.
-/

namespace Gtda.ImagePlots
open Gtda.Py Gtda.Diagrams Gtda.Plotting

/-- Values of properties. Used in `plotHeatmap`, gtda/plotting/images.py:47-55. -/
inductive Value (K : Type) where
  | text (s : String)
  | flag (b : Bool)
  | row (l : List K)
  | image (z : List (List K))
  deriving DecidableEq

/-- A property tree: paths and values, the latest first. Used in `plotHeatmap`, gtda/plotting/images.py:47-60. -/
abbrev PropTree (K : Type) := List (List String × Value K)

/-- The value of a property. Used with `plotHeatmap`, gtda/plotting/images.py:47-62. -/
def PropTree.get {K : Type} (t : PropTree K) (path : List String) : Option (Value K) := (t.find? fun e => decide (e.1 = path)).map Prod.snd

/-- `fig.update_layout(d)` and `fig.update_traces(d)`: `None` changes nothing, unknown names are refused, other properties replace those of before. See gtda/plotting/images.py:59-60. -/
def update {K : Type} (known : List String → Bool) (t : PropTree K) (d : Option (PropTree K)) : PyM (PropTree K) :=
  match d with
  | none => .ok t
  | some d => if d.all fun e => known e.1 then .ok (d ++ t) else .error .valueError

/-- The figure returned by `plot_heatmap`: the properties of its layout and of its trace. See gtda/plotting/images.py:53-62. -/
structure Figure (K : Type) where
  layout : PropTree K
  trace : PropTree K
  deriving DecidableEq

/-- Names plotly knows, in layouts and in heat maps. Used in `plotHeatmap`, gtda/plotting/images.py:58-60. -/
structure Names where
  layout : List String → Bool
  trace : List String → Bool

/-- An array with two axes, boolean or numeric. Used in `plotHeatmap`, gtda/plotting/images.py:54. -/
inductive Data (K : Type) where
  | bools (z : List (List Bool))
  | nums (z : List (List K))

section
variable {K : Type} [Zero K] [One K] [Mul K]

/-- `data * 1`: booleans become 0 and 1. See gtda/plotting/images.py:54. -/
def Data.timesOne : Data K → List (List K)
  | .bools z => z.map fun r => r.map fun b => if b then 1 else 0
  | .nums z => z.map fun r => r.map fun x => x * 1

/-- A dictionary `plotly_params`: its keys with their values, which are dictionaries. Used in `plotHeatmap`, gtda/plotting/images.py:57-60. -/
abbrev PlotlyParams (K : Type) := List (String × PropTree K)

/-- `plot_heatmap`, gtda/plotting/images.py:7-62. A `None` title and `None` coordinates leave the property unset. `plotly_params` is falsy if it is `None` or empty. -/
def plotHeatmap (known : Names) (data : Data K) (x y : Option (List K)) (colorscale origin : String) (title : Option String) (plotlyParams : Option (PlotlyParams K)) : PyM (Figure K) := do
  let autorange : Value K := if origin = "lower" then .flag true else .text "reversed"
  let layout : PropTree K := [(["xaxis", "scaleanchor"], .text "y"), (["xaxis", "constrain"], .text "domain"), (["yaxis", "autorange"], autorange), (["yaxis", "constrain"], .text "domain"),
    (["plot_bgcolor"], .text "white")] ++ (match title with | none => [] | some t => [(["title"], .text t)])
  let trace : PropTree K := [(["z"], .image data.timesOne)] ++ (match x with | none => [] | some l => [(["x"], .row l)]) ++ (match y with | none => [] | some l => [(["y"], .row l)]) ++
    [(["colorscale"], .text colorscale)]
  match plotlyParams with
  | none => .ok ⟨layout, trace⟩
  | some [] => .ok ⟨layout, trace⟩
  | some d => do
    let trace ← update known.trace trace (d.lookup "trace")
    let layout ← update known.layout layout (d.lookup "layout")
    .ok ⟨layout, trace⟩

/-- The classes whose `plot` is a heat map of `Xt[sample]`. Used in `heatmapPlot`, gtda/images/filtrations.py:220-224. -/
inductive Kind where
  | height | radial | dilation | erosion | signedDistance | density
  | binarizer | inverter | padder
  | geodesic | consistentRescaling | consecutiveRescaling
  deriving DecidableEq

/-- The title: gtda/images/filtrations.py:222, 456, 650, 844, 1046, 1288, gtda/images/preprocessing.py:180, 349, 520, gtda/graphs/geodesic_distance.py:218 and gtda/point_clouds/rescaling.py:226, 420. -/
def Kind.title (k : Kind) (sample : Int) : String :=
  match k with
  | .height => "Height filtration of image " ++ toString sample
  | .radial => "Radial filtration of image " ++ toString sample
  | .dilation => "Dilation filtration of image " ++ toString sample
  | .erosion => "Erosion filtration of image " ++ toString sample
  | .signedDistance => "Signed-distance filtration of image " ++ toString sample
  | .density => "Density filtration of image " ++ toString sample
  | .binarizer => "Binarization of image " ++ toString sample
  | .inverter => "Inversion of image " ++ toString sample
  | .padder => "Padded version of image " ++ toString sample
  | .geodesic => toString sample ++ "-th geodesic distance matrix"
  | .consistentRescaling => toString sample ++ "-th distance matrix after consistent rescaling"
  | .consecutiveRescaling => toString sample ++ "-th distance matrix after consecutive rescaling"

/-- Whether `plot` multiplies `Xt[sample]` by one before `plot_heatmap` does, gtda/images/preprocessing.py:178-179, 347-348, 518-519. -/
def Kind.times : Kind → Bool
  | .binarizer | .inverter | .padder => true
  | _ => false

/-- Whether `plot` has a parameter `origin`; without it the default of `plot_heatmap` is used, gtda/graphs/geodesic_distance.py:186, 216-220 and gtda/point_clouds/rescaling.py:195, 224-228, 389, 418-422. -/
def Kind.hasOrigin : Kind → Bool
  | .geodesic | .consistentRescaling | .consecutiveRescaling => false
  | _ => true

/-- Default of `colorscale`: gtda/images/filtrations.py:185 and gtda/graphs/geodesic_distance.py:186. -/
def Kind.colorscale (k : Kind) : String := if k.hasOrigin then "greys" else "blues"

/-- `plot`, gtda/images/filtrations.py:185-224, 419-458, 613-652, 807-846, 1009-1048, 1251-1290, gtda/images/preprocessing.py:143-182, 312-351, 483-522, gtda/graphs/geodesic_distance.py:186-220 and
gtda/point_clouds/rescaling.py:195-228, 389-422. `at i` is `Xt[i]`; arguments which are `none` are not given. -/
def heatmapPlot (known : Names) (k : Kind) (at_ : Int → PyM (Data K)) (sample : Int) (colorscale origin : Option String) (plotlyParams : Option (PlotlyParams K)) : PyM (Figure K) := do
  let data ← at_ sample
  let data := if k.times then .nums data.timesOne else data
  plotHeatmap known data none none (colorscale.getD k.colorscale) (if k.hasOrigin then origin.getD "upper" else "upper") (some (k.title sample)) plotlyParams

end

/-! ### Other `plot` methods -/

/-- `plot` of `TakensEmbedding` and `ImageToPointCloud`: `plot_point_cloud(Xt[sample])`, gtda/time_series/embedding.py:728-754 and gtda/images/preprocessing.py:634-660. A cloud is an array with `ncols` columns. -/
def cloudPlot {α : Type} (at_ : Int → PyM (Nat × List (List α))) (sample : Int) : PyM (CloudFigure α) := do
  let c ← at_ sample
  plotPointCloud c.1 c.2 .none

/-- `Filtering.plot`, gtda/diagrams/preprocessing.py:483-521; `dims` is the attribute `homology_dimensions_` (`none`: not set). -/
def filteringPlot {K Q : Type} [Field K] [LinearOrder K] [LinearOrder Q] (print : WithTop K → WithTop K → String) (label : Q → String) (dims : Option (List Q)) (hdims : Option (List Q))
    (at_ : Int → PyM (List (Pt (WithTop K) Q))) (sample : Int) : PyM (DiagramFigure K) :=
  match hdims with
  | some l => diagramPlot print label (some l) at_ sample
  | none =>
    match dims with
    | none => .error .attributeError
    | some l => diagramPlot print label (some l) at_ sample

/-- `PlotterMixin.fit_transform_plot`, gtda/base.py:94-119, for an object in state `o`: the object afterwards, and the result. -/
def fitTransformPlot {O A B F : Type} (fit : O → List A → O × PyM Unit) (transform : O → List A → PyM (List B)) (plot : O → (Int → PyM B) → Int → PyM F) (o : O) (X : List A) (sample : Int) :
    O × PyM (List B × F) :=
  match (fit o X).2 with
  | .error e => ((fit o X).1, .error e)
  | .ok _ => ((fit o X).1, transformPlot (transform (fit o X).1) (plot (fit o X).1) X sample)

end Gtda.ImagePlots
