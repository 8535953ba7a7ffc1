import Verif.Model.MapperParams

/-!
# The interactive Mapper plot

Models `MapperInteractivePlotter` (`gtda/mapper/visualization.py:302-735`).  The widgets are the pairs
of a parameter and the value displayed.  The layout of the widgets, the log and the texts of messages
are not modelled.  The engine (fitting, statistics and layout of the graph, colours, buttons) is a
parameter; it is a function, so a pipeline whose result is random is not covered.
-/

set_option autoImplicit false

namespace Gtda.MInter

open Py Gtda.MParams

/-- The types of values told apart by `isinstance` (`visualization.py:469-505`).  In Python a boolean
is an integer; here the kinds exclude each other. -/
inductive Kind where
  | float
  | bool
  | int
  | str
  | other
  deriving DecidableEq

variable {A : Type}

/-- The kind of a parameter; an estimator has no widget (`visualization.py:469-505`). -/
def kindOf (kind : A → Kind) : Val A → Kind
  | .atom a => kind a
  | _ => .other

/-- The widget of a value by its type, if there is one (`visualization.py:469-505`). -/
def widgetFor (n : Name) (a : A) : Kind → Option (Name × A)
  | .float => some (n, a)
  | .bool => some (n, a)
  | .int => some (n, a)
  | .str => some (n, a)
  | .other => none

/-- The widget of a parameter, if there is one (`visualization.py:466-505`). -/
def widgetOf (kind : A → Kind) (p : Name × Val A) : Option (Name × A) :=
  match p.2 with
  | .atom a => widgetFor p.1 a (kind a)
  | _ => none

/-- `get_widgets_per_param` (`visualization.py:465-505`): a widget for each parameter which is a float,
a boolean, an integer or a string, displaying its value. -/
def widgetsPerParam (kind : A → Kind) (params : List (Name × Val A)) : List (Name × A) :=
  params.filterMap (widgetOf kind)

/-- `isinstance(value, (int, float, str))` (`visualization.py:511`, `516`, `599`); a boolean is an
integer. -/
def intFloatStr : Kind → Bool
  | .float => true
  | .bool => true
  | .int => true
  | .str => true
  | .other => false

/-- `isinstance(value, (int, bool))` (`visualization.py:521`). -/
def intBool : Kind → Bool
  | .bool => true
  | .int => true
  | _ => false

/-- The string `"cover__"` (`visualization.py:625`). -/
def coverPrefix : Name := nCover ++ sep

/-- The string `"clusterer__"` (`visualization.py:628`). -/
def clustererPrefix : Name := nClusterer ++ sep

/-- `cover_params`, `cluster_params` and `nerve_params` (`visualization.py:623-632`). -/
structure Groups (A : Type) where
  cover : List (Name × Val A)
  cluster : List (Name × Val A)
  nerve : List (Name × Val A)

/-- The three dictionaries of parameters (`visualization.py:623-632`). -/
def groups (params : List (Name × Val A)) : Groups A :=
  { cover := params.filter fun p => coverPrefix.isPrefixOf p.1
    cluster := params.filter fun p => clustererPrefix.isPrefixOf p.1
    nerve := params.filter fun p => p.1 = nMinInter || p.1 = nContract }

/-- The widgets of the three dictionaries (`visualization.py:626-632`).  Simplification: they are in one
dictionary here, since the names of the groups are different. -/
def allWidgets (kind : A → Kind) (g : Groups A) : List (Name × A) :=
  widgetsPerParam kind g.cover ++ (widgetsPerParam kind g.cluster ++ widgetsPerParam kind g.nerve)

/-- The parameters for which `on_parameter_change` calls `set_params`, in this order
(`visualization.py:510-524`). -/
def pushed (kind : A → Kind) (g : Groups A) : List Name :=
  (g.cover.filter fun p => intFloatStr (kindOf kind p.2)).map Prod.fst ++
    ((g.cluster.filter fun p => intFloatStr (kindOf kind p.2)).map Prod.fst ++
      (g.nerve.filter fun p => intBool (kindOf kind p.2)).map Prod.fst)

/-- The parameters whose widgets are observed (`visualization.py:597-600`, `683-685`). -/
def observed (kind : A → Kind) (g : Groups A) : List Name :=
  (g.cover.filter fun p => intFloatStr (kindOf kind p.2)).map Prod.fst ++
    ((g.cluster.filter fun p => intFloatStr (kindOf kind p.2)).map Prod.fst ++
      (g.nerve.filter fun p => intFloatStr (kindOf kind p.2)).map Prod.fst)

/-- The value displayed by the widget of a parameter (`visualization.py:513`). -/
def widgetValue (w : List (Name × A)) (n : Name) : Option A := (w.find? fun p => p.1 = n).map Prod.snd

/-- The calls of `set_params`, one parameter at a time, until one raises (`visualization.py:510-524`).
The depth handed to `setMapperParams` is more than the number of nested calls for this name. -/
def push (w : List (Name × A)) : List Name → Val A → Val A × Option PyErr
  | [], v => (v, none)
  | p :: rest, v =>
      match widgetValue w p with
      | none => (v, some .keyError)
      | some a =>
          match setMapperParams (p.length + 4) v [(p, .atom a)] with
          | (v', some e) => (v', some e)
          | (v', none) => push w rest v'

/-- What the plot computes from a pipeline, and the arguments of `plot`
(`visualization.py:389-391`, `527-589`, `649-681`). -/
structure Engine (A G C N T H M : Type) where
  /-- `fit_transform` of the pipeline on the data. -/
  fit : Val A → PyM G
  /-- `_validate_color_kwargs` with `interactive=True`, which does not use the graph: the colour data,
  the names of the columns and the statistic. -/
  check : PyM C
  /-- `_calculate_graph_data`: the data of the two traces, and the node summaries. -/
  graphData : C → G → PyM (T × N)
  /-- `_get_colors_for_vals` of the first column of the node summaries. -/
  labels : N → PyM H
  /-- The number of colour columns, which is the number of columns of the node summaries. -/
  columns : C → Nat
  /-- `_get_column_color_buttons`, with or without colours of the hover labels. -/
  buttons : C → Bool → N → T → PyM M
  /-- `layout_dim == 3`. -/
  dim3 : Bool
  /-- Whether `plotly_params` gives the colour of the hover labels. -/
  given : Bool
  /-- The updates of the data of the traces in `plotly_params`. -/
  custom : T → T

/-- The colours of the hover labels: set by plotly (2D) or by the caller, white, or one for each node. Used in `staticFigure`, gtda/mapper/utils/_visualization.py:402-448. -/
inductive Label (H : Type) where
  | unset
  | given
  | white
  | colors (h : H)

/-- Whether the labels have one colour for each node. Used in `staticFigure`, gtda/mapper/utils/_visualization.py:402-448. -/
def Label.isColors {H : Type} : Label H → Bool
  | .colors _ => true
  | _ => false

/-- The parts of the figure which are updated. Used in `update`, gtda/mapper/visualization.py:527-589. -/
structure Fig (T H M : Type) where
  traces : T
  label : Label H
  menu : Option M

variable {G C N T H M : Type}

/-- The colours of the hover labels of a new figure (`mapper/utils/_visualization.py:402-448`). -/
def firstLabel (e : Engine A G C N T H M) (n : N) : Label H :=
  if e.dim3 then
    if e.given then .given
    else
      match e.labels n with
      | .ok h => .colors h
      | .error _ => .white
  else .unset

/-- The menu, if there is more than one column (`mapper/utils/_visualization.py:452-471`,
`visualization.py:567-589`); otherwise the old one remains. -/
def makeMenu (e : Engine A G C N T H M) (c : C) (colored : Bool) (n : N) (t : T) (old : Option M) : PyM (Option M) :=
  if 1 < e.columns c then do
    let m ← e.buttons c colored n t
    pure (some m)
  else pure old

/-- `_produce_static_figure` (`mapper/utils/_visualization.py:385-492`). -/
def staticFigure (e : Engine A G C N T H M) (c : C) (t : T) (n : N) : PyM (Fig T H M) := do
  let menu ← makeMenu e c (firstLabel e n).isColors n t none
  pure { traces := e.custom t, label := firstLabel e n, menu := menu }

/-- The attributes of the plotter and the widgets. `user` is the pipeline of the caller
(`visualization.py:384-387`, `459-463`, `635-639`, `649-685`). -/
structure State (A G C N T H M : Type) where
  clone : Bool
  user : Val A
  pipeline : Val A
  pushed : List Name
  observed : List Name
  widgets : List (Name × A)
  color : C
  colored : Bool
  graph : G
  summaries : N
  fig : Fig T H M
  valid : Bool

/-- `plot` (`visualization.py:389-715`).  `clone` of scikit-learn makes a pipeline with the same
parameters. -/
def plot (kind : A → Kind) (e : Engine A G C N T H M) (clone : Bool) (v : Val A) : PyM (State A G C N T H M) := do
  let params ← getMapperParams v true
  let g := groups params
  let graph ← e.fit v
  let c ← e.check
  let tn ← e.graphData c graph
  let fig ← staticFigure e c tn.1 tn.2
  pure
    { clone := clone
      user := v
      pipeline := v
      pushed := MInter.pushed kind g
      observed := MInter.observed kind g
      widgets := allWidgets kind g
      color := c
      colored := fig.label.isColors
      graph := graph
      summaries := tn.2
      fig := fig
      valid := true }

/-- The parameters of the caller's pipeline are those of `pipeline_` unless it was cloned
(`visualization.py:459-463`). -/
def State.withPipeline (st : State A G C N T H M) (v : Val A) : State A G C N T H M :=
  { st with pipeline := v, user := if st.clone then st.user else v }

/-- The last part of the update: traces and menu (`visualization.py:549-591`).  In a batch update what
was assigned before an exception is kept. -/
def drawTraces (e : Engine A G C N T H M) (st : State A G C N T H M) (t : T) (n : N) : State A G C N T H M :=
  let st := { st with fig := { st.fig with traces := t } }
  match makeMenu e st.color st.colored n t st.fig.menu with
  | .error _ => { st with valid := false }
  | .ok m => { st with fig := { st.fig with menu := m }, valid := true }

/-- The update of the figure (`visualization.py:536-591`). -/
def draw (e : Engine A G C N T H M) (st : State A G C N T H M) (t : T) (n : N) : State A G C N T H M :=
  if st.colored then
    match e.labels n with
    | .error _ => { st with valid := false }
    | .ok h => drawTraces e { st with fig := { st.fig with label := .colors h } } t n
  else drawTraces e st t n

/-- The new graph (`visualization.py:528-535`). -/
def newGraph (e : Engine A G C N T H M) (st : State A G C N T H M) : State A G C N T H M :=
  match e.fit st.pipeline with
  | .error _ => { st with valid := false }
  | .ok g =>
      match e.graphData st.color g with
      | .error _ => { st with graph := g, valid := false }
      | .ok tn => draw e { st with graph := g, summaries := tn.2 } tn.1 tn.2

/-- `on_parameter_change` (`visualization.py:507-595`): every exception is caught. -/
def update (e : Engine A G C N T H M) (st : State A G C N T H M) : State A G C N T H M :=
  match push st.widgets st.pushed st.pipeline with
  | (v, some _) => { st.withPipeline v with valid := false }
  | (v, none) => newGraph e (st.withPipeline v)

/-- The widgets after one value has been entered (`visualization.py:470-505`). -/
def enter (w : List (Name × A)) (n : Name) (a : A) : List (Name × A) :=
  w.map fun p => if p.1 = n then (p.1, a) else p

/-- A value is entered in the widget of a parameter (`visualization.py:597-600`): the observer is called
if the value is not the one displayed already.  Nothing happens if there is no such widget.  The value
is the one the widget converts the input to. -/
def change [DecidableEq A] (e : Engine A G C N T H M) (st : State A G C N T H M) (n : Name) (a : A) : State A G C N T H M :=
  match widgetValue st.widgets n with
  | none => st
  | some old =>
      if a = old then st
      else
        let st := { st with widgets := enter st.widgets n a }
        if n ∈ st.observed then update e st else st

/-- A sequence of values entered (`visualization.py:507-595`). -/
def changes [DecidableEq A] (e : Engine A G C N T H M) (st : State A G C N T H M) (h : List (Name × A)) : State A G C N T H M :=
  h.foldl (fun s p => change e s p.1 p.2) st

end Gtda.MInter
