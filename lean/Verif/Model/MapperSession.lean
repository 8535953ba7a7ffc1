import Verif.Model.MapperInteractive

/-!
# Several interactive Mapper plots in one session, and their logs

Models `plot_interactive_mapper_graph` and `MapperInteractivePlotter` (`gtda/mapper/visualization.py:191-735`) as used in a notebook: plotters share the
pipelines they were made from, the calls of `plot` of one plotter share its attributes, and all calls share one logger. What one call computes is in
`Verif.Model.MapperInteractive`.

Simplifications: the times and the texts of records are not modelled (a record is the message `Updating figure...` or the exception), nor the layout of the
widgets, nor handlers which other code adds to the logger or to the root logger. Different pipelines share no estimators. `widgets.Output.clear_output` only asks
the front end to empty the widget; whether the widget is empty when the next record is written depends on the schedule, which is part of the history here.
-/

set_option autoImplicit false

namespace Gtda.MSession

open Py Gtda.MParams Gtda.MInter

variable {A G C D N T H M : Type}

/-- A record of the log: `logger.info("Updating figure...")` or `logger.exception(...)` (gtda/mapper/visualization.py:526, 592-594). -/
inductive Record where
  | updating
  | failed (e : PyErr)
  deriving DecidableEq

/-- A pipeline object: the one of the caller with this number, or the clone made by the call of `plot` with this number (gtda/mapper/visualization.py:459-463). -/
inductive Ref where
  | user (u : Nat)
  | clone (k : Nat)
  deriving DecidableEq

/-- A `MapperInteractivePlotter`: what it was made with, and its attributes, which `plot` sets (gtda/mapper/visualization.py:384-387, 459-463, 649-668). The figure
is named by the call of `plot` which made it. The data are part of the engines. -/
structure Plotter (G C N : Type) where
  user : Nat
  clone : Bool
  pipeline : Option Ref
  graph : Option G
  color : Option C
  summaries : Option N
  figure : Option Nat

/-- The local variables of a call of `plot` used by the callbacks, and the values of its widgets (gtda/mapper/visualization.py:602-687). -/
structure Panel (A D : Type) where
  pushed : List Name
  observed : List Name
  widgets : List (Name × A)
  columns : D
  colored : Bool
  valid : Bool
  box : Bool
  shown : Bool

/-- A call of `plot`: the plotter, the arguments (an engine), the clone it made if any, the figure it made, its widgets (none if it raised), and the outputs of its handler, the
newest first (gtda/mapper/visualization.py:389-715, gtda/mapper/utils/_logging.py:10-28). -/
structure Call (A G C D N T H M : Type) where
  plotter : Nat
  engine : Engine A G (C × D) N T H M
  copy : Val A
  fig : Option (Fig T H M)
  panel : Option (Panel A D)
  log : List Record

/-- The pipelines of the caller, the plotters and the calls of `plot` so far. The handlers of all calls are those of the one logger of the module: they are never
removed (gtda/mapper/visualization.py:614-619). -/
structure Session (A G C D N T H M : Type) where
  users : List (Val A)
  plotters : List (Plotter G C N)
  calls : List (Call A G C D N T H M)

/-- A session with pipelines only. Used in `run`, gtda/mapper/visualization.py:191-735. -/
def start (users : List (Val A)) : Session A G C D N T H M := ⟨users, [], []⟩

/-- The parameters of a pipeline object (gtda/mapper/visualization.py:459-463). -/
def Session.pipe (s : Session A G C D N T H M) : Ref → Option (Val A)
  | .user u => s.users[u]?
  | .clone k => (s.calls[k]?).map Call.copy

/-- A pipeline object gets other parameters (gtda/mapper/visualization.py:510-524). -/
def Session.setPipe (s : Session A G C D N T H M) (r : Ref) (v : Val A) : Session A G C D N T H M :=
  match r with
  | .user u => { s with users := s.users.modify u fun _ => v }
  | .clone k => { s with calls := s.calls.modify k fun c => { c with copy := v } }

/-- `MapperInteractivePlotter.__init__` (gtda/mapper/visualization.py:384-387). -/
def Session.new (s : Session A G C D N T H M) (u : Nat) (clone : Bool) : Session A G C D N T H M :=
  { s with plotters := s.plotters ++ [⟨u, clone, none, none, none, none, none⟩] }

/-- The attributes and the local variables which a call of `plot` sets until it raises, `v` being the parameters of the pipeline and `k` the number of the call
(gtda/mapper/visualization.py:621-687). -/
def plotBody (kind : A → Kind) (v : Val A) (k : Nat) (p : Plotter G C N) (c : Call A G C D N T H M) : Plotter G C N × Call A G C D N T H M :=
  match getMapperParams v true with
  | .error _ => (p, c)
  | .ok params =>
      match c.engine.fit v with
      | .error _ => (p, c)
      | .ok g =>
          let p := { p with graph := some g }
          match c.engine.check with
          | .error _ => (p, c)
          | .ok col =>
              let p := { p with color := some col.1 }
              match c.engine.graphData col g with
              | .error _ => (p, c)
              | .ok tn =>
                  let p := { p with summaries := some tn.2 }
                  match staticFigure c.engine col tn.1 tn.2 with
                  | .error _ => (p, c)
                  | .ok fig =>
                      ({ p with figure := some k },
                        { c with
                          fig := some fig
                          panel := some
                            { pushed := MInter.pushed kind (groups params)
                              observed := MInter.observed kind (groups params)
                              widgets := allWidgets kind (groups params)
                              columns := col.2
                              colored := fig.label.isColors
                              valid := true
                              box := false
                              shown := false } })

/-- `plot` (gtda/mapper/visualization.py:389-715): the pipeline is cloned or not, a handler is added, then the figure is made. Nothing happens if there is no such plotter or
pipeline. -/
def Session.plot (kind : A → Kind) (s : Session A G C D N T H M) (i : Nat) (e : Engine A G (C × D) N T H M) : Session A G C D N T H M :=
  match s.plotters[i]? with
  | none => s
  | some p =>
      match s.users[p.user]? with
      | none => s
      | some v =>
          let p := { p with pipeline := some (if p.clone then .clone s.calls.length else .user p.user) }
          let r := plotBody kind v s.calls.length p ⟨i, e, v, none, none, []⟩
          { s with plotters := s.plotters.modify i fun _ => r.1, calls := s.calls ++ [r.2] }

/-- `plot_interactive_mapper_graph` (gtda/mapper/visualization.py:291-299): the plot of a new plotter. -/
def Session.plotInteractive (kind : A → Kind) (s : Session A G C D N T H M) (u : Nat) (clone : Bool) (e : Engine A G (C × D) N T H M) : Session A G C D N T H M :=
  (s.new u clone).plot kind s.plotters.length e

/-- What the callbacks of a call of `plot` read: the attributes of its plotter and its own widgets (gtda/mapper/visualization.py:507-591). The components `clone` and `user` have
no meaning here. -/
def Session.view (s : Session A G C D N T H M) (k : Nat) : Option (State A G (C × D) N T H M) := do
  let c ← s.calls[k]?
  let w ← c.panel
  let p ← s.plotters[c.plotter]?
  let ref ← p.pipeline
  let v ← s.pipe ref
  let g ← p.graph
  let col ← p.color
  let n ← p.summaries
  let f ← p.figure
  let cf ← s.calls[f]?
  let fig ← cf.fig
  pure
    { clone := true, user := v, pipeline := v, pushed := w.pushed, observed := w.observed, widgets := w.widgets, color := (col, w.columns), colored := w.colored
      graph := g, summaries := n, fig := fig, valid := w.valid }

/-- The widgets with other values (gtda/mapper/visualization.py:470-505, 591, 595). -/
def Panel.update (widgets : List (Name × A)) (valid : Bool) (w : Panel A D) : Panel A D := { w with widgets := widgets, valid := valid }

/-- `click_box`, if the value of the box changes (gtda/mapper/visualization.py:605-611). -/
def Panel.tick (b : Bool) (w : Panel A D) : Panel A D := if w.box = b then w else { w with box := b, shown := b }

/-- What the callbacks of a call of `plot` write: the pipeline, the attributes and the figure of its plotter, and its own widgets (gtda/mapper/visualization.py:507-595). -/
def Session.store (s : Session A G C D N T H M) (k : Nat) (st : State A G (C × D) N T H M) : Session A G C D N T H M :=
  match s.calls[k]? with
  | none => s
  | some c =>
      match s.plotters[c.plotter]? with
      | none => s
      | some p =>
          let s := { s with calls := s.calls.modify k fun c => { c with panel := c.panel.map (Panel.update st.widgets st.valid) } }
          let s := { s with plotters := s.plotters.modify c.plotter fun p => { p with graph := some st.graph, summaries := some st.summaries } }
          let s := match p.figure with
            | none => s
            | some f => { s with calls := s.calls.modify f fun c => { c with fig := some st.fig } }
          match p.pipeline with
          | none => s
          | some r => s.setPipe r st.pipeline

/-- The exception raised when traces and menu are drawn (gtda/mapper/visualization.py:549-591). -/
def drawTracesError (e : Engine A G (C × D) N T H M) (st : State A G (C × D) N T H M) (t : T) (n : N) : Option PyErr :=
  match makeMenu e st.color st.colored n t st.fig.menu with
  | .error x => some x
  | .ok _ => none

/-- The exception raised when the figure is drawn (gtda/mapper/visualization.py:536-591). -/
def drawError (e : Engine A G (C × D) N T H M) (st : State A G (C × D) N T H M) (t : T) (n : N) : Option PyErr :=
  if st.colored then
    match e.labels n with
    | .error x => some x
    | .ok _ => drawTracesError e st t n
  else drawTracesError e st t n

/-- The exception raised after `logger.info("Updating figure...")` (gtda/mapper/visualization.py:526-591). -/
def newGraphError (e : Engine A G (C × D) N T H M) (st : State A G (C × D) N T H M) : Option PyErr :=
  match e.fit st.pipeline with
  | .error x => some x
  | .ok g =>
      match e.graphData st.color g with
      | .error x => some x
      | .ok tn => drawError e st tn.1 tn.2

/-- The records emitted by `on_parameter_change`, in this order (gtda/mapper/visualization.py:507-595). -/
def updateRecords (e : Engine A G (C × D) N T H M) (st : State A G (C × D) N T H M) : List Record :=
  match push st.widgets st.pushed st.pipeline with
  | (_, some x) => [.failed x]
  | (v, none) =>
      match newGraphError e (st.withPipeline v) with
      | some x => [.updating, .failed x]
      | none => [.updating]

/-- Whether entering a value calls `on_parameter_change`: the widget exists and is observed, and the value is another one (gtda/mapper/visualization.py:597-600). -/
def reacts [DecidableEq A] (st : State A G (C × D) N T H M) (n : Name) (a : A) : Bool :=
  match widgetValue st.widgets n with
  | none => false
  | some old => decide (a ≠ old) && decide (n ∈ st.observed)

/-- `OutputWidgetHandler.clear_logs` (gtda/mapper/utils/_logging.py:34-36), if it takes effect. -/
def Session.clearLog (s : Session A G C D N T H M) (k : Nat) : Session A G C D N T H M :=
  { s with calls := s.calls.modify k fun c => { c with log := [] } }

/-- `OutputWidgetHandler.emit` (gtda/mapper/utils/_logging.py:20-28) of every handler of the logger: the record is put before the others. -/
def Session.emit (s : Session A G C D N T H M) (r : Record) : Session A G C D N T H M :=
  { s with calls := s.calls.map fun c => { c with log := r :: c.log } }

/-- A value is entered in a widget of call `k` (gtda/mapper/visualization.py:507-600). `cleared`: the log was emptied by `clear_logs` before the first record is written. -/
def Session.enter [DecidableEq A] (s : Session A G C D N T H M) (k : Nat) (n : Name) (a : A) (cleared : Bool) : Session A G C D N T H M :=
  match s.calls[k]?, s.view k with
  | some c, some st =>
      let s' := s.store k (change c.engine st n a)
      if reacts st n a then
        (updateRecords c.engine { st with widgets := MInter.enter st.widgets n a }).foldl Session.emit (if cleared then s'.clearLog k else s')
      else s'
  | _, _ => s

/-- The box `Show logs` gets this value: `click_box` shows the log or empties the output (gtda/mapper/visualization.py:605-611, 642-646, 687;
gtda/mapper/utils/_logging.py:30-32). -/
def Session.tick (s : Session A G C D N T H M) (k : Nat) (b : Bool) : Session A G C D N T H M :=
  { s with calls := s.calls.modify k fun c => { c with panel := c.panel.map (Panel.tick b) } }

/-- What a user does. Used in `run`, gtda/mapper/visualization.py:191-735. -/
inductive Event (A G C D N T H M : Type) where
  | new (u : Nat) (clone : Bool)
  | plot (i : Nat) (e : Engine A G (C × D) N T H M)
  | enter (k : Nat) (n : Name) (a : A) (cleared : Bool)
  | tick (k : Nat) (b : Bool)

/-- One action: a new plotter, a call of `plot`, a value entered in a widget, a click on `Show logs` (gtda/mapper/visualization.py:384-387, 389-715). -/
def step [DecidableEq A] (kind : A → Kind) (s : Session A G C D N T H M) : Event A G C D N T H M → Session A G C D N T H M
  | .new u clone => s.new u clone
  | .plot i e => s.plot kind i e
  | .enter k n a cleared => s.enter k n a cleared
  | .tick k b => s.tick k b

/-- A sequence of actions (gtda/mapper/visualization.py:384-387, 389-715). -/
def run [DecidableEq A] (kind : A → Kind) (s : Session A G C D N T H M) (h : List (Event A G C D N T H M)) : Session A G C D N T H M := h.foldl (step kind) s

/-- An attribute of plotter `i`; `AttributeError` if it was not set. Used in `graph_`, gtda/mapper/visualization.py:717-719. -/
def Session.attr {α : Type} (s : Session A G C D N T H M) (i : Nat) (f : Plotter G C N → Option α) : PyM α :=
  match s.plotters[i]? with
  | none => .error .nameError
  | some p =>
      match f p with
      | none => .error .attributeError
      | some x => .ok x

/-- The property `graph_` of plotter `i` (gtda/mapper/visualization.py:717-719). -/
def Session.graph_ (s : Session A G C D N T H M) (i : Nat) : PyM G := s.attr i Plotter.graph

/-- The property `pipeline_` of plotter `i` (gtda/mapper/visualization.py:721-723). -/
def Session.pipeline_ (s : Session A G C D N T H M) (i : Nat) : PyM (Val A) := s.attr i fun p => p.pipeline.bind s.pipe

/-- The property `color_features_` of plotter `i` (gtda/mapper/visualization.py:725-727). -/
def Session.color_features_ (s : Session A G C D N T H M) (i : Nat) : PyM C := s.attr i Plotter.color

/-- The property `node_summaries_` of plotter `i` (gtda/mapper/visualization.py:729-731). -/
def Session.node_summaries_ (s : Session A G C D N T H M) (i : Nat) : PyM N := s.attr i Plotter.summaries

/-- The property `figure_` of plotter `i` (gtda/mapper/visualization.py:733-735). -/
def Session.figure_ (s : Session A G C D N T H M) (i : Nat) : PyM (Fig T H M) := s.attr i fun p => p.figure.bind fun f => (s.calls[f]?).bind Call.fig

/-- What the box returned by call `k` shows under `Valid parameters` (gtda/mapper/visualization.py:635-639, 712-713). -/
def Session.valid (s : Session A G C D N T H M) (k : Nat) : Option Bool := ((s.calls[k]?).bind Call.panel).map Panel.valid

/-- The values displayed by the widgets of call `k` (gtda/mapper/visualization.py:626-632). -/
def Session.widgets (s : Session A G C D N T H M) (k : Nat) : Option (List (Name × A)) := ((s.calls[k]?).bind Call.panel).map Panel.widgets

/-- The figure in the box returned by call `k` (gtda/mapper/visualization.py:712-713). -/
def Session.figureOf (s : Session A G C D N T H M) (k : Nat) : Option (Fig T H M) := (s.calls[k]?).bind Call.fig

/-- The log of call `k` (gtda/mapper/utils/_logging.py:18-28). -/
def Session.log (s : Session A G C D N T H M) (k : Nat) : Option (List Record) := (s.calls[k]?).map Call.log

/-- The log in the box returned by call `k`, if it is shown (gtda/mapper/visualization.py:605-611). -/
def Session.displayed (s : Session A G C D N T H M) (k : Nat) : Option (List Record) :=
  (s.calls[k]?).bind fun c => c.panel.bind fun w => if w.shown then some c.log else none

end Gtda.MSession
