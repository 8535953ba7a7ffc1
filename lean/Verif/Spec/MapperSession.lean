import Verif.Model.MapperSession

/-!
# Specification vocabulary for sessions with several interactive Mapper plots

Taken from the model: events, records and the observable parts of a session (widgets, `valid`, logs, figures, properties of plotters).
-/

set_option autoImplicit false

namespace Gtda.Spec.MSession

open Gtda.MSession Py

variable {A G C D N T H M : Type}

/-- The plotters made in a history: number of the pipeline, and whether it is cloned. -/
def created (h : List (Event A G C D N T H M)) : List (Nat × Bool) :=
  h.filterMap fun ev => match ev with
    | .new u clone => some (u, clone)
    | _ => none

/-- The values entered in the widgets of call `k`. -/
def enteredIn (k : Nat) (h : List (Event A G C D N T H M)) : List (List Char × A) :=
  h.filterMap fun ev => match ev with
    | .enter j n a _ => if j = k then some (n, a) else none
    | _ => none

/-- The event is a call of `plot` of plotter `i`. -/
def IsPlotOf (i : Nat) : Event A G C D N T H M → Prop
  | .plot j _ => j = i
  | _ => False

/-- The value `n` displayed by a widget of call `k` is changed by the event. -/
def Changes [DecidableEq A] (kind : A → MInter.Kind) (s : Session A G C D N T H M) (ev : Event A G C D N T H M) (k : Nat) : Prop :=
  (step kind s ev).widgets k ≠ s.widgets k

/-- What an event may report: nothing unless it changes a value displayed; then that the figure is updated if the parameters turn out to be valid, else an exception, preceded by this message unless a
parameter was refused. If the pipeline cannot be fitted, the exception is the one raised by fitting it. -/
def Reports [DecidableEq A] (kind : A → MInter.Kind) (s : Session A G C D N T H M) (ev : Event A G C D N T H M) (rs : List Record) : Prop :=
  match ev with
  | .enter k _ _ _ =>
      (¬ Changes kind s ev k → rs = []) ∧
      (Changes kind s ev k →
        ((step kind s ev).valid k = some true ∧ rs = [.updating]) ∨
        ((step kind s ev).valid k = some false ∧ ∃ x, rs = [.failed x] ∨
          (rs = [.updating, .failed x] ∧ ∀ c v y, s.calls[k]? = some c → (step kind s ev).pipeline_ c.plotter = .ok v → c.engine.fit v = .error y → x = y)))
  | _ => rs = []

/-- The log of call `k` (newest first) according to what the events of a history report: every record goes to every log, and the log of a call is emptied only by changes of its own
values, if the front end is quick enough. -/
def logAfter (k : Nat) : List (Event A G C D N T H M × List Record) → List Record → List Record
  | [], l => l
  | (.enter j _ _ cleared, rs) :: h, l => logAfter k h (if rs = [] then l else rs.reverse ++ (if j = k ∧ cleared = true then [] else l))
  | (_, rs) :: h, l => logAfter k h (rs.reverse ++ l)

/-- The last value given to the box `Show logs` of call `k`. -/
def ticked (k : Nat) (h : List (Event A G C D N T H M)) : Bool :=
  ((h.filterMap fun ev => match ev with
    | .tick j b => if j = k then some b else none
    | _ => none).getLast?).getD false

end Gtda.Spec.MSession
