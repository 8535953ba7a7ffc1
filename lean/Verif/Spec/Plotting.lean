import Verif.Model.Plotting
import Verif.Spec.Vectorization
import Verif.Spec.Persistence

set_option autoImplicit false

/-!
# Specification vocabulary for plots
-/

namespace Gtda.Plotting
open Gtda.Py Gtda.Diagrams

variable {K Q α : Type}

/-- The points of a diagram in homology dimension `q` with birth different from death, in order. -/
def features [LinearOrder K] [DecidableEq Q] (D : List (Pt (WithTop K) Q)) (q : Q) : List (Pt (WithTop K) Q) := D.filter fun p => decide (p.b ≠ p.d ∧ p.q = q)

/-- `v` is a finite birth or death of a point with birth different from death. -/
def Coordinate (D : List (Pt (WithTop K) Q)) (v : K) : Prop := ∃ p ∈ D, p.b ≠ p.d ∧ (p.b = (v : WithTop K) ∨ p.d = (v : WithTop K))

/-- Some class which is born never dies. -/
def HasInfinite (D : List (Pt (WithTop K) Q)) : Prop := ∃ p ∈ D, p.b ≠ ⊤ ∧ p.d = ⊤

/-- A heat map shows the value `v` at abscissa `x` and ordinate `y`. -/
def Shows (h : Heatmap K α) (x y : K) (v : α) : Prop := ∃ i j, h.y[i]? = some y ∧ h.x[j]? = some x ∧ entry2 h.z i j = some v

/-- `r` is the row of the dimension `q` when the rows belong to the dimensions `dims` in order. -/
def RowOf (dims : List Q) (rows : List α) (q : Q) (r : α) : Prop := ∃ j : Nat, dims[j]? = some q ∧ rows[j]? = some r

end Gtda.Plotting
