import Verif.Model.Homology
import Verif.Spec.Diagrams

set_option autoImplicit false

/-!
# Specification vocabulary for the output of the persistent homology transformers
-/

namespace Gtda.Diagrams

variable {V : Type} [LinearOrder V]

/-- The raw diagram has the layout announced by `fmt` and covers all requested dimensions. -/
def WellFormed (fmt : Format) (dims : List Nat) (D : RawDiagram V) : Prop :=
  match fmt, D with
  | .ripser, .byDim l | .flagser, .byDim l => ∀ q ∈ dims, q < l.length
  | .gudhi, .gudhi _ => True
  | _, _ => False

/-- The raw bars in dimension `q`, in order. -/
def rawBars (D : RawDiagram V) (q : Nat) : List (Raw V × Raw V) :=
  match D with
  | .byDim l => l.getD q []
  | .gudhi l => l.filterMap fun p => if p.1 = q then some p.2 else none

/-- The bars in dimension 0 without the one that reduced homology leaves out: the last one for ripser and flagser, the first one for GUDHI. -/
def withoutOne (D : RawDiagram V) (bars : List (Raw V × Raw V)) : List (Raw V × Raw V) :=
  match D with
  | .byDim _ => bars.dropLast
  | .gudhi _ => bars.tail

/-- The bars meant to be reported in dimension `q`: with reduced homology, one bar in dimension 0 is left out;
special values are replaced; empty bars are left out. -/
def expectedBars (inf zero lowest : V) (reduced : Bool) (D : RawDiagram V) (q : Nat) : List (V × V) :=
  let replace : Raw V → V := fun r => match r with
    | .num v => v
    | .posinf => inf
    | .neginf => lowest
    | .nan => zero
  let bars := if q = 0 ∧ reduced = true then withoutOne D (rawBars D q) else rawBars D q
  bars.filterMap fun r => if replace r.1 < replace r.2 then some (replace r.1, replace r.2) else none

end Gtda.Diagrams
