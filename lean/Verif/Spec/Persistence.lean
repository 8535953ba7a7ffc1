import Verif.Spec.Homology
import Verif.Model.Persistence

set_option autoImplicit false

/-!
# Specification vocabulary for the persistent homology transformers
-/

namespace Gtda.Spec
open Gtda.Diagrams Gtda.Validation

variable {V : Type} [LinearOrder V]

/-- The value that stands for a float in the output: infinity is replaced by `inf` (NaN and `-inf` by what numpy puts for them). -/
def replaceRaw (inf zero lowest : V) : Raw V → V
  | .num v => v
  | .posinf => inf
  | .neginf => lowest
  | .nan => zero

/-- The bars that are reported for a list of raw bars: those that are not empty after replacing special values. -/
def reportedBars (inf zero lowest : V) (bars : List (Raw V × Raw V)) : List (V × V) :=
  (bars.map fun r => (replaceRaw inf zero lowest r.1, replaceRaw inf zero lowest r.2)).filter fun p => decide (p.1 < p.2)

/-- The points of a diagram off the diagonal, in order. -/
def offDiagonal (D : List (Pt V Nat)) : List (Pt V Nat) := D.filter fun p => decide (p.b ≠ p.d)

/-- The position of the entry with index `I` in the column-major order of an array of the given shape: the first coordinate varies fastest. -/
def columnMajor : List Nat → List Nat → Nat
  | n :: shape, i :: I => i + n * columnMajor shape I
  | _, _ => 0

/-- `I` is an index of an array of the given shape. -/
def IsIndex (shape I : List Nat) : Prop := List.Forall₂ (· < ·) I shape

/-- `q` is the smallest member of `l`. -/
def IsSmallest (l : List Nat) (q : Nat) : Prop := q ∈ l ∧ ∀ p ∈ l, q ≤ p

/-- `q` is the largest member of `l`. -/
def IsLargest (l : List Nat) (q : Nat) : Prop := q ∈ l ∧ ∀ p ∈ l, p ≤ q

/-- The value of a key in a dictionary given by its items. -/
def lookupKey (d : List (String × PyVal)) (k : String) : Option PyVal := (d.find? fun p => decide (p.1 = k)).map Prod.snd

/-- A bar that never dies. -/
def Essential (b : Raw V × Raw V) : Prop := b.2 = .posinf

/-- The list of essential classes has `b` as its earliest born member. -/
def IsEarliestEssential (bars : List (Raw V × Raw V)) (b : Raw V × Raw V) : Prop :=
  ∃ x, b = (.num x, .posinf) ∧ ∀ c ∈ bars, Essential c → ∃ y, c.1 = .num y ∧ x ≤ y

/-- The bar that is discarded in dimension 0: the last one for ripser and flagser, the first one for GUDHI. -/
def discarded (D : RawDiagram V) : Option (Raw V × Raw V) :=
  match D with
  | .byDim _ => (rawBars D 0).getLast?
  | .gudhi _ => (rawBars D 0).head?

/-- The documented default values of the parameters of weighted filtrations. -/
def defaultWeight (dtm : Bool) (k : String) : Option PyVal :=
  if k = "p" then some (.int 1)
  else if k = "n_neighbors" ∧ dtm = true then some (.int 3)
  else if k = "r" ∧ dtm = true then some (.int 2)
  else none

/-- Python values equal to 1, 2 or infinity. -/
def OneTwoInf (v : PyVal) : Prop := v = .bool true ∨ v = .int 1 ∨ v = .int 2 ∨ v = .float 1 ∨ v = .float 2 ∨ v = .floatInf

/-- Positive numbers, infinity included. -/
def PositiveOrInf (v : PyVal) : Prop := v = .bool true ∨ (∃ n : Int, 0 < n ∧ v = .int n) ∨ (∃ x : ℚ, 0 < x ∧ v = .float x) ∨ v = .floatInf

/-- Integers that are at least one. -/
def PositiveInt (v : PyVal) : Prop := v = .bool true ∨ ∃ n : Int, 1 ≤ n ∧ v = .int n

/-- The documented parameters of weighted filtrations and their values. -/
def AdmissibleWeight (dtm : Bool) (k : String) (v : PyVal) : Prop :=
  (k = "p" ∧ OneTwoInf v) ∨ (dtm = true ∧ k = "r" ∧ PositiveOrInf v) ∨ (dtm = true ∧ k = "n_neighbors" ∧ PositiveInt v)

end Gtda.Spec
