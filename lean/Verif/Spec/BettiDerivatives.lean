import Verif.Spec.Vectorization

set_option autoImplicit false

/-!
# Specification for C157: births and deaths between two filtration values
-/

namespace Gtda.Spec.BettiDerivatives
open Gtda.Diagrams

variable {K Q : Type} [LinearOrder K] [DecidableEq Q]

/-- Number of off-diagonal points of `D` in homology dimension `q` born after `s` and not after `s'`. -/
def bornIn (D : List (Pt K Q)) (q : Q) (s s' : K) : Nat := D.countP fun p => decide (p.q = q ∧ p.b < p.d ∧ s < p.b ∧ p.b ≤ s')

/-- Number of off-diagonal points of `D` in homology dimension `q` that die after `s` and not after `s'`. -/
def diedIn (D : List (Pt K Q)) (q : Q) (s s' : K) : Nat := D.countP fun p => decide (p.q = q ∧ p.b < p.d ∧ s < p.d ∧ p.d ≤ s')

/-- Number of off-diagonal points of `D` in homology dimension `q`. -/
def features (D : List (Pt K Q)) (q : Q) : Nat := D.countP fun p => decide (p.q = q ∧ p.b < p.d)

/-- The values of a Betti curve as signed integers (they are of numpy's type `int64`). -/
def signed (R : List (List (List Nat))) : List (List (List Int)) := R.map fun r => r.map fun c => c.map fun (n : Nat) => (n : Int)

end Gtda.Spec.BettiDerivatives
