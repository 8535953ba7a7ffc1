import Verif.Model.Diagrams

set_option autoImplicit false

/-!
# Specification vocabulary for collections of persistence diagrams
-/

namespace Gtda.Diagrams

variable {K Q : Type}

/-- The points of a diagram in homology dimension `q`, in order. -/
def pointsIn [DecidableEq Q] (D : List (Pt K Q)) (q : Q) : List (Pt K Q) := D.filter fun p => p.q = q

/-- All diagrams of the collection have the same number of points in homology dimension `q`. -/
def EqualCounts [DecidableEq Q] (X : List (List (Pt K Q))) (q : Q) : Prop :=
  ∀ D ∈ X, ∀ D' ∈ X, (pointsIn D q).length = (pointsIn D' q).length

/-- The points with lifetime above `e` in dimension `q`, in order. -/
def longLived [Field K] [LinearOrder K] [DecidableEq Q] (e : K) (D : List (Pt K Q)) (q : Q) : List (Pt K Q) :=
  D.filter fun p => decide (p.q = q) && decide (e < p.d - p.b)

/-- What a valid collection of persistence diagrams is. -/
def ValidCollection [Field K] [LinearOrder K] (X : Arr K) : Prop :=
  -- three-dimensional, nonempty, last axis of size 3
  (∃ n m, X.shape = [n, m, 3] ∧ n ≠ 0) ∧
  -- no NaN
  (∀ D ∈ X.data, ∀ p ∈ D, ∀ v ∈ p, v ≠ none) ∧
  -- births do not exceed deaths
  (∀ D ∈ X.data, ∀ p ∈ D, ∀ b d, p[0]? = some (some b) → p[1]? = some (some d) → b ≤ d) ∧
  -- in the first diagram all homology dimensions are natural numbers, or all are infinity
  ((∀ D, X.data[0]? = some D → ∀ p ∈ D, ∃ k : Nat, p[2]? = some (some (((k : K) : WithTop K) : Ext K))) ∨
   (∀ D, X.data[0]? = some D → ∀ p ∈ D, p[2]? = some (some ((⊤ : WithTop K) : Ext K))))

/-- The entries of the array agree with its shape. -/
def Arr.Consistent (X : Arr K) : Prop :=
  ∀ n m k, X.shape = [n, m, k] → X.data.length = n ∧ (∀ D ∈ X.data, D.length = m ∧ ∀ p ∈ D, p.length = k)

/-- The entry at index `(i, j, k)`. -/
def Arr.entry (X : Arr K) (i j k : Nat) : Option (Option (Ext K)) := do
  let D ← X.data[i]?
  let p ← D[j]?
  p[k]?

/-- Every array of `h` is still there, unchanged, in `h'`. -/
def Preserved (h h' : Heap K) : Prop := ∀ (i : Nat) (X : Arr K), h[i]? = some X → h'[i]? = some X

/-- The array of a collection of points. -/
def toArr (X : List (List (Pt (Ext K) (Ext K)))) : Arr K :=
  { shape := [X.length, (X.headD []).length, 3]
    data := X.map fun D => D.map fun p => [some p.b, some p.d, some p.q] }

end Gtda.Diagrams
