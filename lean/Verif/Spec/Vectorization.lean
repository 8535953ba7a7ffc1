import Verif.Spec.Diagrams
import Mathlib.Order.Bounds.Defs

set_option autoImplicit false

/-!
# Specification vocabulary for vector representations of diagrams
-/

namespace Gtda.Diagrams

variable {K Q : Type}

/-- The off-diagonal points of a diagram. -/
def offDiag [DecidableEq K] (D : List (Pt K Q)) : List (Pt K Q) := D.filter fun p => decide (p.b ≠ p.d)

/-- Two diagrams have the same off-diagonal points, with multiplicity: one is obtained from the other by reordering points and adding or removing
diagonal points. -/
def SameFeatures [DecidableEq K] (D D' : List (Pt K Q)) : Prop := (offDiag D).Perm (offDiag D')

/-- Number of points `p` of `D` in homology dimension `q` with birth ≤ `s` < death. -/
def aliveAt [LinearOrder K] [DecidableEq Q] (D : List (Pt K Q)) (q : Q) (s : K) : Nat :=
  D.countP fun p => decide (p.q = q ∧ p.b ≤ s ∧ s < p.d)

/-- The tent function of the interval from `b` to `d`. -/
def tent [Field K] [LinearOrder K] (b d s : K) : K := max 0 (min (s - b) (d - s))

/-- Values at `s` of the tent functions of the points in homology dimension `q`. -/
def tents [Field K] [LinearOrder K] [DecidableEq Q] (D : List (Pt K Q)) (q : Q) (s : K) : List K :=
  (pointsIn D q).map fun p => tent p.b p.d s

/-- `v` is the `(k+1)`-th largest entry of `l`, counted with multiplicity. -/
def IsNthLargest [LinearOrder K] (l : List K) (k : Nat) (v : K) : Prop :=
  v ∈ l ∧ l.countP (fun x => decide (v < x)) ≤ k ∧ k < l.countP (fun x => decide (v ≤ x))

/-- Entry `[i, j, t]` of a three-dimensional array. -/
def entry3 {α : Type} (R : List (List (List α))) (i j t : Nat) : Option α := do
  let r ← R[i]?
  let c ← r[j]?
  c[t]?

/-- All births in dimension `q` in the collection. -/
def births (X : List (List (Pt K Q))) (q : Q) : Set K := {x | ∃ D ∈ X, ∃ p ∈ D, p.q = q ∧ x = p.b}

/-- All deaths in dimension `q` in the collection. -/
def deaths (X : List (List (Pt K Q))) (q : Q) : Set K := {x | ∃ D ∈ X, ∃ p ∈ D, p.q = q ∧ x = p.d}

/-- All lifetimes in dimension `q` in the collection. -/
def lifetimes [Field K] (X : List (List (Pt K Q))) (q : Q) : Set K := {x | ∃ D ∈ X, ∃ p ∈ D, p.q = q ∧ x = p.d - p.b}

/-- `n` equally spaced values from `lo` to `hi`, at distance `step`. -/
def EquallySpaced [Field K] (l : List K) (n : Nat) (lo hi step : K) : Prop :=
  l.length = n ∧ l[0]? = some lo ∧ l[n - 1]? = some hi ∧ ∀ (i : Nat) x y, l[i]? = some x → l[i + 1]? = some y → y - x = step

end Gtda.Diagrams

namespace Gtda.Diagrams

variable {K Q : Type}

/-- Entry `[i, j]` of an image. -/
def entry2 {α : Type} (I : List (List α)) (i j : Nat) : Option α := do
  let r ← I[i]?
  r[j]?

/-- `x` moved to the nearest value between `lo` and `hi`. -/
def clamp [LinearOrder K] (lo hi x : K) : K := max lo (min hi x)

/-- `x` lies in the `i`-th of the half-open intervals of length `step` starting at `lo`. -/
def InBin [Field K] [LinearOrder K] (lo step : K) (i : Nat) (x : K) : Prop := lo + (i : K) * step ≤ x ∧ x < lo + ((i : K) + 1) * step

instance [Field K] [LinearOrder K] (lo step : K) (i : Nat) (x : K) : Decidable (InBin lo step i x) := by unfold InBin; infer_instance

/-- An image with `n` rows of length `n`. -/
def SquareImage {α : Type} (n : Nat) (I : List (List α)) : Prop := I.length = n ∧ ∀ r ∈ I, r.length = n

end Gtda.Diagrams
