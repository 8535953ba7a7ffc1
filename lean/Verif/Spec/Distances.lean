import Verif.Spec.Vectorization
import Verif.Py.Basic
import Mathlib.Analysis.Normed.Lp.PiLp

set_option autoImplicit false

/-!
# Specification vocabulary for distances and amplitudes

The `p`-norms are Mathlib's norms on `PiLp p`.
-/

namespace Gtda.Diagrams

variable {K Q : Type}

/-- The vector of real numbers with coordinates `f 0, …, f (n-1)`, in the space with the `p`-norm. -/
def lpVec (p : ENNReal) (n : Nat) (f : Nat → ℝ) : PiLp p (fun _ : Fin n => ℝ) := WithLp.toLp p fun i => f i

/-- The `p`-norm of the list `l` of real numbers. -/
noncomputable def lpNorm (p : ENNReal) (l : List ℝ) : ℝ := ‖lpVec p l.length fun i => l[i]?.getD 0‖

/-- The `p`-distance between two lists of real numbers of the same length. -/
noncomputable def lpDist (p : ENNReal) (l l' : List ℝ) : ℝ := dist (lpVec p l.length fun i => l[i]?.getD 0) (lpVec p l.length fun i => l'[i]?.getD 0)

/-- `d` is a pseudometric on the set `S`. -/
structure PseudometricOn {α : Type} (S : Set α) (d : α → α → ℝ) : Prop where
  nonneg : ∀ x ∈ S, ∀ y ∈ S, 0 ≤ d x y
  zero : ∀ x ∈ S, d x x = 0
  symm : ∀ x ∈ S, ∀ y ∈ S, d x y = d y x
  triangle : ∀ x ∈ S, ∀ y ∈ S, ∀ z ∈ S, d x z ≤ d x y + d y z

/-- The pairwise computation `T` (a function of the number of jobs, of the collection to transform and of the training collection) outputs at `[i, j, k]` the value `δ q Dᵢ D'ⱼ`,
`q` being the `k`-th homology dimension, for all non-empty collections of diagrams in `S` with constant numbers of points per dimension, whatever the number of jobs. -/
def GivesDistances {R : Type} [DecidableEq Q] (T : Nat → List (List (Pt K Q)) → List (List (Pt K Q)) → Py.PyM (List (List (List R)))) (dims : List Q)
    (S : Set (List (Pt K Q))) (δ : Q → List (Pt K Q) → List (Pt K Q) → R) : Prop :=
  ∀ nJobs X₁ X₂, 1 ≤ nJobs → X₁ ≠ [] → X₂ ≠ [] → (∀ q ∈ dims, EqualCounts X₁ q) → (∀ q ∈ dims, EqualCounts X₂ q) → (∀ D ∈ X₁, D ∈ S) → (∀ D ∈ X₂, D ∈ S) →
    ∃ A, T nJobs X₁ X₂ = .ok A ∧ A.length = X₁.length ∧ (∀ r ∈ A, r.length = X₂.length ∧ ∀ c ∈ r, c.length = dims.length) ∧
      ∀ (i j k : Nat) D D' q, X₁[i]? = some D → X₂[j]? = some D' → dims[k]? = some q → entry3 A i j k = some (δ q D D')

/-- The computation `T` of amplitudes (a function of the number of jobs and of the collection to transform) outputs at `[i, k]` the value `α q Dᵢ`, `q` being the `k`-th
homology dimension, for all non-empty collections of diagrams in `S` with constant numbers of points per dimension, whatever the number of jobs. -/
def GivesAmplitudes {R : Type} [DecidableEq Q] (T : Nat → List (List (Pt K Q)) → Py.PyM (List (List R))) (dims : List Q)
    (S : Set (List (Pt K Q))) (α : Q → List (Pt K Q) → R) : Prop :=
  ∀ nJobs X, 1 ≤ nJobs → X ≠ [] → (∀ q ∈ dims, EqualCounts X q) → (∀ D ∈ X, D ∈ S) →
    ∃ A, T nJobs X = .ok A ∧ A.length = X.length ∧ (∀ r ∈ A, r.length = dims.length) ∧
      ∀ (i k : Nat) D q, X[i]? = some D → dims[k]? = some q → entry2 A i k = some (α q D)

end Gtda.Diagrams
