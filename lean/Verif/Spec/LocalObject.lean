import Verif.Spec.HomologyObject
import Verif.Model.LocalObject

set_option autoImplicit false

/-!
# Specification vocabulary for the local homology transformers
-/

namespace Gtda.Spec.LocalObject
open Gtda.Py Gtda.Diagrams Gtda.HomologyObject Gtda.LocalObject

variable {P M T K : Type}

/-- What the documentation of scikit-learn promises: a search by radius returns each training point at distance at most the radius once; a search for `k` neighbours among at least `k` points returns
`k` different training points none of which is farther away than a point that is left out (ties are broken arbitrarily). Iterating over a set visits each member once. -/
structure Searches [LinearOrder K] (E : LocalEnv P M K) : Prop where
  within_nodup : ∀ m r F y, (E.within m r F y).Nodup
  within_mem : ∀ m r F y j, j ∈ E.within m r F y ↔ ∃ p, F[j]? = some p ∧ E.dist m y p ≤ r
  nearest_nodup : ∀ m k F y, (E.nearest m k F y).Nodup
  nearest_length : ∀ m k F y, k ≤ F.length → (E.nearest m k F y).length = k
  nearest_valid : ∀ m k F y, ∀ j ∈ E.nearest m k F y, j < F.length
  nearest_least : ∀ m k F y i j p q, i ∈ E.nearest m k F y → j ∉ E.nearest m k F y → F[i]? = some p → F[j]? = some q → E.dist m y p ≤ E.dist m y q
  arrange_perm : ∀ l, (E.arrange l).Perm l

/-- The points of a neighbourhood whose outer part is coned off: inner points, outer points, and the apex of the cone. -/
inductive Site (P : Type)
  | inner (p : P)
  | outer (p : P)
  | apex

/-- Distances in such a space: those of the points, the apex being at distance zero from the outer points and infinitely far from the inner points. -/
def coneDist [Zero K] (d : P → P → K) : Site P → Site P → WithTop K
  | .apex, .apex => 0
  | .apex, .inner _ => ⊤
  | .inner _, .apex => ⊤
  | .apex, .outer _ => 0
  | .outer _, .apex => 0
  | .inner p, .inner q => d p q
  | .inner p, .outer q => d p q
  | .outer p, .inner q => d p q
  | .outer p, .outer q => d p q

/-- The training points with the given indices. -/
def pointsAt (F : List P) (idx : List Nat) : List P := idx.filterMap fun j => F[j]?

/-- `A` is the distance matrix of the local space whose inner points are the training points with property `inner` and whose outer points those with property `outer`, in some order; if there is no inner point,
the space of one point. -/
def IsLocalMatrix [Zero K] (d : P → P → K) (F : List P) (inner outer : Nat → Prop) (A : List (List (WithTop K))) : Prop :=
  ∃ a b : List Nat, a.Nodup ∧ b.Nodup ∧ (∀ j, j ∈ a ↔ j < F.length ∧ inner j) ∧ (∀ j, j ∈ b ↔ j < F.length ∧ outer j) ∧
    (a = [] → A = [[0]]) ∧
    (a ≠ [] → let sites := (pointsAt F a).map Site.inner ++ (pointsAt F b).map Site.outer ++ [Site.apex]; A = sites.map fun s => sites.map fun t => coneDist d s t)

/-- Training point `j` is at distance at most `r` from `y`. -/
def Within [LinearOrder K] (d : P → P → K) (F : List P) (y : P) (r : K) (j : Nat) : Prop := ∃ p, F[j]? = some p ∧ d y p ≤ r

/-- The number of training points that are closer to `y` than training point `j`. -/
def rank [LinearOrder K] (d : P → P → K) (F : List P) (y : P) (j : Nat) : Nat :=
  match F[j]? with
  | some p => (F.filter fun q => decide (d y q < d y p)).length
  | none => 0

/-- No two training points are equally far from `y`. -/
def NoTies (d : P → P → K) (F : List P) (y : P) : Prop := ∀ (i j : Nat) p q, F[i]? = some p → F[j]? = some q → d y p = d y q → i = j

/-- The call of the engine that computes persistent homology up to dimension `hi` over the field with two elements, without bound on the length of edges. -/
def localCall (hi : Nat) (collapse : Bool) : Call (WithTop K) Bool := ⟨none, some hi, some ⊤, 2, some true, none, none, collapse⟩

/-- The engine of persistent homology accepts the parameters, and returns `bars A` for the matrix `A`. -/
structure Engine (E : LocalEnv P M K) (dims : List Nat) (collapse : Bool) (hi : Nat) (bars : List (List (WithTop K)) → Nat → List (Raw (WithTop K) × Raw (WithTop K))) : Prop where
  validate : E.engine.validate .rips (homologyParams dims collapse) = .ok ()
  check : ∀ Ms, E.engine.check .rips true Ms = .ok ()
  bars : ∀ A, ∃ l, E.engine.dgms .rips (localCall hi collapse) A = .ok l ∧ hi < l.length ∧ ∀ q, q ≤ hi → l[q]? = some (bars A q)

/-- All training data of a history have at least `n` points. -/
def AtLeast (n : Nat) : List (Op P M T) → Prop
  | [] => True
  | .fit F :: ops => n ≤ F.length ∧ AtLeast n ops
  | _ :: ops => AtLeast n ops

/-- Operations that leave the training and the metric alone: transformations, and changes of other parameters. -/
def Quiet : List (Op P M T) → Prop
  | [] => True
  | .fit _ :: _ => False
  | .setMetric _ :: _ => False
  | _ :: ops => Quiet ops

/-- The metric, the homology dimensions and `collapse_edges` after a history: those set last. -/
def lastParams (p : M × List Nat × Bool) : List (Op P M T) → M × List Nat × Bool
  | [] => p
  | .setMetric m :: ops => lastParams (m, p.2.1, p.2.2) ops
  | .setDims d :: ops => lastParams (p.1, d, p.2.2) ops
  | .setCollapse b :: ops => lastParams (p.1, p.2.1, b) ops
  | _ :: ops => lastParams p ops

end Gtda.Spec.LocalObject
