import Mathlib.Algebra.Order.Field.Basic
import Mathlib.Data.List.Forall2
import Mathlib.Algebra.Order.Group.Abs

set_option autoImplicit false

/-!
# Specification: pixels, grid distance, coordinates

Independent of the model's helpers: a pixel of an array of shape `(d₁, …, dₙ)` is a multi-index `(i₁, …, iₙ)` with `iₖ < dₖ`.
-/

namespace Gtda.Spec.Images

/-- `p` is a pixel of an image of the given shape. -/
def IsPixel (shape p : List Nat) : Prop := List.Forall₂ (fun i d => i < d) p shape

/-- All pixels are 0 or 1. -/
def IsBinary {K : Type} [Zero K] [One K] (shape : List Nat) (x : List Nat → K) : Prop :=
  ∀ p, IsPixel shape p → x p = 0 ∨ x p = 1

/-- Manhattan (grid) distance of two pixels. -/
def manhattan : List Nat → List Nat → Nat
  | i :: p, j :: q => ((i - j) + (j - i)) + manhattan p q
  | _, _ => 0

/-- `d` is the grid distance of `p` to the nearest pixel satisfying `A`: attained, and minimal. -/
def IsGridDist (shape : List Nat) (A : List Nat → Prop) (p : List Nat) (d : Nat) : Prop :=
  (∃ q, IsPixel shape q ∧ A q ∧ manhattan p q = d) ∧ ∀ q, IsPixel shape q → A q → d ≤ manhattan p q

/-- Two pixels are neighbours: grid distance 1. -/
def Neighbours (p q : List Nat) : Prop := p.length = q.length ∧ manhattan p q = 1

/-- Spatial coordinates of a pixel: horizontal (column), vertical (row), depth. -/
def coords {K : Type} [NatCast K] : List Nat → List K
  | r :: c :: t => (c : K) :: (r : K) :: t.map fun (i : Nat) => (i : K)
  | l => l.map fun (i : Nat) => (i : K)

/-- The spatial position of pixel `p` in an image with `rows` rows: column, row counted from the bottom, and the remaining index. -/
def position (rows : Nat) : List Nat → List Nat
  | r :: c :: t => c :: (rows - 1 - r) :: t
  | p => p

/-- Scalar product. -/
def inner {K : Type} [Zero K] [Add K] [Mul K] : List K → List K → K
  | a :: u, b :: v => a * b + inner u v
  | _, _ => 0

/-- Spatial coordinates of a pixel of a 2D or 3D image as a vector of three numbers (depth 0 for 2D images). -/
def coords3 {K : Type} [NatCast K] [Zero K] (p : List Nat) : List K := coords p ++ List.replicate (3 - p.length) 0

/-- What DensityFiltration needs to know about a metric `dist` on vectors for the ball of the given radius to be seen: it is invariant under translations and symmetric,
and two points within `radius` of each other differ in each coordinate by at most the distance of the numbers 0 and `radius`, which is positive. -/
structure IsGridMetric {K : Type} [Field K] [LinearOrder K] (dist : List K → List K → K) (radius : K) : Prop where
  symm : ∀ a b, a.length = 3 → b.length = 3 → dist a b = dist b a
  translate : ∀ a b t, a.length = 3 → b.length = 3 → t.length = 3 → dist (List.zipWith (· + ·) a t) (List.zipWith (· + ·) b t) = dist a b
  coordinate : ∀ a b, a.length = 3 → b.length = 3 → dist a b ≤ radius → List.Forall₂ (fun s t => |s - t| ≤ dist [0] [radius]) a b
  pos : 0 < dist [0] [radius]

end Gtda.Spec.Images
