import Verif.Spec.Images

set_option autoImplicit false

/-!
# Specification: symmetries of images
-/

namespace Gtda.Spec.Images

/-- `g` carries the pixels of one shape onto those of another one, and keeps grid distances: a symmetry, such as a reflection or an exchange of axes. -/
structure IsGridSymmetry (shape shape' : List Nat) (g : List Nat → List Nat) : Prop where
  pixel : ∀ p, IsPixel shape p → IsPixel shape' (g p)
  onto : ∀ q, IsPixel shape' q → ∃ p, IsPixel shape p ∧ g p = q
  isometry : ∀ p q, IsPixel shape p → IsPixel shape q → manhattan (g p) (g q) = manhattan p q

/-- Reflection along axis `k`: index `i` becomes `d - 1 - i`, where `d` is the length of the axis. -/
def flipAxis : Nat → List Nat → List Nat → List Nat
  | 0, d :: _, i :: p => (d - 1 - i) :: p
  | k + 1, _ :: shape, i :: p => i :: flipAxis k shape p
  | _, _, p => p

/-- Exchange of entries `k` and `k + 1`: of a multi-index, a shape or a vector. -/
def swapNext {α : Type} : Nat → List α → List α
  | 0, a :: b :: l => b :: a :: l
  | k + 1, a :: l => a :: swapNext k l
  | _, l => l

/-- `g` carries the pixels of one shape onto those of another one, distinct ones to distinct ones. -/
structure IsPixelBijection (shape shape' : List Nat) (g : List Nat → List Nat) : Prop where
  pixel : ∀ p, IsPixel shape p → IsPixel shape' (g p)
  onto : ∀ q, IsPixel shape' q → ∃ p, IsPixel shape p ∧ g p = q
  injective : ∀ p q, IsPixel shape p → IsPixel shape q → g p = g q → p = q

/-- The component of directions and centres which belongs to an axis of images: rows (axis 0) are counted vertically, which is component 1. -/
def componentOfAxis : Nat → Nat
  | 0 => 1
  | 1 => 0
  | k => k

/-- The image whose value at `p` is 1 if `A p` and 0 else. -/
noncomputable def indicator {K : Type} [Zero K] [One K] (A : List Nat → Prop) : List Nat → K := fun p => open Classical in if A p then 1 else 0

/-- Each pixel of one of the sets `A`, `B` has a pixel of the other one at grid distance at most `ε` (Hausdorff distance at most `ε`). -/
def Near (shape : List Nat) (ε : Nat) (A B : List Nat → Prop) : Prop :=
  (∀ p, IsPixel shape p → A p → ∃ q, IsPixel shape q ∧ B q ∧ manhattan p q ≤ ε) ∧ ∀ p, IsPixel shape p → B p → ∃ q, IsPixel shape q ∧ A q ∧ manhattan p q ≤ ε

end Gtda.Spec.Images
