import Verif.Model.ImageObject
import Verif.Spec.Images

/-!
# Specification vocabulary for image transformers as objects
-/

set_option autoImplicit false

namespace Gtda.Spec.ImageObject

open Gtda.ImageObject Gtda.Images Gtda.Spec.Images

/-- `n` images of the given shape are a collection of arrays: there is at least one image, images have an axis, and one-dimensional images have a pixel. -/
def IsCollection (shape : List Nat) (n : Nat) : Prop := shape ≠ [] ∧ n ≠ 0 ∧ shape ≠ [0]

/-- … of images with at most three axes. -/
def Supported (shape : List Nat) (n : Nat) : Prop := IsCollection shape n ∧ shape.length ≤ 3

/-- Images of this shape have a pixel. -/
def HasPixel (shape : List Nat) : Prop := ∃ p, IsPixel shape p

section

variable {P D : Type}

open Classical in
/-- What a history leaves: the present parameters, and the parameters and the data of the last `fit` that was acceptable, if there was one. -/
noncomputable def after (Acc : P → D → Prop) (p : P × Option (P × D)) : List (Op P D) → P × Option (P × D)
  | [] => p
  | .setParams q :: ops => after Acc (q, p.2) ops
  | .fit X :: ops => after Acc (p.1, if Acc p.1 X then some (p.1, X) else p.2) ops
  | .transform _ _ :: ops => after Acc p ops

/-- Operations on an object with parameters `p` of which every `fit` is one that is refused at once, `Refused q X` for the parameters `q` at that time. -/
def Harmless (Refused : P → D → Prop) (p : P) : List (Op P D) → Prop
  | [] => True
  | .setParams q :: ops => Harmless Refused q ops
  | .fit X :: ops => Refused p X ∧ Harmless Refused p ops
  | .transform _ _ :: ops => Harmless Refused p ops

/-- No `fit` with something that is a collection of arrays. -/
def NoFit (IsColl : D → Prop) (ops : List (Op P D)) : Prop := ∀ X, .fit X ∈ ops → ¬ IsColl X

end

/-- All pixels of the collection, as numbers. -/
def PixelValues {K : Type} (X : Batch K) : Set K := {v | ∃ x ∈ X.images, ∃ p, IsPixel X.shape p ∧ x p = v}

/-- The last iteration whose new pixels are seen: at most `n_iterations`, and never more than the sum of the side lengths of the training images. -/
def cutoff (n : Option Int) (trained : List Nat) : Nat := min ((n.map Int.toNat).getD trained.sum) trained.sum

end Gtda.Spec.ImageObject
