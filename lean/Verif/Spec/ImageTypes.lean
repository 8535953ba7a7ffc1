import Verif.Model.Images

set_option autoImplicit false

/-!
# Specification vocabulary for values stored in images

Only the names of the NumPy dtypes are taken from the model.
-/

namespace Gtda.Spec.Images
open Gtda.Images

variable {K : Type} [Field K] [LinearOrder K]

/-- The value can be stored in images of this dtype without change: 0 or 1 in Boolean images, integers in integer images. -/
def Representable : Dtype → K → Prop
  | .bool, v => v = 0 ∨ v = 1
  | .int, v => ∃ z : Int, v = z
  | .float, _ => True

/-- `u` is what becomes of `v` when it is stored in images of this dtype: its truth value in Boolean images, the integer next to it in the direction of zero in integer images. -/
def StoredAs : Dtype → K → K → Prop
  | .bool, v, u => (v = 0 → u = 0) ∧ (v ≠ 0 → u = 1)
  | .int, v, u => ∃ z : Int, u = z ∧ |u| ≤ |v| ∧ |v - u| < 1
  | .float, v, u => u = v

/-- The number of images in a collection. -/
def numberOfImages : Coll K → Nat
  | .bools l => l.length
  | .nums l => l.length

end Gtda.Spec.Images
