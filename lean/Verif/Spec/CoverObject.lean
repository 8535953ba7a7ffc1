import Verif.Model.CoverObject
import Verif.Spec.Cover

/-!
# Specifications for covers as objects
-/

set_option autoImplicit false

namespace Gtda.Spec.CoverObject

open Py Mapper Gtda.CoverObject

variable {K : Type}

/-- The documented values of the parameters. -/
def Valid [Field K] [LinearOrder K] (p : Params K) : Prop := ∃ k n f, p = ⟨some k, some n, some f⟩ ∧ (k = "uniform" ∨ k = "balanced") ∧ 1 ≤ n ∧ 0 < f ∧ f < 1

/-- A two-dimensional array has columns of equal length. -/
def Rectangular : Data K → Prop
  | .one _ => True
  | .two m cols => ∀ x ∈ cols, x.length = m

/-- The columns of an array; a one-dimensional array is a column. -/
def cols : Data K → List (List K)
  | .one x => [x]
  | .two _ c => c

/-- There are samples and columns. -/
def HasData : Data K → Prop
  | .one x => x ≠ []
  | .two m c => m ≠ 0 ∧ c ≠ []

/-- Can a column be covered by `n` intervals? Not if `n > 1` and it has one distinct value. -/
def Coverable (n : Option Int) (x : List K) : Prop := n = some 1 ∨ ∃ a ∈ x, ∃ b ∈ x, a ≠ b

section
variable [Field K] [LinearOrder K] [FloorRing K]

/-- The parameters after a history: those of the last change, the initial ones if there was none. -/
def lastParams (p : Params K) : List (Op K) → Params K
  | [] => p
  | .setParams q :: ops => lastParams q ops
  | .fit _ :: ops => lastParams p ops
  | .fitTransform _ :: ops => lastParams p ops

/-- Does this call on a new object with these parameters store intervals? -/
def stores (p : Params K) : Op K → Bool
  | .setParams _ => false
  | .fit X => (fit ⟨p, none⟩ X).2.isOk
  | .fitTransform X => (fitTransform ⟨p, none⟩ X).2.isOk && decide (p.kind = some "uniform")

/-- The last call of a history that stores intervals (`best`: the last one so far), with the parameters at that time. -/
def lastStoring (p : Params K) (best : Option (Params K × Op K)) : List (Op K) → Option (Params K × Op K)
  | [] => best
  | .setParams q :: ops => lastStoring q best ops
  | .fit X :: ops => lastStoring p (if stores p (.fit X) then some (p, .fit X) else best) ops
  | .fitTransform X :: ops => lastStoring p (if stores p (.fitTransform X) then some (p, .fitTransform X) else best) ops

/-- Does this call on a new `CubicalCover` with these parameters return normally? -/
def cubOk (p : Params K) : Op K → Bool
  | .setParams _ => true
  | .fit X => (cubFit ⟨p, none⟩ X).2.isOk
  | .fitTransform X => (cubFitTransform ⟨p, none⟩ X).2.isOk

/-- The last call of a history of a `CubicalCover` that returned normally (`best`: the last one so far), with the parameters at that time. -/
def lastCub (p : Params K) (best : Option (Params K × Op K)) : List (Op K) → Option (Params K × Op K)
  | [] => best
  | .setParams q :: ops => lastCub q best ops
  | .fit X :: ops => lastCub p (if cubOk p (.fit X) then some (p, .fit X) else best) ops
  | .fitTransform X :: ops => lastCub p (if cubOk p (.fitTransform X) then some (p, .fitTransform X) else best) ops

end

end Gtda.Spec.CoverObject
