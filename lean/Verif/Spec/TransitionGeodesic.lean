import Mathlib.Data.List.Count
import Mathlib.Data.List.Range

set_option autoImplicit false

/-!
# Vocabulary for C153

Written without reference to the model.
-/

namespace Gtda.Spec

/-- How often the state changes between times `s` and `t`. -/
def changes {S : Type} [DecidableEq S] (Y : List S) (s t : Nat) : Nat := (List.range' s (t - s)).countP fun u => decide (Y[u]? ≠ Y[u + 1]?)

end Gtda.Spec
