import Mathlib.Analysis.SpecialFunctions.Log.Base

set_option autoImplicit false

/-! # Specification of entropies -/

namespace Gtda

/-- The Shannon entropy, in bits, of the probabilities `ps` (`0 * log 0` is `0`). -/
noncomputable def shannon2 (ps : List ℝ) : ℝ := (ps.map fun p => -(p * Real.logb 2 p)).sum

end Gtda
