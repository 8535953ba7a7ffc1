import Mathlib.Data.List.Basic
import Mathlib.Algebra.Order.Field.Basic

set_option autoImplicit false

/-!
# Specifications for `gtda/time_series`: plain statements about lists, no reference to the model
-/

namespace Gtda.Spec

/-- `W` is the list of windows of `size` consecutive samples of `X`, `stride` apart, as documented for `SlidingWindow`. -/
structure IsWindowing {α : Type _} (size stride : Nat) (X : List α) (W : List (List α)) : Prop where
  /-- documented number of windows -/
  count : W.length = (X.length - size) / stride + 1
  /-- every window is a block of `size` consecutive samples; block starts advance by `stride` -/
  blocks : ∃ a, ∀ i, (h : i < W.length) → a + i * stride + size ≤ X.length ∧ W[i] = (X.drop (a + i * stride)).take size
  /-- the last window ends with the last sample: it is a suffix of the series -/
  last : W.getLast? = some (X.drop (X.length - size))

/-- `E` is the delay embedding of `X`: `n_points` vectors with `dimension` coordinates `timeDelay` apart, starts `stride` apart,
first coordinate of the first vector at time `first`. -/
structure IsDelayEmbedding {α : Type _} (timeDelay dimension stride first : Nat) (X : List α) (E : List (List α)) : Prop where
  count : E.length = (X.length - timeDelay * (dimension - 1) - 1) / stride + 1
  dims : ∀ i, (h : i < E.length) → E[i].length = dimension
  coords : ∀ i, (h : i < E.length) → ∀ k, k < dimension →
    first + i * stride + k * timeDelay < X.length ∧ E[i][k]? = X[first + i * stride + k * timeDelay]?

/-- `x` is the `q`-th percentile of `a` with linear interpolation: the position `q/100·(n-1)` is written `k + u` with `0 ≤ u < 1`, and `x`
interpolates linearly between entries `k` and `k + 1` of the ascending rearrangement of `a` (it is the last entry when `k = n - 1`). -/
def IsPercentile {K : Type _} [Field K] [LinearOrder K] (a : List K) (q x : K) : Prop :=
  ∃ s : List K, s.Perm a ∧ s.Pairwise (· ≤ ·) ∧ ∃ (k : Nat) (u : K), 0 ≤ u ∧ u < 1 ∧ q * ((a.length : K) - 1) = 100 * (k + u) ∧
    ((k + 1 < a.length ∧ ∃ lo hi, s[k]? = some lo ∧ s[k + 1]? = some hi ∧ x = lo + (hi - lo) * u) ∨
     (k + 1 = a.length ∧ u = 0 ∧ s[k]? = some x))

end Gtda.Spec
