import Verif.Props.TimeSeriesWindows
import Verif.Props.TimeSeriesMore

/-!
# C135: time series transformers in sequence
-/

set_option autoImplicit false

namespace Gtda.Props.SeriesCompose

open Py TimeSeries Spec

/-- The vector of a delay embedding that starts at time `a`. -/
def pt {α : Type} (τ d : Nat) (X : List α) (a : Nat) : List α := (List.range d).filterMap fun k => X[a + k * τ]?

theorem pt_get {α : Type} (τ d : Nat) (X : List α) (a : Nat) (h : ∀ k < d, a + k * τ < X.length) : (pt τ d X a).length = d ∧ ∀ k < d, (pt τ d X a)[k]? = X[a + k * τ]? := by
  unfold pt
  exact ⟨length_filterMap_some X (fun k => a + k * τ) d h, fun k hk => getElem?_filterMap_some X (fun k => a + k * τ) d h k hk⟩

theorem pt_window {α : Type} (τ d : Nat) (X : List α) (a w b : Nat) (h : ∀ k < d, b + k * τ < w) : pt τ d ((X.drop a).take w) b = pt τ d X (a + b) := by
  unfold pt
  apply List.filterMap_congr
  intro k hk
  have := h k (List.mem_range.1 hk)
  rw [List.getElem?_take_of_lt this, List.getElem?_drop]
  congr 1
  omega

theorem mul_pred_lt (τ d k : Nat) (h : k < d) : k * τ ≤ τ * (d - 1) := by
  rw [Nat.mul_comm τ]
  exact Nat.mul_le_mul_right _ (by omega)

theorem takens_eq {α : Type} (X : List α) (τ d s : Nat) (hd : 1 ≤ d) (h : τ * (d - 1) < X.length) :
    singleTakensTransform τ d s X = .ok ((List.range ((X.length - τ * (d - 1) - 1) / s + 1)).map fun i => pt τ d X ((X.length - τ * (d - 1) - 1) % s + i * s)) := by
  obtain ⟨E, hE, hs⟩ := takens1_ok X τ d s true hd h
  unfold singleTakensTransform
  rw [hE]
  congr 1
  rw [if_pos rfl] at hs
  apply List.ext_getElem
  · rw [hs.count, List.length_map, List.length_range]
  · intro i h1 h2
    rw [List.getElem_map, List.getElem_range]
    have hc := hs.coords i h1
    obtain ⟨p1, p2⟩ := pt_get τ d X ((X.length - τ * (d - 1) - 1) % s + i * s) fun k hk => (hc k hk).1
    apply List.ext_getElem?
    intro k
    by_cases hk : k < d
    · rw [p2 k hk, (hc k hk).2]
    · rw [List.getElem?_eq_none (by rw [hs.dims i h1]; omega), List.getElem?_eq_none (by rw [p1]; omega)]

theorem takens_err {α : Type} (X : List α) (τ d s : Nat) (hd : 1 ≤ d) (hs : 1 ≤ s) (h : X.length ≤ τ * (d - 1)) : singleTakensTransform τ d s X = .error .valueError := by
  unfold singleTakensTransform takens1
  rw [takensIndices_err _ _ _ _ _ hs hd h]
  rfl

theorem sliding_err {α : Type} (X : List α) (m s : Nat) (hs : 1 ≤ s) (h : X.length < m) : slidingTransform m s X = .error .valueError := by
  unfold slidingTransform
  rw [windowIndices_err _ _ _ hs h]
  rfl

theorem map_window {β : Type} (f : Nat → β) (N a m : Nat) (h : a + m ≤ N) : (((List.range N).map f).drop a).take m = (List.range m).map fun j => f (a + j) := by
  apply List.ext_getElem?
  intro j
  by_cases hj : j < m
  · rw [List.getElem?_take_of_lt hj, List.getElem?_drop]
    simp [hj, show a + j < N by omega]
  · rw [List.getElem?_eq_none (by simp; omega), List.getElem?_eq_none (by simp; omega)]

theorem tail_window {K : Type} (X : List K) (a m : Nat) : ((X.drop 1).drop a).take m = ((X.drop a).take (m + 1)).drop 1 := by
  rw [List.drop_drop, List.drop_take, List.drop_drop, Nat.add_comm a 1, Nat.add_sub_cancel]

theorem diff_window {K : Type} [Sub K] (X : List K) (a m : Nat) : ((npDiff X).drop a).take m = npDiff ((X.drop a).take (m + 1)) := by
  unfold npDiff
  rw [List.drop_zipWith, List.take_zipWith, ← List.drop_one, ← List.drop_one, tail_window]
  apply List.ext_getElem?
  intro i
  rw [List.getElem?_zipWith, List.getElem?_zipWith]
  by_cases hi : i < m
  · rw [List.getElem?_take_of_lt hi, List.getElem?_take_of_lt (by omega)]
  · have e : ((List.take (m + 1) (List.drop a X)).drop 1)[i]? = none := by
      rw [List.getElem?_eq_none]
      simp only [List.length_drop, List.length_take]
      omega
    rw [e, List.getElem?_eq_none (l := List.take m (List.drop a X)) (by simp only [List.length_take]; omega)]
    cases (List.take (m + 1) (List.drop a X))[i]? <;> rfl

theorem ret_window {K : Type} [Sub K] [Div K] (X : List K) (a m : Nat) : ((stationReturn X).drop a).take m = stationReturn ((X.drop a).take (m + 1)) := by
  unfold stationReturn
  rw [show pySlice (some 1) none 1 X = X.drop 1 from pySlice_from X 1, show pySlice (some 1) none 1 ((X.drop a).take (m + 1)) = ((X.drop a).take (m + 1)).drop 1 from pySlice_from _ 1,
    List.drop_zipWith, List.take_zipWith, diff_window, tail_window]

/-- Windows of a series of differences. -/
theorem windows_of_diffs {K L : Type} (g : List K → List L) (hlen : ∀ X, (g X).length = X.length - 1) (hw : ∀ X a m, ((g X).drop a).take m = g ((X.drop a).take (m + 1)))
    (m s : Nat) (hm : 1 ≤ m) (hs : 1 ≤ s) (X : List K) : slidingTransform m s (g X) = (fun W => W.map g) <$> slidingTransform (m + 1) s X := by
  by_cases h : m + 1 ≤ X.length
  · rw [slidingTransform_ok X _ s h, slidingTransform_ok (g X) m s (by rw [hlen]; omega)]
    show Except.ok _ = Except.ok _
    congr 1
    dsimp only
    rw [List.map_map, hlen]
    have e : X.length - 1 - m = X.length - (m + 1) := by omega
    rw [e]
    apply List.map_congr_left
    intro i _
    exact hw X _ m
  · rw [sliding_err X _ s hs (by omega), sliding_err (g X) m s hs (by rw [hlen]; omega)]
    rfl

theorem resampler_get {α : Type} (p : Nat) (hp : 1 ≤ p) (X : List α) (i : Nat) : (resamplerTransform p X)[i]? = X[i * p]? := by
  obtain ⟨h1, h2⟩ := resampler_eq p hp X
  unfold resamplerTransform
  rw [pySlice_all]
  by_cases hi : i < (X.length + p - 1) / p
  · exact (h2 i hi).1
  · rw [List.getElem?_eq_none (by omega), List.getElem?_eq_none]
    have := Nat.lt_mul_div_succ (X.length + p - 1) hp
    have h3 : p * ((X.length + p - 1) / p + 1) ≤ p * (i + 1) := Nat.mul_le_mul_left _ (by omega)
    have h4 : p * (i + 1) = i * p + p := by ring
    omega

theorem resampler_length {α : Type} (p : Nat) (hp : 1 ≤ p) (X : List α) : (resamplerTransform p X).length = (X.length + p - 1) / p := by
  unfold resamplerTransform
  rw [pySlice_all]
  exact (resampler_eq p hp X).1

theorem reverse_resampler_get {α : Type} (s : Nat) (hs : 1 ≤ s) (W : List α) (hW : W ≠ []) (i : Nat) (hi : i ≤ (W.length - 1) / s) :
    (resamplerTransform s W.reverse).reverse[i]? = W[(W.length - 1) % s + i * s]? := by
  have hpos : 0 < W.length := List.length_pos_iff.2 hW
  have hl : (resamplerTransform s W.reverse).length = (W.length - 1) / s + 1 := by
    rw [resampler_length s hs, List.length_reverse]
    have : W.length + s - 1 = (W.length - 1) + s := by omega
    rw [this, Nat.add_div_right _ (by omega)]
  rw [List.getElem?_reverse (by omega), resampler_get s hs, hl]
  have h1 := Nat.div_add_mod (W.length - 1) s
  have h2 : ((W.length - 1) / s + 1 - 1 - i) * s + i * s = s * ((W.length - 1) / s) := by
    rw [← Nat.add_mul, Nat.mul_comm]
    congr 1
    omega
  rw [List.getElem?_reverse (by omega)]
  congr 1
  omega

theorem sum_diffs {K : Type} [AddCommGroup K] (X : List K) (a p : Nat) (h : a + p < X.length) : (((npDiff X).drop a).take p).sum = X[a + p] - X[a]'(by omega) := by
  obtain ⟨hl, hg⟩ := npDiff_get X
  induction p with
  | zero => simp
  | succ p ih =>
    have e : (npDiff X)[a + p]? = some (X[a + p + 1] - X[a + p]) := hg (a + p) (by omega)
    have hlt : p < ((npDiff X).drop a).length := by rw [List.length_drop, hl]; omega
    rw [List.take_succ_eq_append_getElem hlt, List.sum_append, ih (by omega)]
    have e2 : ((npDiff X).drop a)[p] = X[a + p + 1] - X[a + p] := by
      have : ((npDiff X).drop a)[p]? = some (X[a + p + 1] - X[a + p]) := by rw [List.getElem?_drop]; exact e
      rw [List.getElem?_eq_getElem hlt] at this
      exact Option.some.inj this
    rw [e2]
    simp only [List.sum_cons, List.sum_nil, add_zero]
    show _ = X[a + p + 1] - X[a]
    abel

theorem window_shift (n k s : Nat) (hs : 1 ≤ s) : (n + k) / s - n / s ≤ (n + k) / s ∧ ((n + k) / s + 1) - (n / s + 1) + (n / s + 1) = (n + k) / s + 1 ∧
    (n + k) % s + ((n + k) / s - n / s) * s = k + n % s := by
  have h1 := Nat.div_add_mod (n + k) s
  have h2 := Nat.div_add_mod n s
  have h3 : n / s ≤ (n + k) / s := Nat.div_le_div_right (by omega)
  have h4 : ((n + k) / s - n / s) * s + n / s * s = (n + k) / s * s := by rw [← Nat.add_mul]; congr 1; omega
  have h5 : s * ((n + k) / s) = (n + k) / s * s := Nat.mul_comm _ _
  have h6 : s * (n / s) = n / s * s := Nat.mul_comm _ _
  generalize n / s = u at *
  generalize (n + k) / s = v at *
  refine ⟨Nat.sub_le _ _, by omega, ?_⟩
  omega

end Gtda.Props.SeriesCompose

namespace Gtda.Props

open Py TimeSeries Spec SeriesCompose

/-- **C135.** A Takens embedding with time delay 1 is a sliding window: `SingleTakensEmbedding(time_delay=1, dimension=d, stride=s)` and `SlidingWindow(size=d, stride=s)` return and raise the same, for `X` and for the
targets. -/
theorem C135_takens_is_sliding {α β : Type} (d s : Nat) (X : List α) (y : List β) :
    singleTakensTransform 1 d s X = slidingTransform d s X ∧ singleTakensResample 1 d s y = slidingResample d s y := by
  constructor
  · have h : takensIndices X.length 1 d s true = windowIndices X.length d s := by
      have e : (X.length : Int) - ((1 : Nat) : Int) * ((d : Int) - 1) - 1 = (X.length : Int) - d := by push_cast; ring
      unfold takensIndices windowIndices
      simp only [e, if_true]
      by_cases h0 : ((X.length : Int) - d) / s + 1 ≤ 0
      · rw [if_pos h0, if_pos h0]
      · rw [if_neg h0, if_neg h0]
        congr 1
        apply List.map_congr_left
        intro i _
        apply List.map_congr_left
        intro j _
        push_cast
        ring
    unfold singleTakensTransform takens1 slidingTransform
    rw [h]
  · unfold singleTakensResample slidingResample
    have e : ((1 : Nat) : Int) * ((d : Int) - 1) - 1 = (d : Int) - 2 := by push_cast; ring
    simp only [e]

example : singleTakensTransform 1 3 2 [0, 1, 2, 3, 4, 5] = .ok [[1, 2, 3], [3, 4, 5]] := by decide

/-- **C135.** The two ways to clouds of points commute: windows of the points of a Takens embedding are the Takens embeddings of the windows of the series, where a window of `w` samples holds `w - time_delay * (dimension - 1)` points. -/
theorem C135_windows_of_points {α : Type} (τ d w s : Nat) (hd : 1 ≤ d) (hs : 1 ≤ s) (hw : τ * (d - 1) < w) (X : List α) :
    (do let E ← singleTakensTransform τ d 1 X; slidingTransform (w - τ * (d - 1)) s E) = (do let W ← slidingTransform w s X; W.mapM (singleTakensTransform τ d 1)) := by
  by_cases h : w ≤ X.length
  · rw [takens_eq X τ d 1 hd (by omega), slidingTransform_ok X w s h, ok_bind, ok_bind]
    have hlen : (X.length - τ * (d - 1) - 1) / 1 + 1 = X.length - τ * (d - 1) := by rw [Nat.div_one]; omega
    rw [hlen, slidingTransform_ok _ _ s (by simp only [List.length_map, List.length_range]; omega)]
    simp only [List.length_map, List.length_range, Nat.mod_one, Nat.zero_add, Nat.mul_one]
    have e : X.length - τ * (d - 1) - (w - τ * (d - 1)) = X.length - w := by omega
    rw [e]
    symm
    rw [mapM_ok_iff, List.forall₂_map_left_iff, List.forall₂_map_right_iff, List.forall₂_same]
    intro i hi
    have hb := window_end_le X.length w s i h (List.mem_range.1 hi)
    have hl : ((X.drop ((X.length - w) % s + i * s)).take w).length = w := by rw [List.length_take, List.length_drop]; omega
    rw [takens_eq _ τ d 1 hd (by rw [hl]; exact hw), hl, map_window _ _ _ _ (by omega)]
    have hlw : (w - τ * (d - 1) - 1) / 1 + 1 = w - τ * (d - 1) := by rw [Nat.div_one]; omega
    rw [hlw]
    congr 1
    apply List.map_congr_left
    intro j hj
    have hj := List.mem_range.1 hj
    rw [Nat.mod_one, Nat.zero_add, Nat.mul_one]
    refine pt_window τ d X _ w j fun k hk => ?_
    have := mul_pred_lt τ d k hk
    omega
  · rw [sliding_err X w s hs (by omega)]
    by_cases h2 : X.length ≤ τ * (d - 1)
    · rw [takens_err X τ d 1 hd (le_refl _) h2]
      rfl
    · rw [takens_eq X τ d 1 hd (by omega), ok_bind, sliding_err _ _ s hs (by simp only [List.length_map, List.length_range, Nat.div_one]; omega)]
      rfl

example : (do let E ← singleTakensTransform 2 2 1 [0, 1, 2, 3, 4, 5, 6]; slidingTransform 2 2 E) = .ok [[[1, 3], [2, 4]], [[3, 5], [4, 6]]] ∧
    slidingTransform 4 2 [0, 1, 2, 3, 4, 5, 6] = .ok [[1, 2, 3, 4], [3, 4, 5, 6]] ∧ singleTakensTransform 2 2 1 [1, 2, 3, 4] = .ok [[1, 3], [2, 4]] := by decide

/-- **C135.** `Stationarizer` and `SlidingWindow` commute: windows of `m` returns are the returns of windows of `m + 1` samples. -/
theorem C135_windows_of_returns {K : Type} [Sub K] [Div K] (log : K → K) (m s : Nat) (hm : 1 ≤ m) (hs : 1 ≤ s) (X : List K) :
    slidingTransform m s (stationReturn X) = (fun W => W.map stationReturn) <$> slidingTransform (m + 1) s X ∧
    slidingTransform m s (stationLogReturn log X) = (fun W => W.map (stationLogReturn log)) <$> slidingTransform (m + 1) s X := by
  constructor
  · refine windows_of_diffs stationReturn (fun X => ?_) (fun X a m => ret_window X a m) m s hm hs X
    unfold stationReturn
    rw [show pySlice (some 1) none 1 X = X.drop 1 from pySlice_from X 1, List.length_zipWith, (npDiff_get X).1, List.length_drop, min_self]
  · refine windows_of_diffs (stationLogReturn log) (fun X => ?_) (fun X a m => ?_) m s hm hs X
    · unfold stationLogReturn
      rw [(npDiff_get _).1, List.length_map]
    · unfold stationLogReturn
      rw [diff_window, List.map_take, List.map_drop]

example : slidingTransform 2 1 (stationReturn [1, 2, 4, (8 : Rat)]) = .ok [[1 / 2, 1 / 2], [1 / 2, 1 / 2]] ∧ stationReturn [2, 4, (8 : Rat)] = [1 / 2, 1 / 2] := by decide +kernel

/-- **C135.** Resampling twice is resampling once with the product of the periods, for `X` and for the targets. -/
theorem C135_resample_twice {α β : Type} (p q : Nat) (hp : 1 ≤ p) (hq : 1 ≤ q) (X : List α) (y : List β) :
    resamplerTransform q (resamplerTransform p X) = resamplerTransform (p * q) X ∧ resamplerResample q (resamplerResample p y) = resamplerResample (p * q) y := by
  have key : ∀ {γ : Type} (Z : List γ), resamplerTransform q (resamplerTransform p Z) = resamplerTransform (p * q) Z := by
    intro γ Z
    apply List.ext_getElem?
    intro i
    rw [resampler_get q hq, resampler_get p hp, resampler_get (p * q) (Nat.mul_pos hp hq)]
    congr 1
    ring
  refine ⟨key X, ?_⟩
  have := key y
  unfold resamplerTransform at this
  rw [pySlice_all, pySlice_all] at this
  exact this

example : resamplerTransform 2 (resamplerTransform 3 (List.range 20)) = [0, 6, 12, 18] := by decide

/-- **C135.** Log-returns of a resampled series are the sums of the `p` log-returns in between. -/
theorem C135_returns_of_resampled {K : Type} [AddCommGroup K] (log : K → K) (p : Nat) (hp : 1 ≤ p) (X : List K) :
    ((stationLogReturn log (resamplerTransform p X)).length = (X.length + p - 1) / p - 1) ∧
    ∀ i, (i + 1) * p < X.length → (stationLogReturn log (resamplerTransform p X))[i]? = some (((stationLogReturn log X).drop (i * p)).take p).sum := by
  have hl : ((resamplerTransform p X).map log).length = (X.length + p - 1) / p := by rw [List.length_map, resampler_length p hp]
  constructor
  · unfold stationLogReturn
    rw [(npDiff_get _).1, hl]
  · intro i hi
    unfold stationLogReturn
    have h1 : i * p + p = (i + 1) * p := by ring
    rw [sum_diffs (X.map log) (i * p) p (by rw [List.length_map]; omega)]
    have g : ∀ j, (hj : j * p < X.length) → ((resamplerTransform p X).map log)[j]? = some (log (X[j * p]'hj)) := by
      intro j hj
      rw [List.getElem?_map, resampler_get p hp, List.getElem?_eq_getElem hj]
      rfl
    have g1 := g (i + 1) hi
    have g0 := g i (by omega)
    have hb : i + 1 < ((resamplerTransform p X).map log).length := by
      by_contra hc
      rw [List.getElem?_eq_none (by omega)] at g1
      cases g1
    rw [(npDiff_get _).2 i hb]
    rw [List.getElem?_eq_getElem hb] at g1
    rw [List.getElem?_eq_getElem (by omega)] at g0
    rw [Option.some.inj g1, Option.some.inj g0]
    simp only [List.getElem_map, h1]

example : stationLogReturn id (resamplerTransform 2 [0, 1, 3, 6, (10 : Int)]) = [3, 7] ∧ stationLogReturn id [0, 1, 3, 6, (10 : Int)] = [1, 2, 3, 4] := by decide

/-- **C135.** If the number of samples is one more than a multiple of the time delay, a Takens embedding whose stride is a multiple of the time delay is a sliding window over the resampled series. -/
theorem C135_takens_of_resampled_partial {α : Type} (τ d s : Nat) (hτ : 1 ≤ τ) (hd : 1 ≤ d) (hs : 1 ≤ s) (X : List α) (m : Nat) (hX : X.length = m * τ + 1) :
    singleTakensTransform τ d (τ * s) X = slidingTransform d s (resamplerTransform τ X) := by
  rw [← (C135_takens_is_sliding d s (resamplerTransform τ X) ([] : List Nat)).1]
  have hl : (resamplerTransform τ X).length = m + 1 := by
    rw [resampler_length τ hτ, hX, show m * τ + 1 + τ - 1 = (m + 1) * τ by rw [Nat.add_mul]; omega, Nat.mul_div_cancel _ hτ]
  by_cases h : d - 1 ≤ m
  · have hmul : τ * (d - 1) + (m - (d - 1)) * τ = m * τ := by rw [Nat.mul_comm τ, ← Nat.add_mul]; congr 1; omega
    rw [takens_eq X τ d (τ * s) hd (by omega), takens_eq _ 1 d s hd (by omega), hl]
    have e1 : X.length - τ * (d - 1) - 1 = τ * (m - (d - 1)) := by rw [hX, Nat.mul_comm τ (m - (d - 1))]; omega
    have e2 : m + 1 - 1 * (d - 1) - 1 = m - (d - 1) := by omega
    rw [e1, e2, Nat.mul_div_mul_left _ _ hτ, Nat.mul_mod_mul_left]
    congr 1
    apply List.map_congr_left
    intro i _
    unfold pt
    apply List.filterMap_congr
    intro k _
    rw [resampler_get τ hτ]
    congr 1
    ring
  · have hmul : (m + 1) * τ ≤ τ * (d - 1) := by rw [Nat.mul_comm τ]; exact Nat.mul_le_mul_right _ (by omega)
    rw [takens_err X τ d (τ * s) hd (Nat.mul_pos hτ hs) (by rw [hX]; rw [Nat.add_mul] at hmul; omega), takens_err _ 1 d s hd hs (by rw [hl]; omega)]

/-- Otherwise not: `Resampler` keeps the first sample and counts from there, embeddings count from the last one. -/
theorem C135_refuted_takens_of_resampled : singleTakensTransform 2 2 2 [0, 1, 2, 3] = .ok [[1, 3]] ∧ slidingTransform 2 1 (resamplerTransform 2 [0, 1, 2, 3]) = .ok [[0, 2]] := by decide

example : singleTakensTransform 2 2 2 [0, 1, 2, 3, 4] = .ok [[0, 2], [2, 4]] ∧ slidingTransform 2 1 (resamplerTransform 2 [0, 1, 2, 3, 4]) = .ok [[0, 2], [2, 4]] := by decide

/-- **C135.** Windows with stride `s` are every `s`-th of all windows, counted from the last one. -/
theorem C135_stride {α : Type} (size s : Nat) (hs : 1 ≤ s) (X : List α) :
    slidingTransform size s X = (fun W => (resamplerTransform s W.reverse).reverse) <$> slidingTransform size 1 X := by
  by_cases h : size ≤ X.length
  · rw [slidingTransform_ok X size s h, slidingTransform_ok X size 1 h]
    show Except.ok _ = Except.ok _
    congr 1
    dsimp only
    rw [Nat.div_one]
    have hne : (List.map (fun i => List.take size (List.drop ((X.length - size) % 1 + i * 1) X)) (List.range (X.length - size + 1))) ≠ [] := by simp
    have hl : ((List.map (fun i => List.take size (List.drop ((X.length - size) % 1 + i * 1) X)) (List.range (X.length - size + 1)))).length = X.length - size + 1 := by simp
    apply List.ext_getElem?
    intro i
    by_cases hi : i < (X.length - size) / s + 1
    · rw [reverse_resampler_get s hs _ hne i (by rw [hl]; simp only [Nat.add_sub_cancel]; omega), hl, Nat.add_sub_cancel]
      have := window_end_le X.length size s i h hi
      simp only [List.getElem?_map, Nat.mod_one, Nat.zero_add, Nat.mul_one]
      rw [List.getElem?_range hi, List.getElem?_range (by omega)]
      rfl
    · rw [List.getElem?_eq_none (by simp; omega), List.getElem?_eq_none]
      rw [List.length_reverse, resampler_length s hs, List.length_reverse, hl]
      have : X.length - size + 1 + s - 1 = X.length - size + s := by omega
      rw [this, Nat.add_div_right _ (by omega)]
      omega
  · rw [sliding_err X size s hs (by omega), sliding_err X size 1 (le_refl _) (by omega)]
    rfl

example : slidingTransform 2 2 [0, 1, 2, 3, 4, 5, 6] = .ok [[1, 2], [3, 4], [5, 6]] ∧ slidingTransform 2 1 [0, 1, 2, 3, 4, 5, 6] = .ok [[0, 1], [1, 2], [2, 3], [3, 4], [4, 5], [5, 6]] := by decide

/-- **C135.** More history does not change what there was: with earlier samples put in front, the windows of the series are the last windows; with `k * s` later samples, they are the first ones, and `k` windows are added. -/
theorem C135_more_samples {α : Type} (size s : Nat) (hs : 1 ≤ s) (X : List α) (hX : size ≤ X.length) (W : List (List α)) (hW : slidingTransform size s X = .ok W) :
    (∀ P : List α, ∃ V, slidingTransform size s (P ++ X) = .ok (V ++ W)) ∧
    ∀ (k : Nat) (N : List α), N.length = k * s → ∃ V, slidingTransform size s (X ++ N) = .ok (W ++ V) ∧ V.length = k := by
  rw [slidingTransform_ok X size s hX] at hW
  cases hW
  constructor
  · intro P
    rw [slidingTransform_ok (P ++ X) size s (by rw [List.length_append]; omega), List.length_append]
    have e : P.length + X.length - size = (X.length - size) + P.length := by omega
    obtain ⟨-, h2, h3⟩ := window_shift (X.length - size) P.length s hs
    rw [e]
    refine ⟨(List.range (((X.length - size) + P.length) / s + 1 - ((X.length - size) / s + 1))).map fun i => List.take size (List.drop (((X.length - size) + P.length) % s + i * s) (P ++ X)), ?_⟩
    congr 1
    conv_lhs => rw [← h2, List.range_add, List.map_append, List.map_map]
    congr 1
    apply List.map_congr_left
    intro i _
    show List.take size (List.drop _ (P ++ X)) = _
    have e3 : (X.length - size + P.length) % s + ((X.length - size + P.length) / s + 1 - ((X.length - size) / s + 1) + i) * s = P.length + ((X.length - size) % s + i * s) := by
      rw [Nat.add_mul]
      have : (X.length - size + P.length) / s + 1 - ((X.length - size) / s + 1) = (X.length - size + P.length) / s - (X.length - size) / s := by omega
      rw [this]
      omega
    rw [e3, List.drop_append, List.drop_of_length_le (by omega : P.length ≤ P.length + _), List.nil_append]
    congr 2
    omega
  · intro k N hN
    rw [slidingTransform_ok (X ++ N) size s (by rw [List.length_append]; omega), List.length_append]
    have e : X.length + N.length - size = (X.length - size) + k * s := by omega
    have hd : ((X.length - size) + k * s) / s = (X.length - size) / s + k := by rw [Nat.add_mul_div_right _ _ (by omega)]
    have hm : ((X.length - size) + k * s) % s = (X.length - size) % s := Nat.add_mul_mod_self_right _ _ _
    rw [e, hd, hm]
    refine ⟨(List.range k).map fun i => List.take size (List.drop ((X.length - size) % s + ((X.length - size) / s + 1 + i) * s) (X ++ N)), ?_, by simp⟩
    congr 1
    have e2 : (X.length - size) / s + k + 1 = ((X.length - size) / s + 1) + k := by omega
    rw [e2, List.range_add, List.map_append, List.map_map]
    congr 1
    apply List.map_congr_left
    intro i hi
    have := window_end_le X.length size s i hX (List.mem_range.1 hi)
    rw [List.drop_append_of_le_length (by omega), List.take_append_of_le_length (by rw [List.length_drop]; omega)]

example : slidingTransform 3 2 [2, 3, 4, 5, 6] = .ok [[2, 3, 4], [4, 5, 6]] ∧ slidingTransform 3 2 ([0, 1] ++ [2, 3, 4, 5, 6]) = .ok [[0, 1, 2], [2, 3, 4], [4, 5, 6]] ∧
    slidingTransform 3 2 ([2, 3, 4, 5, 6] ++ [7, 8]) = .ok [[2, 3, 4], [4, 5, 6], [6, 7, 8]] := by decide

/-- With a number of later samples that is not a multiple of the stride, all windows move. -/
theorem C135_refuted_later_samples : slidingTransform 2 2 [0, 1, 2, 3] = .ok [[0, 1], [2, 3]] ∧ slidingTransform 2 2 [0, 1, 2, 3, 4] = .ok [[1, 2], [3, 4]] := by decide

end Gtda.Props
