import Verif.Lemmas.TimeSeries
import Verif.Lemmas.List

set_option autoImplicit false

/-!
# C01–C07: sliding windows and Takens embeddings
-/

namespace Gtda.Props
open Gtda.Py Gtda.TimeSeries Gtda.Spec

/-! ### C01 -/

/-- **C01.** `SlidingWindow.transform` raises `ValueError` exactly on series shorter than `size`, and otherwise returns the
documented windows. -/
theorem C01_sliding_window_transform {α : Type _} (X : List α) (size stride : Nat) (hs : 1 ≤ size) (ht : 1 ≤ stride) :
    (X.length < size → slidingTransform size stride X = .error .valueError) ∧
    (size ≤ X.length → ∃ W, slidingTransform size stride X = .ok W ∧ IsWindowing size stride X W) := by
  constructor
  · intro h
    unfold slidingTransform
    rw [windowIndices_err _ _ _ ht h]; rfl
  · intro h
    refine ⟨_, slidingTransform_ok X size stride h, by simp, ⟨(X.length - size) % stride, ?_⟩, ?_⟩
    · intro i hi
      simp only [List.length_map, List.length_range] at hi
      refine ⟨window_end_le _ _ _ _ h hi, ?_⟩
      simp
    · rw [List.getLast?_map, List.range_succ, List.getLast?_concat, Option.map_some]
      have h1 := Nat.div_add_mod (X.length - size) stride
      have h2 : (X.length - size) % stride + (X.length - size) / stride * stride = X.length - size := by
        rw [Nat.mul_comm]; omega
      rw [h2, List.take_of_length_le (by simp; omega)]

/-- The last entry of the last window is the last sample. -/
theorem C01_last_sample {α : Type _} (X : List α) (size stride : Nat) (hs : 1 ≤ size) (ht : 1 ≤ stride)
    (h : size ≤ X.length) (W : List (List α)) (hW : slidingTransform size stride X = .ok W) :
    ∃ w, W.getLast? = some w ∧ w.length = size ∧ w.getLast? = X.getLast? := by
  obtain ⟨W', hW', hw⟩ := (C01_sliding_window_transform X size stride hs ht).2 h
  rw [hW] at hW'; cases hW'
  refine ⟨_, hw.last, by simp; omega, ?_⟩
  rw [List.getLast?_drop, if_neg (by omega)]

example : slidingTransform 3 3 [0, 1, 2, 3, 4, 5, 6, 7, 8, 9] = .ok [[1, 2, 3], [4, 5, 6], [7, 8, 9]] := by decide
example : slidingTransform 4 1 [0, 1, 2] = .error .valueError := by decide

/-! ### C02 -/

/-- **C02 (partial: `size ≥ 2`).** `resample` is aligned with `transform`: running `transform` on the time stamps
`0, …, n - 1` shows when each window ends, and the `i`-th resampled target is the target at that time.  Missing: `size = 1`,
where the property is false (see `C02_refuted`). -/
theorem C02_sliding_resample_aligned_partial {β : Type _} (y : List β) (size stride : Nat) (hs : 2 ≤ size) (ht : 1 ≤ stride)
    (W : List (List Nat)) (hW : slidingTransform size stride (List.range y.length) = .ok W) :
    (slidingResample size stride y).length = W.length ∧
    ∀ i, (h : i < W.length) → ∃ t, W[i].getLast? = some t ∧ t < y.length ∧ (slidingResample size stride y)[i]? = y[t]? := by
  by_cases hn : size ≤ y.length
  · rw [slidingTransform_ok _ _ _ (by simpa using hn)] at hW
    cases hW
    obtain ⟨hl, hg⟩ := backSlice y (size - 1) stride ht (by omega) (by omega)
    have hcast : (((size - 1 : Nat) : Int) - 1) = (size : Int) - 2 := by omega
    have hdiv : y.length - 1 - (size - 1) = y.length - size := by omega
    simp only [hcast, hdiv] at hl hg
    unfold slidingResample
    refine ⟨by simpa using hl, ?_⟩
    intro i hi
    simp only [List.length_map, List.length_range] at hi
    have hend := window_end_le _ _ stride i hn hi
    have hwl : (((List.range y.length).drop ((y.length - size) % stride + i * stride)).take size).length = size := by
      simp; omega
    refine ⟨(y.length - size) % stride + i * stride + (size - 1), ?_, by omega, hg i hi⟩
    simp only [List.length_range, List.getElem_map, List.getElem_range]
    rw [List.getLast?_eq_getElem?, hwl, List.getElem?_take, if_pos (by omega), List.getElem?_drop,
      List.getElem?_range (by omega)]
  · have := (C01_sliding_window_transform (List.range y.length) size stride (by omega) ht).1 (by simpa using hn)
    rw [this] at hW; cases hW

example : slidingTransform 4 2 (List.range 7) = .ok [[1, 2, 3, 4], [3, 4, 5, 6]] ∧
    slidingResample 4 2 ["a", "b", "c", "d", "e", "f", "g"] = ["e", "g"] := by decide

/-- With `size = 1` (allowed by validation), `resample` always returns an empty array. -/
theorem C02_size_one_resample_empty {β : Type _} (y : List β) (stride : Nat) (ht : 1 ≤ stride) :
    slidingResample 1 stride y = [] := by
  unfold slidingResample
  have : (((1 : Nat) : Int) - 2) = -1 := by norm_num
  rw [this]
  exact backSlice_neg_one y stride ht

/-- **C02 is false of the code at `size = 1`**: `transform` returns `n ≥ 1` windows while `resample` returns no target. -/
theorem C02_refuted : ¬ ∀ (y : List Nat) (size stride : Nat), 1 ≤ size → 1 ≤ stride →
    ∀ W, slidingTransform size stride (List.range y.length) = .ok W → (slidingResample size stride y).length = W.length := by
  intro h
  have := h [5, 6, 7] 1 1 (by decide) (by decide) [[0], [1], [2]] (by decide)
  exact absurd this (by decide)

/-! ### C03 -/

/-- **C03.** Each pair `(a, b)` of `slice_windows` delimits the corresponding window of `transform`: `X[a:b]`. -/
theorem C03_slice_windows {α : Type _} (X : List α) (size stride : Nat) (hs : 1 ≤ size) (ht : 1 ≤ stride)
    (h : size ≤ X.length) :
    ∃ (S : List (Int × Int)) (W : List (List α)), sliceWindows X.length size stride = .ok S ∧
      slidingTransform size stride X = .ok W ∧
      W = S.map (fun p => pySlice (some p.1) (some p.2) 1 X) ∧
      ∀ p ∈ S, 0 ≤ p.1 ∧ p.2 = p.1 + size ∧ p.2 ≤ X.length := by
  refine ⟨(List.range ((X.length - size) / stride + 1)).map (fun (i : Nat) =>
      ((((X.length - size) % stride + i * stride : Nat) : Int),
        (((X.length - size) % stride + i * stride + size : Nat) : Int))), _, ?_, slidingTransform_ok X size stride h, ?_, ?_⟩
  · unfold sliceWindows
    rw [windowIndices_ok _ _ _ h]
    show List.mapM _ _ = _
    rw [mapM_ok_iff, List.forall₂_map_left_iff, List.forall₂_map_right_iff, List.forall₂_same]
    intro i _
    generalize (X.length - size) % stride + i * stride = a
    have h0 : npIndex ((List.range size).map fun (j : Nat) => ((a + j : Nat) : Int)) 0 = .ok ((a : Nat) : Int) := by
      rw [npIndex_ok_iff]; exact ⟨0, Or.inl rfl, by simp; omega, by simp⟩
    have h1 : npIndex ((List.range size).map fun (j : Nat) => ((a + j : Nat) : Int)) (-1)
        = .ok ((a + (size - 1) : Nat) : Int) := by
      rw [npIndex_ok_iff]
      exact ⟨size - 1, Or.inr (by simp; omega), by simp; omega, by simp⟩
    rw [h0, h1]
    show Except.ok _ = Except.ok _
    rw [Except.ok.injEq, Prod.mk.injEq]
    constructor <;> omega
  · rw [List.map_map]
    apply List.map_congr_left
    intro i hi
    rw [List.mem_range] at hi
    have hend := window_end_le _ _ _ _ h hi
    simp only [Function.comp]
    generalize (X.length - size) % stride + i * stride = a at hend
    have hst : sliceStart (X.length : Int) 1 (some (a : Int)) = a := by
      simp only [sliceStart, adjustBound]; split <;> split <;> (try split) <;> omega
    have hsp : sliceStop (X.length : Int) 1 (some ((a + size : Nat) : Int)) = ((a + size : Nat) : Int) := by
      simp only [sliceStop, adjustBound]; split <;> split <;> (try split) <;> omega
    have hlen : sliceLen (a : Int) ((a + size : Nat) : Int) 1 = size := by
      simp only [sliceLen, Int.reduceLT, if_false, Int.ediv_one]; split <;> omega
    apply List.ext_getElem?
    intro k
    by_cases hk : k < size
    · rw [getElem?_pySlice _ _ _ (by omega) _ _ (by rw [hst, hsp, hlen]; exact hk), hst, List.getElem?_take,
        if_pos hk, List.getElem?_drop]
      congr 1; omega
    · have h2 := length_pySlice (some (a : Int)) (some ((a + size : Nat) : Int)) 1 (by omega) X
      rw [hst, hsp, hlen] at h2
      rw [List.getElem?_eq_none (by simp; omega), List.getElem?_eq_none (by omega)]
  · intro p hp
    simp only [List.mem_map, List.mem_range] at hp
    obtain ⟨i, hi, rfl⟩ := hp
    have hend := window_end_le _ _ _ _ h hi
    refine ⟨by simp only; omega, by simp only; push_cast; ring, by simp only; omega⟩

example : sliceWindows 7 4 2 = .ok [(1, 5), (3, 7)] := by decide

/-! ### C04 -/

/-- **C04.** Univariate Takens embedding: `ValueError` exactly when the series is too short, otherwise the documented points; the
first coordinate of the first point is the first sample when `ensure_last_value` is `False`. -/
theorem C04_takens_univariate {α : Type _} (X : List α) (τ d stride : Nat) (ensureLast : Bool)
    (hd : 1 ≤ d) (ht : 1 ≤ stride) :
    (X.length ≤ τ * (d - 1) → takens1 τ d stride ensureLast X = .error .valueError) ∧
    (τ * (d - 1) < X.length → ∃ E first, takens1 τ d stride ensureLast X = .ok E ∧
      IsDelayEmbedding τ d stride first X E ∧
      (ensureLast = false → first = 0) ∧
      (ensureLast = true → first + (E.length - 1) * stride + (d - 1) * τ + 1 = X.length)) := by
  constructor
  · intro h
    unfold takens1
    rw [takensIndices_err _ _ _ _ _ ht hd h]; rfl
  · intro h
    obtain ⟨E, hE, hspec⟩ := takens1_ok X τ d stride ensureLast hd h
    refine ⟨E, _, hE, hspec, ?_, ?_⟩
    · rintro rfl; rfl
    · rintro rfl
      rw [hspec.count, if_pos rfl, Nat.add_sub_cancel]
      have h1 := Nat.div_add_mod (X.length - τ * (d - 1) - 1) stride
      have h2 : (X.length - τ * (d - 1) - 1) / stride * stride = stride * ((X.length - τ * (d - 1) - 1) / stride) :=
        Nat.mul_comm _ _
      have h3 : (d - 1) * τ = τ * (d - 1) := Nat.mul_comm _ _
      omega

/-- With `ensure_last_value`, the last coordinate of the last vector is the last sample. -/
theorem C04_last_value {α : Type _} (X : List α) (τ d stride : Nat) (hd : 1 ≤ d) (ht : 1 ≤ stride)
    (h : τ * (d - 1) < X.length) :
    ∃ E e, takens1 τ d stride true X = .ok E ∧ E.getLast? = some e ∧ e.getLast? = X.getLast? := by
  obtain ⟨E, first, hE, hs, -, hl⟩ := (C04_takens_univariate X τ d stride true hd ht).2 h
  have hpos : 0 < E.length := by rw [hs.count]; exact Nat.succ_pos _
  refine ⟨E, E[E.length - 1], hE, ?_, ?_⟩
  · rw [List.getLast?_eq_getElem?]; simp [hpos]
  · have hdim := hs.dims (E.length - 1) (by omega)
    have hco := (hs.coords (E.length - 1) (by omega) (d - 1) (by omega)).2
    have := hl rfl
    rw [List.getLast?_eq_getElem?, hdim, hco, List.getLast?_eq_getElem?]
    congr 1; omega

example : takens1 2 3 2 true (List.range 10) = .ok [[1, 3, 5], [3, 5, 7], [5, 7, 9]] := by decide
example : takens1 2 3 2 false (List.range 10) = .ok [[0, 2, 4], [2, 4, 6], [4, 6, 8]] := by decide
example : takens1 2 3 2 true (List.range 4) = .error .valueError := by decide

/-! ### C05 -/

/-- **C05 (partial: `dimension ≥ 2`).** `SingleTakensEmbedding.resample` is aligned with `transform`; as in C02, `transform` is run on
the time stamps to say when the last coordinate of each vector is observed.  Missing: `dimension = 1`, where it is false. -/
theorem C05_takens_resample_aligned_partial {β : Type _} (y : List β) (τ d stride : Nat) (hτ : 1 ≤ τ) (hd : 2 ≤ d)
    (ht : 1 ≤ stride) (E : List (List Nat)) (hE : singleTakensTransform τ d stride (List.range y.length) = .ok E) :
    (singleTakensResample τ d stride y).length = E.length ∧
    ∀ i, (h : i < E.length) → ∃ t, E[i].getLast? = some t ∧ t < y.length ∧
      (singleTakensResample τ d stride y)[i]? = y[t]? := by
  by_cases hn : τ * (d - 1) < y.length
  · obtain ⟨E', hE', hs⟩ := takens1_ok (List.range y.length) τ d stride true (by omega) (by simpa using hn)
    unfold singleTakensTransform at hE
    rw [hE] at hE'; cases hE'
    simp only [List.length_range, if_true] at hs
    have hb : 1 ≤ τ * (d - 1) := Nat.mul_pos hτ (by omega)
    obtain ⟨hl, hg⟩ := backSlice y (τ * (d - 1)) stride ht hb hn
    have hc := hs.count
    have hdiv : y.length - 1 - τ * (d - 1) = y.length - τ * (d - 1) - 1 := by omega
    simp only [List.length_range] at hc
    rw [hdiv] at hl hg
    have hfi : ((τ : Int) * ((d : Int) - 1) - 1) = ((τ * (d - 1) : Nat) : Int) - 1 := by
      have : ((d : Int) - 1) = ((d - 1 : Nat) : Int) := by omega
      rw [this]; push_cast; ring
    unfold singleTakensResample
    simp only [hfi]
    refine ⟨by rw [hl, hc], ?_⟩
    intro i hi
    have hdim := hs.dims i hi
    obtain ⟨hlt, hco⟩ := hs.coords i hi (d - 1) (by omega)
    rw [List.length_range] at hlt
    rw [List.getElem?_range hlt] at hco
    have hcomm : (d - 1) * τ = τ * (d - 1) := Nat.mul_comm _ _
    refine ⟨_, ?_, hlt, ?_⟩
    · rw [List.getLast?_eq_getElem?, hdim]; exact hco
    · rw [hg i (by omega), hcomm]
  · have := (C04_takens_univariate (List.range y.length) τ d stride true (by omega) ht).1 (by simpa using hn)
    unfold singleTakensTransform at hE
    rw [this] at hE; cases hE

example : singleTakensTransform 2 3 2 (List.range 10) = .ok [[1, 3, 5], [3, 5, 7], [5, 7, 9]] ∧
    singleTakensResample 2 3 2 (List.range 10) = [5, 7, 9] := by decide

/-- With `dimension = 1` (allowed with `parameters_type='fixed'`), `resample` always returns an empty array. -/
theorem C05_dimension_one_resample_empty {β : Type _} (y : List β) (τ stride : Nat) (ht : 1 ≤ stride) :
    singleTakensResample τ 1 stride y = [] := by
  unfold singleTakensResample
  have : ((τ : Int) * (((1 : Nat) : Int) - 1) - 1) = -1 := by simp
  simp only [this]
  exact backSlice_neg_one y stride ht

/-- **C05 is false of the code at `dimension = 1`.** -/
theorem C05_refuted : ¬ ∀ (y : List Nat) (τ d stride : Nat), 1 ≤ τ → 1 ≤ d → 1 ≤ stride →
    ∀ E, singleTakensTransform τ d stride (List.range y.length) = .ok E →
      (singleTakensResample τ d stride y).length = E.length := by
  intro h
  have := h [5, 6, 7] 1 1 1 (by decide) (by decide) (by decide) [[0], [1], [2]] (by decide)
  exact absurd this (by decide)

/-! ### C06 -/

/-- **C06.** Multivariate Takens embedding of one entry with `n_variables` rows of equal length: with `flatten=False` it is the
univariate embedding of each variable. -/
theorem C06_takens_multi {α : Type _} (x : List (List α)) (τ d stride nT : Nat) (ensureLast : Bool)
    (hx : ∀ row ∈ x, row.length = nT) (E : List (List (List α))) (hE : takensMulti τ d stride ensureLast nT x = .ok E) :
    E.length = x.length ∧ ∀ v, (h1 : v < x.length) → (h2 : v < E.length) →
      takens1 τ d stride ensureLast x[v] = .ok E[v] := by
  unfold takensMulti at hE
  cases hidx : takensIndices nT τ d stride ensureLast with
  | error e => rw [hidx] at hE; cases hE
  | ok idx =>
    rw [hidx] at hE
    replace hE : List.mapM (fun row => idx.mapM (fancy row)) x = .ok E := hE
    rw [mapM_ok_iff] at hE
    refine ⟨hE.length_eq.symm, ?_⟩
    intro v h1 h2
    have := (List.forall₂_iff_get.1 hE).2 v h1 h2
    simp only [List.get_eq_getElem] at this
    unfold takens1
    rw [hx _ (List.getElem_mem h1), hidx]
    exact this

/-- **C06.** With `flatten=True`, entry `v * dimension + k` of point `p` is variable `v` at the time of coordinate `k` of point `p`. -/
theorem C06_takens_flatten_layout {α : Type _} (x : List (List α)) (τ d stride nT : Nat) (ensureLast : Bool)
    (hd : 1 ≤ d) (hx : ∀ row ∈ x, row.length = nT) (hn : τ * (d - 1) < nT) :
    ∃ F first, takensMultiFlat τ d stride ensureLast nT x = .ok F ∧
      F.length = (nT - τ * (d - 1) - 1) / stride + 1 ∧
      (ensureLast = false → first = 0) ∧
      (ensureLast = true → first + (F.length - 1) * stride + (d - 1) * τ + 1 = nT) ∧
      ∀ p, (hp : p < F.length) → F[p].length = x.length * d ∧
        ∀ v, (hv : v < x.length) → ∀ k, k < d →
          F[p][v * d + k]? = x[v][first + p * stride + k * τ]? ∧ first + p * stride + k * τ < nT := by
  have hidx := takensIndices_ok nT τ d stride ensureLast hd hn
  have hrow : ∀ row ∈ x, ∃ E, takens1 τ d stride ensureLast row = .ok E ∧ IsDelayEmbedding τ d stride
      (if ensureLast then (nT - τ * (d - 1) - 1) % stride else 0) row E := by
    intro row hr
    have := takens1_ok row τ d stride ensureLast hd (by rw [hx row hr]; exact hn)
    rwa [hx row hr] at this
  have hE : ∃ E, takensMulti τ d stride ensureLast nT x = .ok E ∧ List.Forall₂ (fun row e =>
      IsDelayEmbedding τ d stride (if ensureLast then (nT - τ * (d - 1) - 1) % stride else 0) row e) x E := by
    have : ∃ E, List.Forall₂ (fun row e => takens1 τ d stride ensureLast row = .ok e ∧
        IsDelayEmbedding τ d stride (if ensureLast then (nT - τ * (d - 1) - 1) % stride else 0) row e) x E := by
      clear hx
      induction x with
      | nil => exact ⟨[], .nil⟩
      | cons a t ih =>
        obtain ⟨E, hE⟩ := ih (fun row hr => hrow row (by simp [hr]))
        obtain ⟨e, he⟩ := hrow a (by simp)
        exact ⟨e :: E, .cons he hE⟩
    obtain ⟨E, hE⟩ := this
    refine ⟨E, ?_, hE.imp (fun _ _ h => h.2)⟩
    unfold takensMulti
    rw [hidx]
    show List.mapM _ x = _
    rw [mapM_ok_iff]
    rw [List.forall₂_iff_get] at hE ⊢
    refine ⟨hE.1, fun i h1 h2 => ?_⟩
    have := (hE.2 i h1 h2).1
    unfold takens1 at this
    rw [hx (x.get ⟨i, h1⟩) (List.getElem_mem h1), hidx] at this
    exact this
  obtain ⟨E, hE, hspec⟩ := hE
  rw [List.forall₂_iff_get] at hspec
  simp only [List.get_eq_getElem] at hspec
  obtain ⟨hEl, hspec⟩ := hspec
  have hElen : ∀ e ∈ E, e.length = (nT - τ * (d - 1) - 1) / stride + 1 := by
    intro e he
    obtain ⟨i, hi, rfl⟩ := List.getElem_of_mem he
    have := (hspec i (by omega) hi).count
    rw [hx _ (List.getElem_mem _)] at this
    exact this
  have hEdim : ∀ e ∈ E, ∀ q ∈ e, q.length = d := by
    intro e he q hq
    obtain ⟨i, hi, rfl⟩ := List.getElem_of_mem he
    obtain ⟨j, hj, rfl⟩ := List.getElem_of_mem hq
    exact (hspec i (by omega) hi).dims j hj
  refine ⟨(swapAxes ((nT - τ * (d - 1) - 1) / stride + 1) E).map ravel,
    (if ensureLast then (nT - τ * (d - 1) - 1) % stride else 0), ?_, ?_, ?_, ?_, ?_⟩
  · unfold takensMultiFlat
    rw [hE, hidx]
    show Except.ok _ = Except.ok _
    simp
  · simp [swapAxes]
  · rintro rfl; rfl
  · rintro rfl
    have h1 := Nat.div_add_mod (nT - τ * (d - 1) - 1) stride
    have h2 : (nT - τ * (d - 1) - 1) / stride * stride = stride * ((nT - τ * (d - 1) - 1) / stride) := Nat.mul_comm _ _
    have h3 : (d - 1) * τ = τ * (d - 1) := Nat.mul_comm _ _
    simp only [swapAxes, List.length_map, List.length_range, if_true, Nat.add_sub_cancel]
    omega
  · intro p hp
    simp only [swapAxes, List.length_map, List.length_range] at hp
    have hsome : ∀ e ∈ E, (e[p]?).isSome := by
      intro e he
      have := hElen e he
      simp; omega
    have hunif : ∀ q ∈ E.filterMap (fun r => r[p]?), q.length = d := by
      intro q hq
      simp only [List.mem_filterMap] at hq
      obtain ⟨e, he, heq⟩ := hq
      exact hEdim e he q (List.mem_of_getElem? heq)
    simp only [swapAxes, List.getElem_map, List.getElem_range, ravel]
    constructor
    · rw [length_flatten_uniform _ d hunif, length_filterMap_total _ _ hsome, hEl]
    · intro v hv k hk
      have hp' : p < (E[v]'(by omega)).length := by rw [hElen _ (List.getElem_mem _)]; exact hp
      obtain ⟨hlt, hco⟩ := (hspec v hv (by omega)).coords p hp' k hk
      rw [hx _ (List.getElem_mem _)] at hlt
      refine ⟨?_, hlt⟩
      rw [getElem?_flatten_uniform _ d hunif v k hk, getElem?_filterMap_total _ _ hsome]
      have hv' : v < E.length := by omega
      simp only [List.getElem?_eq_getElem hv', Option.bind_some, List.getElem?_eq_getElem hp']
      exact hco

example : takensMultiFlat 1 2 1 true 4 [[0, 1, 2, 3], [10, 11, 12, 13]] =
    .ok [[0, 1, 10, 11], [1, 2, 11, 12], [2, 3, 12, 13]] := by decide

end Gtda.Props
