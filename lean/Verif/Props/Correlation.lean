import Verif.Props.SeriesFeatures
import Mathlib.Analysis.InnerProductSpace.PiL2

set_option autoImplicit false
set_option linter.unusedSectionVars false

/-!
# Pearson dissimilarities as distances between time series (C149)

`pearson` (Pearson's correlation coefficient), `NonConstant` and `variableAt` are the vocabulary of C13, `Verif/Props/SeriesFeatures.lean`.
-/

namespace Gtda.Props
open Gtda.Py Gtda.Parallel Gtda.Diagrams Gtda.Series

/-- The dissimilarity of a correlation coefficient, as documented: `(1 - ρ) / 2`, or `1 - |ρ|` if `absolute_value=True`. -/
noncomputable def Correlation.dissimilarity (absoluteValue : Bool) (r : ℝ) : ℝ := if absoluteValue then 1 - |r| else (1 - r) / 2

/-! ### Values -/

/-- Sum of products of deviations. -/
noncomputable def Correlation.dev (T : Nat) (x y : Nat → ℝ) : ℝ := ∑ t ∈ Finset.range T, (x t - meanOf T x) * (y t - meanOf T y)

theorem Correlation.pearson_dev (T : Nat) (x y : Nat → ℝ) : pearson T x y = Correlation.dev T x y / (Real.sqrt (Correlation.dev T x x) * Real.sqrt (Correlation.dev T y y)) := by
  unfold pearson Correlation.dev
  simp only [pow_two]

theorem Correlation.dev_nonneg (T : Nat) (x : Nat → ℝ) : 0 ≤ Correlation.dev T x x := Finset.sum_nonneg fun _ _ => mul_self_nonneg _

theorem Correlation.dev_pos (T : Nat) (x : Nat → ℝ) (h : NonConstant T x) : 0 < Correlation.dev T x x := by
  have := sumSq_pos T x h
  unfold Correlation.dev
  simpa only [pow_two] using this

theorem Correlation.dev_zero (T : Nat) (x : Nat → ℝ) (h : ¬ NonConstant T x) : Correlation.dev T x x = 0 := by
  unfold Correlation.dev
  apply Finset.sum_eq_zero
  intro t ht
  have hT : 0 < T := by have := Finset.mem_range.1 ht; omega
  have hc : ∀ s, s < T → x s = x t := by
    intro s hs
    by_contra hne
    exact h ⟨s, hs, t, Finset.mem_range.1 ht, hne⟩
  have hm : meanOf T x = x t := by
    unfold meanOf
    rw [Finset.sum_congr rfl fun s hs => hc s (Finset.mem_range.1 hs)]
    have : (T : ℝ) ≠ 0 := by exact_mod_cast hT.ne'
    simp [this]
  rw [hm]
  simp

open Classical in
theorem Correlation.corrcoef_spec (x y : List ℝ) (h : x.length = y.length) :
    corrcoef x y = if NonConstant x.length (fun t => x[t]?.getD 0) ∧ NonConstant x.length (fun t => y[t]?.getD 0) then
      some (pearson x.length (fun t => x[t]?.getD 0) fun t => y[t]?.getD 0) else none := by
  split_ifs with hc
  · exact corrcoef_eq x y h hc.1 hc.2
  · unfold corrcoef
    apply if_pos
    by_cases hx : NonConstant x.length (fun t => x[t]?.getD 0)
    · have hy : ¬ NonConstant x.length (fun t => y[t]?.getD 0) := fun hy => hc ⟨hx, hy⟩
      right; right
      rw [cov_eq y y rfl, ← h]
      have := Correlation.dev_zero _ _ hy
      unfold Correlation.dev at this
      rw [this, zero_div]
    · right; left
      rw [cov_eq x x rfl]
      have := Correlation.dev_zero _ _ hx
      unfold Correlation.dev at this
      rw [this, zero_div]

open Classical in
/-- **C149**: all values, also for constant variables. The entry for variables `i` and `j` is NaN exactly if one of them is constant (or there are less than two time points), also on the diagonal; otherwise it is the
dissimilarity of their correlation coefficient, whatever the other variables are. -/
theorem C149_values (absoluteValue : Bool) (m : Nat) (x : List (List ℝ)) (hm : ∀ r ∈ x, r.length = m) (i j : Nat) (hi : i < m) (hj : j < m) :
    entry2 (pearsonDissimilarity absoluteValue m x) i j = some (if NonConstant x.length (variableAt x i) ∧ NonConstant x.length (variableAt x j) then
      some (Correlation.dissimilarity absoluteValue (pearson x.length (variableAt x i) (variableAt x j))) else none) := by
  obtain ⟨l1, e1⟩ := column_spec m x hm i hi
  obtain ⟨l2, e2⟩ := column_spec m x hm j hj
  have f1 : (fun t => (column x i)[t]?.getD 0) = variableAt x i := funext e1
  have f2 : (fun t => (column x j)[t]?.getD 0) = variableAt x j := funext e2
  have hcorr := Correlation.corrcoef_spec (column x i) (column x j) (by rw [l1, l2])
  rw [l1, f1, f2] at hcorr
  unfold pearsonDissimilarity entry2
  simp only [List.getElem?_map, List.getElem?_range hi, List.getElem?_range hj, Option.map_some, Option.bind_eq_bind, Option.bind_some, hcorr]
  congr 1
  by_cases hc : NonConstant x.length (variableAt x i) ∧ NonConstant x.length (variableAt x j)
  · rw [if_pos hc, if_pos hc]
    simp only [Option.map_some, Option.some.injEq]
    unfold Correlation.dissimilarity
    cases absoluteValue
    · simp only [Bool.false_eq_true, if_false]
      norm_num
      ring
    · rfl
  · rw [if_neg hc, if_neg hc]
    rfl

/-! ### Change of units -/

theorem Correlation.mean_affine (T : Nat) (hT : 0 < T) (x x' : Nat → ℝ) (a b : ℝ) (h : ∀ t, t < T → x' t = a * x t + b) : meanOf T x' = a * meanOf T x + b := by
  unfold meanOf
  rw [Finset.sum_congr rfl fun t ht => h t (Finset.mem_range.1 ht), Finset.sum_add_distrib, ← Finset.mul_sum]
  have : (T : ℝ) ≠ 0 := by exact_mod_cast hT.ne'
  simp only [Finset.sum_const, Finset.card_range, nsmul_eq_mul]
  field_simp

theorem Correlation.dev_affine (T : Nat) (x x' y y' : Nat → ℝ) (a b c d : ℝ) (hx : ∀ t, t < T → x' t = a * x t + b) (hy : ∀ t, t < T → y' t = c * y t + d) :
    Correlation.dev T x' y' = a * c * Correlation.dev T x y := by
  unfold Correlation.dev
  rw [Finset.mul_sum]
  apply Finset.sum_congr rfl
  intro t ht
  have ht := Finset.mem_range.1 ht
  rw [Correlation.mean_affine T (by omega) x x' a b hx, Correlation.mean_affine T (by omega) y y' c d hy, hx t ht, hy t ht]
  ring

theorem Correlation.nonConstant_affine (T : Nat) (x x' : Nat → ℝ) (a b : ℝ) (ha : a ≠ 0) (hx : ∀ t, t < T → x' t = a * x t + b) : NonConstant T x' ↔ NonConstant T x := by
  constructor
  · rintro ⟨s, hs, t, ht, hne⟩
    exact ⟨s, hs, t, ht, fun e => hne (by rw [hx s hs, hx t ht, e])⟩
  · rintro ⟨s, hs, t, ht, hne⟩
    refine ⟨s, hs, t, ht, fun e => hne ?_⟩
    rw [hx s hs, hx t ht] at e
    exact mul_left_cancel₀ ha (by linarith)

theorem Correlation.pearson_affine (T : Nat) (x x' y y' : Nat → ℝ) (a b c d : ℝ) (hx : ∀ t, t < T → x' t = a * x t + b) (hy : ∀ t, t < T → y' t = c * y t + d) :
    (0 < a * c → pearson T x' y' = pearson T x y) ∧ (a * c < 0 → pearson T x' y' = -pearson T x y) := by
  have key : pearson T x' y' = (a * c) * Correlation.dev T x y / (|a * c| * (Real.sqrt (Correlation.dev T x x) * Real.sqrt (Correlation.dev T y y))) := by
    rw [Correlation.pearson_dev, Correlation.dev_affine T x x' y y' a b c d hx hy, Correlation.dev_affine T x x' x x' a b a b hx hx, Correlation.dev_affine T y y' y y' c d c d hy hy,
      Real.sqrt_mul (mul_self_nonneg a), Real.sqrt_mul (mul_self_nonneg c), Real.sqrt_mul_self_eq_abs, Real.sqrt_mul_self_eq_abs, abs_mul]
    ring_nf
  constructor
  · intro h
    rw [key, abs_of_pos h, Correlation.pearson_dev, mul_div_mul_left _ _ (ne_of_gt h)]
  · intro h
    rw [key, abs_of_neg h, Correlation.pearson_dev, neg_mul, div_neg, mul_div_mul_left _ _ (ne_of_lt h)]

/-- **C149**: change of units. If each variable is multiplied by a number other than zero and shifted, the dissimilarities do not change with `absolute_value=True`; otherwise they do not change for pairs of variables
multiplied by numbers of the same sign, and `v` becomes `1 - v` for pairs multiplied by numbers of different signs. NaN stay NaN. -/
theorem C149_units (absoluteValue : Bool) (m : Nat) (x x' : List (List ℝ)) (hm : ∀ r ∈ x, r.length = m) (hm' : ∀ r ∈ x', r.length = m) (hT : x'.length = x.length) (a b : Nat → ℝ)
    (ha : ∀ j, j < m → a j ≠ 0) (h : ∀ j t, j < m → t < x.length → variableAt x' j t = a j * variableAt x j t + b j) (i j : Nat) (hi : i < m) (hj : j < m) :
    ∃ v : Option ℝ, entry2 (pearsonDissimilarity absoluteValue m x) i j = some v ∧
      entry2 (pearsonDissimilarity absoluteValue m x') i j = some (if absoluteValue = true ∨ 0 < a i * a j then v else v.map fun v => 1 - v) := by
  classical
  refine ⟨_, C149_values absoluteValue m x hm i j hi hj, ?_⟩
  rw [C149_values absoluteValue m x' hm' i j hi hj, hT, Correlation.nonConstant_affine _ _ _ (a i) (b i) (ha i hi) (fun t ht => h i t hi ht),
    Correlation.nonConstant_affine _ _ _ (a j) (b j) (ha j hj) (fun t ht => h j t hj ht)]
  obtain ⟨p1, p2⟩ := Correlation.pearson_affine x.length _ _ _ _ (a i) (b i) (a j) (b j) (fun t ht => h i t hi ht) (fun t ht => h j t hj ht)
  have hne : a i * a j ≠ 0 := mul_ne_zero (ha i hi) (ha j hj)
  congr 1
  by_cases hc : NonConstant x.length (variableAt x i) ∧ NonConstant x.length (variableAt x j)
  · simp only [if_pos hc]
    rcases lt_or_gt_of_ne hne with hs | hs
    · rw [p2 hs]
      cases absoluteValue
      · rw [if_neg (by simp [hs.le])]
        simp only [Correlation.dissimilarity, Bool.false_eq_true, if_false, Option.map_some, Option.some.injEq]
        ring
      · rw [if_pos (.inl rfl)]
        simp only [Correlation.dissimilarity, if_true, abs_neg]
    · rw [p1 hs, if_pos (.inr hs)]
  · simp only [if_neg hc]
    simp

/-! ### Order of time points and of variables -/

theorem Correlation.sum_rows (h : ℝ → ℝ → ℝ) (i j : Nat) (x : List (List ℝ)) :
    ∑ t ∈ Finset.range x.length, h (variableAt x i t) (variableAt x j t) = (x.map fun r => h (r[i]?.getD 0) (r[j]?.getD 0)).sum := by
  induction x with
  | nil => simp
  | cons r x ih =>
    rw [List.length_cons, Finset.sum_range_succ', List.map_cons, List.sum_cons, ← ih, add_comm]
    congr 1

theorem Correlation.nonConstant_rows (j : Nat) (x : List (List ℝ)) : NonConstant x.length (variableAt x j) ↔ ∃ r ∈ x, ∃ s ∈ x, r[j]?.getD 0 ≠ s[j]?.getD 0 := by
  have hget : ∀ t (ht : t < x.length), variableAt x j t = (x[t])[j]?.getD 0 := by
    intro t ht
    unfold variableAt
    rw [List.getElem?_eq_getElem ht]
    rfl
  constructor
  · rintro ⟨s, hs, t, ht, hne⟩
    rw [hget s hs, hget t ht] at hne
    exact ⟨_, List.getElem_mem hs, _, List.getElem_mem ht, hne⟩
  · rintro ⟨r, hr, s, hs, hne⟩
    obtain ⟨k, hk, rfl⟩ := List.getElem_of_mem hr
    obtain ⟨l, hl, rfl⟩ := List.getElem_of_mem hs
    refine ⟨k, hk, l, hl, ?_⟩
    rw [hget k hk, hget l hl]
    exact hne

theorem Correlation.mean_rows (j : Nat) (x : List (List ℝ)) : meanOf x.length (variableAt x j) = (x.map fun r => r[j]?.getD 0).sum / x.length := by
  unfold meanOf
  rw [Correlation.sum_rows (fun u _ => u) j j x]

theorem Correlation.dev_rows (i j : Nat) (x : List (List ℝ)) : Correlation.dev x.length (variableAt x i) (variableAt x j) =
    (x.map fun r => (r[i]?.getD 0 - (x.map fun r => r[i]?.getD 0).sum / x.length) * (r[j]?.getD 0 - (x.map fun r => r[j]?.getD 0).sum / x.length)).sum := by
  unfold Correlation.dev
  rw [Correlation.sum_rows (fun u v => (u - meanOf x.length (variableAt x i)) * (v - meanOf x.length (variableAt x j))) i j x, Correlation.mean_rows, Correlation.mean_rows]

/-- **C149**: the order of the time points does not matter (so neither does reading the series backwards). -/
theorem C149_time_order (absoluteValue : Bool) (m : Nat) (x x' : List (List ℝ)) (hm : ∀ r ∈ x, r.length = m) (h : x'.Perm x) :
    pearsonDissimilarity absoluteValue m x' = pearsonDissimilarity absoluteValue m x := by
  classical
  have hm' : ∀ r ∈ x', r.length = m := fun r hr => hm r (h.mem_iff.1 hr)
  have hent : ∀ i j, i < m → j < m → entry2 (pearsonDissimilarity absoluteValue m x') i j = entry2 (pearsonDissimilarity absoluteValue m x) i j := by
    intro i j hi hj
    rw [C149_values absoluteValue m x hm i j hi hj, C149_values absoluteValue m x' hm' i j hi hj]
    have hn : ∀ j, NonConstant x'.length (variableAt x' j) ↔ NonConstant x.length (variableAt x j) := by
      intro j
      rw [Correlation.nonConstant_rows, Correlation.nonConstant_rows]
      simp only [h.mem_iff]
    have hd : ∀ i j, Correlation.dev x'.length (variableAt x' i) (variableAt x' j) = Correlation.dev x.length (variableAt x i) (variableAt x j) := by
      intro i j
      rw [Correlation.dev_rows, Correlation.dev_rows, (h.map _).sum_eq, (h.map _).sum_eq, (h.map _).sum_eq, h.length_eq]
    simp only [hn, Correlation.pearson_dev, hd]
  unfold pearsonDissimilarity at hent ⊢
  apply List.map_congr_left
  intro i hi
  apply List.map_congr_left
  intro j hj
  have := hent i j (List.mem_range.1 hi) (List.mem_range.1 hj)
  unfold entry2 at this
  simpa [List.getElem?_map, List.getElem?_range (List.mem_range.1 hi), List.getElem?_range (List.mem_range.1 hj)] using this

/-- **C149**: the matrix of a choice `s` of variables (permuted, left out or repeated) is the same choice of rows and columns of the matrix. -/
theorem C149_variables (absoluteValue : Bool) (m : Nat) (x : List (List ℝ)) (hm : ∀ r ∈ x, r.length = m) (s : List Nat) (hs : ∀ k ∈ s, k < m) (i j k l : Nat) (hi : s[i]? = some k) (hj : s[j]? = some l) :
    entry2 (pearsonDissimilarity absoluteValue s.length (x.map fun r => s.map fun k => r[k]?.getD 0)) i j = entry2 (pearsonDissimilarity absoluteValue m x) k l := by
  classical
  have hi' := (List.getElem?_eq_some_iff.1 hi).1
  have hj' := (List.getElem?_eq_some_iff.1 hj).1
  rw [C149_values absoluteValue m x hm k l (hs k (List.mem_of_getElem? hi)) (hs l (List.mem_of_getElem? hj)), C149_values absoluteValue s.length _ (by
    intro r hr
    obtain ⟨r', -, rfl⟩ := List.mem_map.1 hr
    simp) i j hi' hj']
  have hv : ∀ (i k : Nat), s[i]? = some k → variableAt (x.map fun r => s.map fun k => r[k]?.getD 0) i = variableAt x k := by
    intro i k hik
    funext t
    unfold variableAt
    rw [List.getElem?_map]
    cases x[t]? with
    | none => rfl
    | some r => simp [hik]
  rw [hv i k hi, hv j l hj, List.length_map]

/-! ### The metric behind the dissimilarity -/

/-- Distances of directions: unit vectors up to a positive factor, or up to sign. -/
theorem Correlation.triangle {E : Type} [NormedAddCommGroup E] [InnerProductSpace ℝ E] (u v w : E) (hu : ‖u‖ = 1) (hv : ‖v‖ = 1) (hw : ‖w‖ = 1) (absoluteValue : Bool) :
    Real.sqrt (Correlation.dissimilarity absoluteValue (inner ℝ u w)) ≤
      Real.sqrt (Correlation.dissimilarity absoluteValue (inner ℝ u v)) + Real.sqrt (Correlation.dissimilarity absoluteValue (inner ℝ v w)) := by
  have hsq : ∀ a b : E, ‖a‖ = 1 → ‖b‖ = 1 → ‖a - b‖ ^ 2 = 2 * (1 - inner ℝ a b) := by
    intro a b ha hb
    rw [norm_sub_sq_real, ha, hb]
    ring
  have hroot : ∀ (a b : E) (k : ℝ), 0 ≤ k → ‖a‖ = 1 → ‖b‖ = 1 → Real.sqrt (k ^ 2 * 2 * (1 - inner ℝ a b)) = k * ‖a - b‖ := by
    intro a b k hk ha hb
    rw [mul_assoc, ← hsq a b ha hb, ← mul_pow, Real.sqrt_sq (mul_nonneg hk (norm_nonneg _))]
  cases absoluteValue
  · have h2 : ∀ a b : E, ‖a‖ = 1 → ‖b‖ = 1 → Real.sqrt (Correlation.dissimilarity false (inner ℝ a b)) = 1 / 2 * ‖a - b‖ := by
      intro a b ha hb
      rw [← hroot a b (1 / 2) (by norm_num) ha hb]
      unfold Correlation.dissimilarity
      congr 1
      simp only [Bool.false_eq_true, if_false]
      ring
    rw [h2 u w hu hw, h2 u v hu hv, h2 v w hv hw]
    have := norm_sub_le_norm_sub_add_norm_sub u v w
    linarith
  · have hk : (0 : ℝ) ≤ Real.sqrt (1 / 2) := Real.sqrt_nonneg _
    have hk2 : Real.sqrt (1 / 2) ^ 2 = 1 / 2 := Real.sq_sqrt (by norm_num)
    -- for one sign the distance is reached, for the other one it is at least the root
    have h3 : ∀ a b : E, ‖a‖ = 1 → ‖b‖ = 1 → (Real.sqrt (Correlation.dissimilarity true (inner ℝ a b)) = Real.sqrt (1 / 2) * ‖a - b‖ ∨
        Real.sqrt (Correlation.dissimilarity true (inner ℝ a b)) = Real.sqrt (1 / 2) * ‖a + b‖) ∧
        Real.sqrt (Correlation.dissimilarity true (inner ℝ a b)) ≤ Real.sqrt (1 / 2) * ‖a - b‖ ∧ Real.sqrt (Correlation.dissimilarity true (inner ℝ a b)) ≤ Real.sqrt (1 / 2) * ‖a + b‖ := by
      intro a b ha hb
      have e1 : Real.sqrt (1 / 2) * ‖a - b‖ = Real.sqrt (1 - inner ℝ a b) := by
        rw [← hroot a b _ hk ha hb, hk2]
        congr 1
        ring
      have e2 : Real.sqrt (1 / 2) * ‖a + b‖ = Real.sqrt (1 + inner ℝ a b) := by
        have := hroot a (-b) _ hk ha (by rw [norm_neg]; exact hb)
        rw [sub_neg_eq_add, inner_neg_right] at this
        rw [← this, hk2]
        congr 1
        ring
      rw [e1, e2]
      unfold Correlation.dissimilarity
      simp only [if_true]
      refine ⟨?_, Real.sqrt_le_sqrt (by linarith [le_abs_self (inner ℝ a b)]), Real.sqrt_le_sqrt (by linarith [neg_le_abs (inner ℝ a b)])⟩
      rcases abs_cases (inner ℝ a b) with ⟨h, -⟩ | ⟨h, -⟩
      · left; rw [h]
      · right; rw [h]; congr 1; ring
    obtain ⟨-, b1, b2⟩ := h3 u w hu hw
    obtain ⟨c1, -⟩ := h3 u v hu hv
    obtain ⟨d1, -⟩ := h3 v w hv hw
    have t1 := norm_sub_le_norm_sub_add_norm_sub u v w
    have t2 : ‖u + w‖ ≤ ‖u - v‖ + ‖v + w‖ := by
      have := norm_add_le (u - v) (v + w)
      rwa [show u - v + (v + w) = u + w by abel] at this
    have t3 : ‖u + w‖ ≤ ‖u + v‖ + ‖v - w‖ := by
      have := norm_sub_le (u + v) (v - w)
      rwa [show u + v - (v - w) = u + w by abel] at this
    have t4 : ‖u - w‖ ≤ ‖u + v‖ + ‖v + w‖ := by
      have := norm_sub_le (u + v) (v + w)
      rwa [show u + v - (v + w) = u - w by abel] at this
    rcases c1 with c1 | c1 <;> rcases d1 with d1 | d1 <;> rw [c1, d1, ← mul_add]
    · exact b1.trans (mul_le_mul_of_nonneg_left t1 hk)
    · exact b2.trans (mul_le_mul_of_nonneg_left t2 hk)
    · exact b2.trans (mul_le_mul_of_nonneg_left t3 hk)
    · exact b1.trans (mul_le_mul_of_nonneg_left t4 hk)

/-- The standardised series as a unit vector. -/
noncomputable def Correlation.unit (T : Nat) (x : Nat → ℝ) : EuclideanSpace ℝ (Fin T) := WithLp.toLp 2 fun t => (x t - meanOf T x) / Real.sqrt (Correlation.dev T x x)

theorem Correlation.inner_unit (T : Nat) (x y : Nat → ℝ) : inner ℝ (Correlation.unit T x) (Correlation.unit T y) = pearson T x y := by
  rw [Correlation.pearson_dev, PiLp.inner_apply]
  simp only [Correlation.unit, RCLike.inner_apply, conj_trivial]
  rw [Finset.sum_fin_eq_sum_range]
  unfold Correlation.dev
  rw [Finset.sum_div]
  apply Finset.sum_congr rfl
  intro t ht
  rw [dif_pos (Finset.mem_range.1 ht), mul_comm, div_mul_div_comm]

theorem Correlation.pearson_self (T : Nat) (x : Nat → ℝ) (h : NonConstant T x) : pearson T x x = 1 := by
  have := Correlation.dev_pos T x h
  rw [Correlation.pearson_dev, Real.mul_self_sqrt this.le, div_self (ne_of_gt this)]

theorem Correlation.norm_unit (T : Nat) (x : Nat → ℝ) (h : NonConstant T x) : ‖Correlation.unit T x‖ = 1 := by
  have h1 := real_inner_self_eq_norm_sq (Correlation.unit T x)
  rw [Correlation.inner_unit, Correlation.pearson_self T x h] at h1
  have h2 := norm_nonneg (Correlation.unit T x)
  nlinarith

/-- Correlation one: the series differ by units only. -/
theorem Correlation.eq_one (T : Nat) (x y : Nat → ℝ) (hx : NonConstant T x) (hy : NonConstant T y) :
    pearson T x y = 1 ↔ ∃ a b : ℝ, 0 < a ∧ ∀ t, t < T → y t = a * x t + b := by
  constructor
  · intro h
    have hd : ‖Correlation.unit T x - Correlation.unit T y‖ ^ 2 = 0 := by
      rw [norm_sub_sq_real, Correlation.norm_unit T x hx, Correlation.norm_unit T y hy, Correlation.inner_unit, h]
      norm_num
    have he : Correlation.unit T x = Correlation.unit T y := by
      rw [← sub_eq_zero, ← norm_eq_zero]
      exact pow_eq_zero_iff (by norm_num) |>.1 hd
    have px := Real.sqrt_pos.2 (Correlation.dev_pos T x hx)
    have py := Real.sqrt_pos.2 (Correlation.dev_pos T y hy)
    refine ⟨Real.sqrt (Correlation.dev T y y) / Real.sqrt (Correlation.dev T x x), meanOf T y - Real.sqrt (Correlation.dev T y y) / Real.sqrt (Correlation.dev T x x) * meanOf T x, div_pos py px, ?_⟩
    intro t ht
    have := congrFun (congrArg WithLp.ofLp he) ⟨t, ht⟩
    simp only [Correlation.unit] at this
    field_simp at this ⊢
    linarith
  · rintro ⟨a, b, ha, h⟩
    have := (Correlation.pearson_affine T x x x y 1 0 a b (fun t _ => by ring) h).1 (by linarith)
    rw [this, Correlation.pearson_self T x hx]

theorem Correlation.eq_neg_one (T : Nat) (x y : Nat → ℝ) (hx : NonConstant T x) (hy : NonConstant T y) :
    pearson T x y = -1 ↔ ∃ a b : ℝ, a < 0 ∧ ∀ t, t < T → y t = a * x t + b := by
  have hy' : NonConstant T fun t => -1 * y t + 0 := (Correlation.nonConstant_affine T y _ (-1) 0 (by norm_num) fun t _ => rfl).2 hy
  have h1 := Correlation.eq_one T x (fun t => -1 * y t + 0) hx hy'
  have h2 := (Correlation.pearson_affine T x x y (fun t => -1 * y t + 0) 1 0 (-1) 0 (fun t _ => by ring) fun t _ => rfl).2 (by norm_num)
  rw [h2] at h1
  constructor
  · intro h
    obtain ⟨a, b, ha, hab⟩ := h1.1 (by rw [h]; norm_num)
    exact ⟨-a, -b, by linarith, fun t ht => by have := hab t ht; linarith⟩
  · rintro ⟨a, b, ha, hab⟩
    have := h1.2 ⟨-a, -b, by linarith, fun t ht => by rw [hab t ht]; ring⟩
    linarith

/-- **C149**: the square roots of the dissimilarities of non-constant variables satisfy the triangle inequality. A dissimilarity is `0` exactly for variables which differ by units only (scale and shift; with
`absolute_value=True` the scale may be negative), and `1` exactly for variables which differ by units of opposite sign, or, with `absolute_value=True`, for uncorrelated variables. -/
theorem C149_metric (absoluteValue : Bool) (m : Nat) (x : List (List ℝ)) (hm : ∀ r ∈ x, r.length = m) (hc : ∀ j, j < m → NonConstant x.length (variableAt x j)) :
    ∃ d : Nat → Nat → ℝ, (∀ i j, i < m → j < m → entry2 (pearsonDissimilarity absoluteValue m x) i j = some (some (d i j))) ∧
      (∀ i j k, i < m → j < m → k < m → Real.sqrt (d i k) ≤ Real.sqrt (d i j) + Real.sqrt (d j k)) ∧
      (∀ i j, i < m → j < m → (d i j = 0 ↔ ∃ a b : ℝ, (if absoluteValue then a ≠ 0 else 0 < a) ∧ ∀ t, t < x.length → variableAt x j t = a * variableAt x i t + b)) ∧
      (∀ i j, i < m → j < m → (d i j = 1 ↔ if absoluteValue then ∑ t ∈ Finset.range x.length, (variableAt x i t - meanOf x.length (variableAt x i)) * (variableAt x j t - meanOf x.length (variableAt x j)) = 0
        else ∃ a b : ℝ, a < 0 ∧ ∀ t, t < x.length → variableAt x j t = a * variableAt x i t + b)) := by
  classical
  refine ⟨fun i j => Correlation.dissimilarity absoluteValue (pearson x.length (variableAt x i) (variableAt x j)), ?_, ?_, ?_, ?_⟩
  · intro i j hi hj
    rw [C149_values absoluteValue m x hm i j hi hj, if_pos ⟨hc i hi, hc j hj⟩]
  · intro i j k hi hj hk
    have := Correlation.triangle _ _ _ (Correlation.norm_unit _ _ (hc i hi)) (Correlation.norm_unit _ _ (hc j hj)) (Correlation.norm_unit _ _ (hc k hk)) absoluteValue
    simpa only [Correlation.inner_unit] using this
  · intro i j hi hj
    have h1 := Correlation.eq_one x.length _ _ (hc i hi) (hc j hj)
    have h2 := Correlation.eq_neg_one x.length _ _ (hc i hi) (hc j hj)
    cases absoluteValue
    · simp only [Correlation.dissimilarity, Bool.false_eq_true, if_false]
      rw [← h1]
      constructor <;> intro h <;> linarith
    · simp only [Correlation.dissimilarity, if_true]
      have : 1 - |pearson x.length (variableAt x i) (variableAt x j)| = 0 ↔ pearson x.length (variableAt x i) (variableAt x j) = 1 ∨ pearson x.length (variableAt x i) (variableAt x j) = -1 := by
        rw [← abs_eq (by norm_num : (0 : ℝ) ≤ 1)]
        constructor <;> intro h <;> linarith
      rw [this, h1, h2]
      constructor
      · rintro (⟨a, b, ha, h⟩ | ⟨a, b, ha, h⟩)
        · exact ⟨a, b, ne_of_gt ha, h⟩
        · exact ⟨a, b, ne_of_lt ha, h⟩
      · rintro ⟨a, b, ha, h⟩
        rcases lt_or_gt_of_ne ha with ha | ha
        · exact .inr ⟨a, b, ha, h⟩
        · exact .inl ⟨a, b, ha, h⟩
  · intro i j hi hj
    have h2 := Correlation.eq_neg_one x.length _ _ (hc i hi) (hc j hj)
    cases absoluteValue
    · simp only [Correlation.dissimilarity, Bool.false_eq_true, if_false]
      rw [← h2]
      constructor <;> intro h <;> linarith
    · simp only [Correlation.dissimilarity, if_true]
      have hpos := mul_pos (Real.sqrt_pos.2 (Correlation.dev_pos _ _ (hc i hi))) (Real.sqrt_pos.2 (Correlation.dev_pos _ _ (hc j hj)))
      have : 1 - |pearson x.length (variableAt x i) (variableAt x j)| = 1 ↔ pearson x.length (variableAt x i) (variableAt x j) = 0 := by
        rw [← abs_eq_zero]
        constructor <;> intro h <;> linarith
      rw [this, Correlation.pearson_dev, div_eq_zero_iff]
      simp only [ne_of_gt hpos, or_false]
      rfl

/-! ### Examples -/

/-- Three variables at four time points. -/
def Correlation.exX : List (List ℝ) := [[1, 1, 0], [-1, -1, 0], [0, 1, 1], [0, -1, -1]]

/-- Non-vacuity of `C149_metric`. -/
theorem Correlation.ex_nonConstant : (∀ r ∈ Correlation.exX, r.length = 3) ∧ ∀ j, j < 3 → NonConstant Correlation.exX.length (variableAt Correlation.exX j) := by
  refine ⟨by simp [Correlation.exX], ?_⟩
  intro j hj
  rcases (by omega : j = 0 ∨ j = 1 ∨ j = 2) with rfl | rfl | rfl
  · exact ⟨0, by simp [Correlation.exX], 1, by simp [Correlation.exX], by norm_num [Correlation.exX, variableAt]⟩
  · exact ⟨0, by simp [Correlation.exX], 1, by simp [Correlation.exX], by norm_num [Correlation.exX, variableAt]⟩
  · exact ⟨2, by simp [Correlation.exX], 3, by simp [Correlation.exX], by norm_num [Correlation.exX, variableAt]⟩

/-- **C149**, refuted without the square roots: the dissimilarities themselves do not satisfy the triangle inequality, for either value of `absolute_value`. -/
theorem C149_refuted_triangle (absoluteValue : Bool) :
    ∃ a b c : ℝ, entry2 (pearsonDissimilarity absoluteValue 3 Correlation.exX) 0 2 = some (some a) ∧ entry2 (pearsonDissimilarity absoluteValue 3 Correlation.exX) 0 1 = some (some b) ∧
      entry2 (pearsonDissimilarity absoluteValue 3 Correlation.exX) 1 2 = some (some c) ∧ b + c < a := by
  classical
  obtain ⟨h1, h2⟩ := Correlation.ex_nonConstant
  refine ⟨_, _, _, by rw [C149_values absoluteValue 3 _ h1 0 2 (by norm_num) (by norm_num), if_pos ⟨h2 0 (by norm_num), h2 2 (by norm_num)⟩],
    by rw [C149_values absoluteValue 3 _ h1 0 1 (by norm_num) (by norm_num), if_pos ⟨h2 0 (by norm_num), h2 1 (by norm_num)⟩],
    by rw [C149_values absoluteValue 3 _ h1 1 2 (by norm_num) (by norm_num), if_pos ⟨h2 1 (by norm_num), h2 2 (by norm_num)⟩], ?_⟩
  have hdev : ∀ i j, i < 3 → j < 3 → Correlation.dev Correlation.exX.length (variableAt Correlation.exX i) (variableAt Correlation.exX j) =
      if i = 1 ∧ j = 1 then 4 else if (i = 0 ∧ j = 2) ∨ (i = 2 ∧ j = 0) then 0 else 2 := by
    intro i j hi hj
    rcases (by omega : i = 0 ∨ i = 1 ∨ i = 2) with rfl | rfl | rfl <;> rcases (by omega : j = 0 ∨ j = 1 ∨ j = 2) with rfl | rfl | rfl <;>
      norm_num [Correlation.dev, meanOf, Finset.sum_range_succ, Correlation.exX, variableAt]
  have e02 : pearson Correlation.exX.length (variableAt Correlation.exX 0) (variableAt Correlation.exX 2) = 0 := by
    rw [Correlation.pearson_dev, hdev 0 2 (by norm_num) (by norm_num)]
    norm_num
  have e01 : pearson Correlation.exX.length (variableAt Correlation.exX 0) (variableAt Correlation.exX 1) = 1 / Real.sqrt 2 := by
    rw [Correlation.pearson_dev, hdev 0 1 (by norm_num) (by norm_num), hdev 0 0 (by norm_num) (by norm_num), hdev 1 1 (by norm_num) (by norm_num)]
    have : Real.sqrt 4 = 2 := by rw [show (4 : ℝ) = 2 ^ 2 by norm_num]; exact Real.sqrt_sq (by norm_num)
    norm_num [this]
    have h0 : Real.sqrt 2 ≠ 0 := by positivity
    field_simp
  have e12 : pearson Correlation.exX.length (variableAt Correlation.exX 1) (variableAt Correlation.exX 2) = 1 / Real.sqrt 2 := by
    rw [Correlation.pearson_dev, hdev 1 2 (by norm_num) (by norm_num), hdev 1 1 (by norm_num) (by norm_num), hdev 2 2 (by norm_num) (by norm_num)]
    have : Real.sqrt 4 = 2 := by rw [show (4 : ℝ) = 2 ^ 2 by norm_num]; exact Real.sqrt_sq (by norm_num)
    norm_num [this]
    have h0 : Real.sqrt 2 ≠ 0 := by positivity
    field_simp
  rw [e02, e01, e12]
  have hp : 0 < Real.sqrt 2 := by positivity
  have hs : Real.sqrt 2 < 2 := by
    rw [Real.sqrt_lt' (by norm_num)]
    norm_num
  have hhalf : 1 / 2 < 1 / Real.sqrt 2 := one_div_lt_one_div_of_lt hp hs
  cases absoluteValue
  · simp only [Correlation.dissimilarity, Bool.false_eq_true, if_false]
    linarith
  · simp only [Correlation.dissimilarity, if_true, abs_zero, abs_of_pos (lt_trans (by norm_num : (0 : ℝ) < 1 / 2) hhalf)]
    linarith

/-- Non-vacuity of `C149_units`: metres become centimetres, the second variable changes its sign. -/
example : (∀ r ∈ ([[1, 2], [3, 5]] : List (List ℝ)), r.length = 2) ∧
    ∀ j t, j < 2 → t < 2 → variableAt [[100, -1], [300, -4]] j t = (if j = 0 then 100 else -1) * variableAt [[1, 2], [3, 5]] j t + (if j = 0 then 0 else 1) := by
  refine ⟨by simp, ?_⟩
  intro j t hj ht
  rcases (by omega : j = 0 ∨ j = 1) with rfl | rfl <;> rcases (by omega : t = 0 ∨ t = 1) with rfl | rfl <;> norm_num [variableAt]

/-- Non-vacuity of `C149_time_order`: a series read backwards. -/
example : ([[3, 5], [1, 2]] : List (List ℝ)).Perm [[1, 2], [3, 5]] := List.Perm.swap _ _ _

end Gtda.Props
