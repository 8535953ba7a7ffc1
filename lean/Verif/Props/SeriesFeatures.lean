import Verif.Model.SeriesFeatures
import Verif.Lemmas.Entropy
import Verif.Spec.Vectorization
import Verif.Props.Parallel
import Mathlib.Data.List.Permutation
import Mathlib.Algebra.BigOperators.Group.List.Basic
import Mathlib.Algebra.Order.BigOperators.Ring.Finset
import Mathlib.Algebra.Order.Chebyshev

set_option autoImplicit false
set_option linter.unusedSectionVars false

/-!
# Properties of `PermutationEntropy` and `PearsonDissimilarity` (C12, C13)
-/

namespace Gtda.Props
open Gtda.Py Gtda.Parallel Gtda.Diagrams Gtda.Series

/-! ### C12 -/

section
variable {K : Type} [LinearOrder K]

/-- `σ` lists the positions of the entries of `row` in an order which makes them increasing (equal entries in order of position). -/
def OrdersRow (row : List K) (σ : List Nat) : Prop :=
  σ.Perm (List.range row.length) ∧ σ.Pairwise fun i j => ∀ x y, row[i]? = some x → row[j]? = some y → x < y ∨ (x = y ∧ i < j)

/-- Relative frequencies of the different elements of a list of patterns. -/
noncomputable def frequencies (l : List (List Nat)) : List ℝ := l.dedup.map fun a => ((l.count a : Nat) : ℝ) / (l.length : ℝ)

theorem argsort_length (row : List K) : (argsort row).length = row.length := by simp [argsort, List.length_insertionSort]

theorem argsort_perm (row : List K) : (argsort row).Perm (List.range row.length) := by
  unfold argsort
  refine ((List.perm_insertionSort _ _).map _).trans ?_
  rw [List.zipIdx_map_snd]
  simp [List.range_eq_range']

theorem zipIdx_pairwise (row : List K) (k : Nat) : (row.zipIdx k).Pairwise fun a b => a.2 < b.2 := by
  induction row generalizing k with
  | nil => simp
  | cons a t ih =>
    rw [List.zipIdx_cons, List.pairwise_cons]
    refine ⟨?_, ih (k + 1)⟩
    intro b hb
    have := (List.mem_zipIdx hb).1
    omega

/-- Stable insertion keeps the lexicographic order of (value, position). -/
theorem orderedInsert_lex (a : K × Nat) (l : List (K × Nat)) (hl : l.Pairwise fun a b => a.1 < b.1 ∨ (a.1 = b.1 ∧ a.2 < b.2)) (ha : ∀ b ∈ l, a.2 < b.2) :
    (l.orderedInsert (fun a b => a.1 ≤ b.1) a).Pairwise fun a b => a.1 < b.1 ∨ (a.1 = b.1 ∧ a.2 < b.2) := by
  induction l with
  | nil => simp
  | cons c t ih =>
    rw [List.pairwise_cons] at hl
    rw [List.orderedInsert_cons]
    split_ifs with h
    · rw [List.pairwise_cons, List.pairwise_cons]
      refine ⟨?_, hl⟩
      intro b hb
      rcases lt_or_eq_of_le h with h1 | h1
      · left
        rcases List.mem_cons.mp hb with rfl | hb
        · exact h1
        · rcases hl.1 b hb with h2 | ⟨h2, -⟩
          · exact h1.trans h2
          · rw [← h2]; exact h1
      · rcases List.mem_cons.mp hb with rfl | hb
        · exact Or.inr ⟨h1, ha b List.mem_cons_self⟩
        · rcases hl.1 b hb with h2 | ⟨h2, h3⟩
          · left; rw [h1]; exact h2
          · right; exact ⟨h1.trans h2, ha b (List.mem_cons_of_mem _ hb)⟩
    · rw [List.pairwise_cons]
      refine ⟨?_, ih hl.2 fun b hb => ha b (List.mem_cons_of_mem _ hb)⟩
      intro b hb
      rcases List.mem_cons.mp ((List.perm_orderedInsert _ _ _).mem_iff.mp hb) with rfl | hb
      · left; exact not_le.mp h
      · exact hl.1 b hb

theorem argsort_orders (row : List K) : OrdersRow row (argsort row) := by
  refine ⟨argsort_perm row, ?_⟩
  have hsorted : ∀ l : List (K × Nat), l.Pairwise (fun a b => a.2 < b.2) →
      (l.insertionSort fun a b => a.1 ≤ b.1).Pairwise fun a b => a.1 < b.1 ∨ (a.1 = b.1 ∧ a.2 < b.2) := by
    intro l hl
    induction l with
    | nil => simp
    | cons a t ih =>
      rw [List.pairwise_cons] at hl
      rw [List.insertionSort_cons]
      refine orderedInsert_lex a _ (ih hl.2) ?_
      intro b hb
      exact hl.1 b ((List.perm_insertionSort _ _).mem_iff.mp hb)
  have h := hsorted _ (zipIdx_pairwise row 0)
  unfold argsort
  rw [List.pairwise_map]
  refine h.imp_of_mem ?_
  intro a b ha hb hab x y hx hy
  have ha' := (List.perm_insertionSort _ _).mem_iff.mp ha
  have hb' := (List.perm_insertionSort _ _).mem_iff.mp hb
  rw [List.mem_zipIdx_iff_getElem?] at ha' hb'
  rw [hx, Option.some.injEq] at ha'
  rw [hy, Option.some.injEq] at hb'
  rw [ha', hb']
  exact hab

theorem argsort_map {L : Type} [LinearOrder L] (f : K → L) (hf : StrictMono f) (row : List K) : argsort (row.map f) = argsort row := by
  unfold argsort
  have h1 : (row.map f).zipIdx = row.zipIdx.map (Prod.map f id) := by
    rw [List.zipIdx_map]
  rw [h1, ← List.map_insertionSort (r := fun a b : K × Nat => a.1 ≤ b.1), List.map_map]
  · rfl
  · intro a _ b _
    exact hf.le_iff_le.symm

theorem count_sum (x : List (List Nat)) : (x.dedup.map fun r => x.count r).sum = x.length := by
  have h := List.sum_map_count_dedup_eq_length x
  have e : (instBEqOfDecidableEq : BEq (List Nat)) = List.instBEq := lawful_beq_subsingleton _ _
  rw [e] at h
  exact h

theorem entropy2d_eq (x : List (List Nat)) (hx : x ≠ []) : entropy2d x = some (shannon2 (frequencies x)) := by
  have hsum : (x.dedup.map fun r => ((x.count r : Nat) : ℝ)).sum = (x.length : ℝ) := by
    have h1 : x.dedup.map (fun r => ((x.count r : Nat) : ℝ)) = (x.dedup.map fun r => x.count r).map fun (k : Nat) => (k : ℝ) := by rw [List.map_map]; rfl
    have h2 := count_sum x
    rw [h1, ← h2]
    exact (Nat.cast_list_sum (R := ℝ) _).symm
  have hpos : (0 : ℝ) < x.length := by exact_mod_cast List.length_pos_of_ne_nil hx
  unfold entropy2d
  rw [scipyEntropy2_eq]
  · rw [hsum, List.map_map]; rfl
  · intro y hy
    rw [List.mem_map] at hy
    obtain ⟨r, -, rfl⟩ := hy
    exact Nat.cast_nonneg _
  · rw [hsum]; exact ne_of_gt hpos

theorem frequencies_mem (l : List (List Nat)) (hl : l ≠ []) : ∀ p ∈ frequencies l, 0 < p ∧ p ≤ 1 := by
  intro p hp
  unfold frequencies at hp
  rw [List.mem_map] at hp
  obtain ⟨a, ha, rfl⟩ := hp
  have hpos : (0 : ℝ) < l.length := by exact_mod_cast List.length_pos_of_ne_nil hl
  have h1 : 0 < l.count a := List.count_pos_iff.mpr (List.mem_dedup.mp ha)
  refine ⟨div_pos (by exact_mod_cast h1) hpos, (div_le_one hpos).mpr (by exact_mod_cast List.count_le_length)⟩

theorem frequencies_sum (l : List (List Nat)) (hl : l ≠ []) : (frequencies l).sum = 1 := by
  have hpos : (0 : ℝ) < l.length := by exact_mod_cast List.length_pos_of_ne_nil hl
  have h1 : frequencies l = ((l.dedup.map fun r => l.count r).map fun (k : Nat) => (k : ℝ)).map fun x => x / (l.length : ℝ) := by
    rw [List.map_map, List.map_map]; rfl
  rw [h1, sum_map_div, ← Nat.cast_list_sum, count_sum, div_self (ne_of_gt hpos)]

/-- **C12.** Entry `i` of the output of `PermutationEntropy`, for every number of jobs, is the Shannon entropy of the relative frequencies of the order patterns of the rows. -/
theorem C12_permutation_entropy (nJobs : Nat) (hn : 1 ≤ nJobs) (X : List (List (List K))) (hne : ∀ x ∈ X, x ≠ []) :
    ∃ pattern : List K → List Nat, (∀ row, OrdersRow row (pattern row)) ∧
      permutationEntropyTransform nJobs X = X.map fun x => [some (shannon2 (frequencies (x.map pattern)))] := by
  refine ⟨argsort, argsort_orders, ?_⟩
  unfold permutationEntropyTransform
  have : (permutationEntropy : List (List (List K)) → List (List (Option ℝ))) = List.map fun x => [entropy2d (x.map argsort)] := by
    funext Y
    unfold permutationEntropy
    rw [List.map_map]; rfl
  rw [this, C17_njobs_map _ nJobs hn]
  apply List.map_congr_left
  intro x hx
  rw [entropy2d_eq]
  simpa using hne x hx

/-- **C12.** Any function listing positions in increasing order of values has the same value: "order pattern" is well defined. -/
theorem C12_pattern_unique (row : List K) (σ τ : List Nat) (h1 : OrdersRow row σ) (h2 : OrdersRow row τ) : σ = τ := by
  have hlt : ∀ (i : Nat), i ∈ List.range row.length → ∃ x, row[i]? = some x := by
    intro i hi
    exact ⟨_, List.getElem?_eq_getElem (List.mem_range.mp hi)⟩
  refine List.Perm.eq_of_pairwise ?_ h1.2 h2.2 (h1.1.trans h2.1.symm)
  intro a b ha hb hab hba
  obtain ⟨x, hx⟩ := hlt a (h1.1.mem_iff.mp ha)
  obtain ⟨y, hy⟩ := hlt b (h2.1.mem_iff.mp hb)
  rcases hab x y hx hy with h | ⟨h, h'⟩
  · rcases hba y x hy hx with g | ⟨g, -⟩
    · exact absurd (h.trans g) (lt_irrefl _)
    · rw [g] at h; exact absurd h (lt_irrefl _)
  · rcases hba y x hy hx with g | ⟨-, g'⟩
    · rw [h] at g; exact absurd g (lt_irrefl _)
    · omega

/-- **C12.** Bounds, zeros and invariances of the entropy of the order patterns of the rows of a nonempty matrix with `m` columns. -/
theorem C12_bounds_invariance (pattern : List K → List Nat) (hp : ∀ row, OrdersRow row (pattern row)) (x : List (List K)) (hx : x ≠ []) (m : Nat) (hm : ∀ r ∈ x, r.length = m) :
    0 ≤ shannon2 (frequencies (x.map pattern)) ∧
    shannon2 (frequencies (x.map pattern)) ≤ Real.logb 2 x.length ∧
    shannon2 (frequencies (x.map pattern)) ≤ Real.logb 2 (Nat.factorial m) ∧
    (shannon2 (frequencies (x.map pattern)) = 0 ↔ ∀ r ∈ x, ∀ r' ∈ x, pattern r = pattern r') ∧
    (∀ x', x.Perm x' → shannon2 (frequencies (x'.map pattern)) = shannon2 (frequencies (x.map pattern))) ∧
    (∀ f : K → K, StrictMono f → shannon2 (frequencies ((x.map fun r => r.map f).map pattern)) = shannon2 (frequencies (x.map pattern))) := by
  have hne : x.map pattern ≠ [] := by simpa using hx
  have hfm := frequencies_mem (x.map pattern) hne
  have hlen : shannon2 (frequencies (x.map pattern)) ≤ Real.logb 2 (x.map pattern).dedup.length := by
    have := shannon2_le _ (fun p h => (hfm p h).1) (frequencies_sum _ hne)
    simpa [frequencies] using this
  have hd0 : 0 < (x.map pattern).dedup.length := List.length_pos_of_ne_nil (by simpa [List.dedup_eq_nil] using hx)
  have hmono : ∀ n : Nat, (x.map pattern).dedup.length ≤ n → shannon2 (frequencies (x.map pattern)) ≤ Real.logb 2 n := by
    intro n hn
    refine hlen.trans (Real.logb_le_logb_of_le (by norm_num) (by exact_mod_cast hd0) (by exact_mod_cast hn))
  refine ⟨shannon2_nonneg _ fun p h => ⟨(hfm p h).1.le, (hfm p h).2⟩, ?_, ?_, ?_, ?_, ?_⟩
  · apply hmono
    have := (List.dedup_sublist (x.map pattern)).length_le
    simpa using this
  · apply hmono
    have hsub : (x.map pattern).dedup ⊆ (List.range m).permutations := by
      intro σ hσ
      rw [List.mem_dedup, List.mem_map] at hσ
      obtain ⟨r, hr, rfl⟩ := hσ
      rw [List.mem_permutations, ← hm r hr]
      exact (hp r).1
    have := (List.subperm_of_subset (List.nodup_dedup _) hsub).length_le
    rwa [List.length_permutations, List.length_range] at this
  · constructor
    · intro h0
      have hall : ∀ p ∈ frequencies (x.map pattern), -(p * Real.logb 2 p) = 0 := by
        have hnn : ∀ y ∈ (frequencies (x.map pattern)).map (fun p => -(p * Real.logb 2 p)), 0 ≤ y := by
          intro y hy
          rw [List.mem_map] at hy
          obtain ⟨p, hp', rfl⟩ := hy
          have := Real.logb_nonpos (b := 2) (by norm_num) (hfm p hp').1.le (hfm p hp').2
          have := (hfm p hp').1
          nlinarith
        intro p hp'
        exact (sum_eq_zero_iff _ hnn).mp h0 _ (List.mem_map_of_mem hp')
      have hone : ∀ p ∈ frequencies (x.map pattern), p = 1 := by
        intro p hp'
        have h1 := hall p hp'
        have h2 := hfm p hp'
        rw [neg_eq_zero, mul_eq_zero] at h1
        rcases h1 with h1 | h1
        · linarith [h2.1]
        · rw [Real.logb_eq_zero] at h1
          rcases h1 with h | h | h | h | h | h <;> linarith [h2.1]
      have hcount : ∀ r ∈ x, (x.map pattern).count (pattern r) = (x.map pattern).length := by
        intro r hr
        have hmem : pattern r ∈ (x.map pattern).dedup := List.mem_dedup.mpr (List.mem_map_of_mem hr)
        have h1 := hone _ (List.mem_map_of_mem hmem)
        have hpos : (0 : ℝ) < (x.map pattern).length := by exact_mod_cast List.length_pos_of_ne_nil hne
        rw [div_eq_one_iff_eq (ne_of_gt hpos)] at h1
        exact_mod_cast h1
      intro r hr r' hr'
      exact List.count_eq_length.mp (hcount r hr) _ (List.mem_map_of_mem hr')
    · intro hall
      unfold shannon2
      apply List.sum_eq_zero
      intro y hy
      rw [List.mem_map] at hy
      obtain ⟨p, hp', rfl⟩ := hy
      unfold frequencies at hp'
      rw [List.mem_map] at hp'
      obtain ⟨σ, hσ, rfl⟩ := hp'
      rw [List.mem_dedup, List.mem_map] at hσ
      obtain ⟨r, hr, rfl⟩ := hσ
      have : (x.map pattern).count (pattern r) = (x.map pattern).length := by
        rw [List.count_eq_length]
        intro τ hτ
        rw [List.mem_map] at hτ
        obtain ⟨r', hr', rfl⟩ := hτ
        exact hall r hr r' hr'
      have hpos : (0 : ℝ) < (x.map pattern).length := by exact_mod_cast List.length_pos_of_ne_nil hne
      rw [this, div_self (ne_of_gt hpos)]
      simp
  · intro x' hxx'
    apply shannon2_perm
    have h1 : (x'.map pattern).Perm (x.map pattern) := (hxx'.map pattern).symm
    unfold frequencies
    rw [h1.length_eq]
    have : (fun a => (((x'.map pattern).count a : Nat) : ℝ) / ((x.map pattern).length : ℝ)) = fun a => (((x.map pattern).count a : Nat) : ℝ) / ((x.map pattern).length : ℝ) := by
      funext a
      rw [h1.count_eq]
    rw [this]
    exact (h1.dedup).map _
  · intro f hf
    have : (x.map fun r => r.map f).map pattern = x.map pattern := by
      rw [List.map_map]
      apply List.map_congr_left
      intro r _
      simp only [Function.comp_apply]
      have e1 : pattern (r.map f) = argsort (r.map f) := C12_pattern_unique _ _ _ (hp _) (argsort_orders _)
      have e2 : pattern r = argsort r := C12_pattern_unique _ _ _ (hp _) (argsort_orders _)
      rw [e1, e2, argsort_map f hf]
    rw [this]

example : argsort ([3, 1, 2, 1] : List ℚ) = [1, 3, 2, 0] := by decide +kernel

end

/-! ### C13 -/

/-- The mean of `x 0, …, x (T-1)`. -/
noncomputable def meanOf (T : Nat) (x : Nat → ℝ) : ℝ := (∑ t ∈ Finset.range T, x t) / T

/-- Pearson's correlation coefficient of two series of length `T`. -/
noncomputable def pearson (T : Nat) (x y : Nat → ℝ) : ℝ :=
  (∑ t ∈ Finset.range T, (x t - meanOf T x) * (y t - meanOf T y)) /
    (Real.sqrt (∑ t ∈ Finset.range T, (x t - meanOf T x) ^ 2) * Real.sqrt (∑ t ∈ Finset.range T, (y t - meanOf T y) ^ 2))

theorem list_sum_range (l : List ℝ) : l.sum = ∑ t ∈ Finset.range l.length, l[t]?.getD 0 := by
  induction l with
  | nil => simp
  | cons a t ih => rw [List.sum_cons, List.length_cons, Finset.sum_range_succ', ih]; simp [add_comm]

theorem cov_eq (x y : List ℝ) (h : x.length = y.length) :
    cov x y = (∑ t ∈ Finset.range x.length, (x[t]?.getD 0 - meanOf x.length fun t => x[t]?.getD 0) * (y[t]?.getD 0 - meanOf x.length fun t => y[t]?.getD 0)) / ((x.length : ℝ) - 1) := by
  unfold cov
  congr 1
  rw [list_sum_range]
  have hl : (List.zipWith (· * ·) (centred x) (centred y)).length = x.length := by simp [centred, h]
  rw [hl]
  apply Finset.sum_congr rfl
  intro t ht
  have ht' := Finset.mem_range.mp ht
  have hy : t < y.length := by omega
  simp only [centred, meanOf]
  rw [← list_sum_range x, h, ← list_sum_range y, ← h]
  simp [List.getElem?_zipWith, List.getElem?_eq_getElem ht', List.getElem?_eq_getElem hy, h]

theorem pearson_bounds (T : Nat) (x y : Nat → ℝ) : -1 ≤ pearson T x y ∧ pearson T x y ≤ 1 := by
  set A := ∑ t ∈ Finset.range T, (x t - meanOf T x) ^ 2 with hA
  set B := ∑ t ∈ Finset.range T, (y t - meanOf T y) ^ 2 with hB
  set S := ∑ t ∈ Finset.range T, (x t - meanOf T x) * (y t - meanOf T y) with hS
  have hA0 : 0 ≤ A := Finset.sum_nonneg fun t _ => sq_nonneg _
  have hB0 : 0 ≤ B := Finset.sum_nonneg fun t _ => sq_nonneg _
  have hcs : S ^ 2 ≤ A * B := Finset.sum_mul_sq_le_sq_mul_sq _ _ _
  have habs : |S| ≤ Real.sqrt A * Real.sqrt B := by
    rw [← Real.sqrt_mul hA0, ← Real.sqrt_sq_eq_abs]
    exact Real.sqrt_le_sqrt hcs
  have hnn : 0 ≤ Real.sqrt A * Real.sqrt B := mul_nonneg (Real.sqrt_nonneg _) (Real.sqrt_nonneg _)
  have : pearson T x y = S / (Real.sqrt A * Real.sqrt B) := rfl
  rw [this, ← abs_le]
  rw [abs_div, abs_of_nonneg hnn]
  exact div_le_one_of_le₀ habs hnn

/-- The variable `x 0, …, x (T-1)` takes two different values. -/
def NonConstant (T : Nat) (x : Nat → ℝ) : Prop := ∃ s < T, ∃ t < T, x s ≠ x t

theorem sumSq_pos (T : Nat) (x : Nat → ℝ) (h : NonConstant T x) : 0 < ∑ t ∈ Finset.range T, (x t - meanOf T x) ^ 2 := by
  refine lt_of_le_of_ne (Finset.sum_nonneg fun t _ => sq_nonneg _) fun h0 => ?_
  have := (Finset.sum_eq_zero_iff_of_nonneg fun t _ => sq_nonneg (x t - meanOf T x)).mp h0.symm
  obtain ⟨s, hs, t, ht, hne⟩ := h
  have h1 := this s (Finset.mem_range.mpr hs)
  have h2 := this t (Finset.mem_range.mpr ht)
  rw [sq_eq_zero_iff, sub_eq_zero] at h1 h2
  exact hne (h1.trans h2.symm)

theorem corrcoef_eq (x y : List ℝ) (h : x.length = y.length) (hx : NonConstant x.length fun t => x[t]?.getD 0) (hy : NonConstant x.length fun t => y[t]?.getD 0) :
    corrcoef x y = some (pearson x.length (fun t => x[t]?.getD 0) fun t => y[t]?.getD 0) := by
  have hT : 1 < x.length := by
    obtain ⟨s, hs, t, ht, hne⟩ := hx
    by_contra hc
    have : s = t := by omega
    exact hne (by rw [this])
  have hT' : (0 : ℝ) < (x.length : ℝ) - 1 := by
    have : (1 : ℝ) < x.length := by exact_mod_cast hT
    linarith
  have hA := sumSq_pos _ _ hx
  have hB := sumSq_pos _ _ hy
  have ex : cov x x = (∑ t ∈ Finset.range x.length, (x[t]?.getD 0 - meanOf x.length fun t => x[t]?.getD 0) ^ 2) / ((x.length : ℝ) - 1) := by
    rw [cov_eq x x rfl]; simp only [pow_two]
  have ey : cov y y = (∑ t ∈ Finset.range x.length, (y[t]?.getD 0 - meanOf x.length fun t => y[t]?.getD 0) ^ 2) / ((x.length : ℝ) - 1) := by
    rw [cov_eq y y rfl, ← h]; simp only [pow_two]
  have hxx : cov x x ≠ 0 := by rw [ex]; exact ne_of_gt (div_pos hA hT')
  have hyy : cov y y ≠ 0 := by rw [ey]; exact ne_of_gt (div_pos hB hT')
  have hc : cov x y / Real.sqrt (cov x x) / Real.sqrt (cov y y) = pearson x.length (fun t => x[t]?.getD 0) fun t => y[t]?.getD 0 := by
    rw [ex, ey, cov_eq x y h]
    unfold pearson
    rw [Real.sqrt_div hA.le, Real.sqrt_div hB.le]
    have hs : Real.sqrt ((x.length : ℝ) - 1) * Real.sqrt ((x.length : ℝ) - 1) = (x.length : ℝ) - 1 := Real.mul_self_sqrt hT'.le
    have hs0 : Real.sqrt ((x.length : ℝ) - 1) ≠ 0 := ne_of_gt (Real.sqrt_pos.mpr hT')
    have hA0 := ne_of_gt (Real.sqrt_pos.mpr hA)
    have hB0 := ne_of_gt (Real.sqrt_pos.mpr hB)
    rw [div_div, div_mul_div_comm, hs, div_div_div_cancel_right₀ (ne_of_gt hT')]
  unfold corrcoef
  rw [if_neg (by simp only [not_or]; exact ⟨by omega, hxx, hyy⟩)]
  simp only [hc]
  obtain ⟨h1, h2⟩ := pearson_bounds x.length (fun t => x[t]?.getD 0) fun t => y[t]?.getD 0
  rw [min_eq_right h2, max_eq_right h1]

/-- The value of variable `j` at time `t` in a sample. -/
def variableAt (sample : List (List ℝ)) (j t : Nat) : ℝ := ((sample[t]? >>= fun r => r[j]?) : Option ℝ).getD 0

theorem column_spec (m : Nat) (sample : List (List ℝ)) (hs : ∀ r ∈ sample, r.length = m) (j : Nat) (hj : j < m) :
    (column sample j).length = sample.length ∧ ∀ t, (column sample j)[t]?.getD 0 = variableAt sample j t := by
  have h : column sample j = sample.map fun r => r[j]?.getD 0 := by
    unfold column
    rw [← List.filterMap_eq_map]
    apply List.filterMap_congr
    intro r hr
    have : j < r.length := by rw [hs r hr]; exact hj
    simp [List.getElem?_eq_getElem this]
  rw [h]
  refine ⟨by simp, ?_⟩
  intro t
  unfold variableAt
  cases ht : sample[t]? with
  | none => simp [ht]
  | some r => simp [ht]

/-- **C13.** For samples with `m` non-constant variables `PearsonDissimilarity` outputs `(1 - ρ) / 2`, or `1 - |ρ|` if `absolute_value=True`, for Pearson's correlation
coefficients `ρ`; the matrices are symmetric, with zero diagonal and entries between 0 and 1. -/
theorem C13_pearson_dissimilarity (absoluteValue : Bool) (m : Nat) (X : List (List (List ℝ))) (hm : ∀ x ∈ X, ∀ r ∈ x, r.length = m)
    (hc : ∀ x ∈ X, ∀ j < m, NonConstant x.length (variableAt x j)) (n : Nat) (x : List (List ℝ)) (hx : X[n]? = some x) :
    ∃ M, (pearsonTransform absoluteValue m X)[n]? = some M ∧ M.length = m ∧ (∀ r ∈ M, r.length = m) ∧
      ∀ i j, i < m → j < m → ∃ v : ℝ, entry2 M i j = some (some v) ∧ entry2 M j i = some (some v) ∧ 0 ≤ v ∧ v ≤ 1 ∧ (i = j → v = 0) ∧
        v = if absoluteValue then 1 - |pearson x.length (variableAt x i) (variableAt x j)| else (1 - pearson x.length (variableAt x i) (variableAt x j)) / 2 := by
  have hxm : x ∈ X := List.mem_of_getElem? hx
  refine ⟨pearsonDissimilarity absoluteValue m x, by simp [pearsonTransform, hx], by simp [pearsonDissimilarity], by simp [pearsonDissimilarity], ?_⟩
  have hcorr : ∀ i j, i < m → j < m → corrcoef (column x i) (column x j) = some (pearson x.length (variableAt x i) (variableAt x j)) := by
    intro i j hi hj
    obtain ⟨l1, e1⟩ := column_spec m x (hm x hxm) i hi
    obtain ⟨l2, e2⟩ := column_spec m x (hm x hxm) j hj
    have f1 : (fun t => (column x i)[t]?.getD 0) = variableAt x i := funext e1
    have f2 : (fun t => (column x j)[t]?.getD 0) = variableAt x j := funext e2
    rw [corrcoef_eq (column x i) (column x j) (by rw [l1, l2]) (by rw [l1, f1]; exact hc x hxm i hi) (by rw [l1, f2]; exact hc x hxm j hj), l1, f1, f2]
  have hsymm : ∀ i j, pearson x.length (variableAt x i) (variableAt x j) = pearson x.length (variableAt x j) (variableAt x i) := by
    intro i j
    unfold pearson
    congr 1
    · exact Finset.sum_congr rfl fun t _ => mul_comm _ _
    · exact mul_comm _ _
  have hent : ∀ i j, i < m → j < m → entry2 (pearsonDissimilarity absoluteValue m x) i j =
      some (some (if absoluteValue then 1 - |pearson x.length (variableAt x i) (variableAt x j)| else (1 - pearson x.length (variableAt x i) (variableAt x j)) / 2)) := by
    intro i j hi hj
    unfold pearsonDissimilarity entry2
    simp only [List.getElem?_map, List.getElem?_range hi, List.getElem?_range hj, Option.map_some, Option.bind_eq_bind, Option.bind_some, hcorr i j hi hj]
    congr 2
    cases absoluteValue
    · simp only [Bool.false_eq_true, if_false]
      norm_num
      ring
    · rfl
  intro i j hi hj
  obtain ⟨b1, b2⟩ := pearson_bounds x.length (variableAt x i) (variableAt x j)
  refine ⟨_, hent i j hi hj, by rw [hent j i hj hi, hsymm j i], ?_, ?_, ?_, rfl⟩
  · have := abs_le.mpr ⟨b1, b2⟩
    split_ifs <;> linarith
  · have := abs_nonneg (pearson x.length (variableAt x i) (variableAt x j))
    split_ifs <;> linarith
  · rintro rfl
    have hone : pearson x.length (variableAt x i) (variableAt x i) = 1 := by
      have hA := sumSq_pos _ _ (hc x hxm i hi)
      unfold pearson
      rw [Real.mul_self_sqrt hA.le]
      simp only [← pow_two]
      exact div_self (ne_of_gt hA)
    rw [hone]
    simp

example : ∀ j < 2, NonConstant 2 (variableAt [[1, 2], [3, 5]] j) := by
  intro j hj
  refine ⟨0, by norm_num, 1, by norm_num, ?_⟩
  have : j = 0 ∨ j = 1 := by omega
  rcases this with rfl | rfl <;> norm_num [variableAt]

end Gtda.Props
