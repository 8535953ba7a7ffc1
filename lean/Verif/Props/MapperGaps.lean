import Verif.Model.MapperCluster
import Verif.Spec.MapperCluster
import Verif.Lemmas.Cover
import Mathlib.Tactic.FieldSimp
import Mathlib.Tactic.Positivity
import Mathlib.Data.Rat.Floor

set_option autoImplicit false
set_option linter.unusedSectionVars false

/-!
# Agglomerative clusterers of Mapper: C49 (`FirstSimpleGap`), C50 (`FirstHistogramGap`)
-/

namespace Gtda.Props
open Gtda.Py Gtda.Mapper Gtda.Spec

variable {K : Type} [Field K] [LinearOrder K] [IsStrictOrderedRing K] [FloorRing K]

omit [IsStrictOrderedRing K] [FloorRing K] in
theorem ediff_length (ds : List K) : (ediff ds).length = ds.length := by
  cases ds with
  | nil => rfl
  | cons d t => simp [ediff]

omit [IsStrictOrderedRing K] [FloorRing K] in
theorem ediff_getElem? (ds : List K) (i : Nat) (hi : i < ds.length) : (ediff ds)[i]? = some (gapBefore ds i) := by
  cases ds with
  | nil => simp at hi
  | cons d t =>
    cases i with
    | zero => simp [ediff, gapBefore]
    | succ i =>
      have hi' : i < t.length := by simpa using hi
      have h2 : i < (d :: t).length := by simp; omega
      simp only [ediff, List.getElem?_cons_succ, gapBefore, Nat.succ_ne_zero, if_false, Nat.add_sub_cancel]
      rw [List.getElem?_zipWith_eq_some]
      refine ⟨t[i], (d :: t)[i], by simp [hi'], List.getElem?_eq_getElem h2, ?_⟩
      rw [List.getD_eq_getElem?_getD, List.getD_eq_getElem?_getD, List.getElem?_cons_succ, List.getElem?_eq_getElem hi', List.getElem?_eq_getElem h2]
      rfl

theorem floor_min_num (num : Int) (cap : K) : (if cap < (num : K) then ⌊cap⌋ else num) = min num ⌊cap⌋ := by
  split
  · rename_i h
    rw [min_eq_right]
    exact_mod_cast (Int.floor_le cap).trans h.le
  · rename_i h
    rw [min_eq_left]
    exact Int.le_floor.2 (not_lt.1 h)

/-- **C49.** `FirstSimpleGap` with `relative_gap_size = r` and `max_fraction = f` on at least two samples. Gap number `i` is the difference of the merge distances `i` and
`i - 1` (the first merge distance for `i = 0`). If no gap reaches `r` times the last merge distance there is one cluster. Otherwise there are as many clusters as before the
first such gap, the number of samples minus the number of merges before it, but at most `⌊f * n_samples⌋`. The number is at most the number of samples, it respects the
bound `f * n_samples` unless it is one, and it is at least one if `f * n_samples ≥ 1`. -/
theorem C49_first_gap_partial {α : Type} (build : List α → PyM (Dendrogram K)) (cut : Int → Dendrogram K → PyM (List Nat)) (r f : K) (hr : 0 < r ∧ r ≤ 1) (hf : 0 < f ∧ f ≤ 1)
    (X : List α) (hX : 2 ≤ X.length) (tree : Dendrogram K) (hb : build X = .ok tree) (hl : tree.distances.length + 1 = X.length) (last : K)
    (hlast : tree.distances.getLast? = some last) :
    ∃ n : Int, firstSimpleGapFit build cut (some r) (some f) X = (cut n tree).map (fun labels => ⟨n, labels⟩) ∧
      ((∀ i, i < tree.distances.length → gapBefore tree.distances i < r * last) → n = 1) ∧
      (∀ g, g < tree.distances.length → r * last ≤ gapBefore tree.distances g → (∀ i, i < g → gapBefore tree.distances i < r * last) →
        n = min ((X.length : Int) - g) ⌊f * X.length⌋) ∧
      n ≤ X.length ∧ (n = 1 ∨ (n : K) ≤ f * X.length) ∧ (1 ≤ f * (X.length : K) → 1 ≤ n) := by
  have hlen := ediff_length tree.distances
  have hNK : ((tree.distances.length : K) + 1) = (X.length : K) := by rw [← hl]; push_cast; ring
  refine ⟨numClustersSimple tree.distances (r * last) (some f), ?_, ?_, ?_, ?_⟩
  · unfold firstSimpleGapFit
    have e1 : ¬ X.length = 0 := by omega
    have e2 : ¬ X.length = 1 := by omega
    simp only [e1, if_false, checkFraction, hr, hf, and_self, if_true, ok_bind, e2, hb, hlast]
    cases cut (numClustersSimple tree.distances (r * last) (some f)) tree <;> rfl
  · intro h
    have : (ediff tree.distances).findIdx? (fun g => decide (r * last ≤ g)) = none := by
      rw [List.findIdx?_eq_none_iff]
      intro x hx
      obtain ⟨i, hi, rfl⟩ := List.getElem_of_mem hx
      have h2 := ediff_getElem? tree.distances i (by omega)
      rw [List.getElem?_eq_getElem hi] at h2
      simp only [Option.some.injEq] at h2
      rw [h2]; simpa using h i (by omega)
    simp only [numClustersSimple, this]
  · intro g hg h1 h2
    have : (ediff tree.distances).findIdx? (fun g => decide (r * last ≤ g)) = some g := by
      rw [List.findIdx?_eq_some_iff_getElem]
      have e := ediff_getElem? tree.distances g hg
      rw [List.getElem?_eq_getElem (by omega)] at e
      simp only [Option.some.injEq] at e
      refine ⟨by omega, by rw [e]; simpa using h1, ?_⟩
      intro j hj
      have e2 := ediff_getElem? tree.distances j (by omega)
      rw [List.getElem?_eq_getElem (by omega)] at e2
      simp only [Option.some.injEq] at e2
      rw [e2]; simpa using h2 j hj
    simp only [numClustersSimple, this]
    rw [hNK, floor_min_num]
    congr 1; rw [← hl]; push_cast; ring
  · -- bounds
    have hb : ∀ o : Option Nat, (∀ g, o = some g → g < tree.distances.length) →
        let n : Int := match o with
          | some g => let num : Int := tree.distances.length + 1 - g; if f * ((tree.distances.length : K) + 1) < (num : K) then ⌊f * ((tree.distances.length : K) + 1)⌋ else num
          | none => 1
        n ≤ X.length ∧ (n = 1 ∨ (n : K) ≤ f * X.length) ∧ (1 ≤ f * (X.length : K) → 1 ≤ n) := by
      intro o ho
      cases o with
      | none => exact ⟨by simp; omega, Or.inl rfl, fun _ => le_refl _⟩
      | some g =>
        have hg := ho g rfl
        simp only
        rw [hNK, floor_min_num]
        refine ⟨(min_le_left _ _).trans (by omega), Or.inr ?_, ?_⟩
        · calc ((min ((tree.distances.length : Int) + 1 - g) ⌊f * (X.length : K)⌋ : Int) : K) ≤ ((⌊f * (X.length : K)⌋ : Int) : K) := by exact_mod_cast min_le_right _ _
            _ ≤ _ := Int.floor_le _
        · intro h1
          refine le_min (by omega) (Int.le_floor.2 (by simpa using h1))
    have := hb ((ediff tree.distances).findIdx? (fun g => decide (r * last ≤ g))) (by
      intro g hg
      rw [List.findIdx?_eq_some_iff_getElem] at hg
      obtain ⟨h, -⟩ := hg; omega)
    unfold numClustersSimple
    exact this

/-- Non-vacuity of `C49_first_gap_partial`: merge distances `1, 2, 10`; with relative gap size `1/2` the cut is before the last merge. -/
example : firstSimpleGapFit (K := ℚ) (fun (_ : List Nat) => .ok ⟨[(0, 1), (2, 4), (3, 5)], 4, [1, 2, 10]⟩) (fun _ _ => .ok [1, 1, 1, 0]) (some (1 / 2)) (some 1) [1, 2, 4, 14] =
    .ok ⟨2, [1, 1, 1, 0]⟩ := by decide +kernel

/-- A single sample is one cluster. -/
theorem C49_single_sample {α : Type} (build : List α → PyM (Dendrogram K)) (cut : Int → Dendrogram K → PyM (List Nat)) (r f : K) (hr : 0 < r ∧ r ≤ 1) (hf : 0 < f ∧ f ≤ 1) (x : α) :
    firstSimpleGapFit build cut (some r) (some f) [x] = .ok ⟨1, [0]⟩ := by
  simp [firstSimpleGapFit, checkFraction, hr, hf]

/-- **C49, at least one cluster: false.** Three samples with merge distances `1, 10`, `relative_gap_size = 1/10` and `max_fraction = 1/4`: `n_clusters_` is zero. -/
theorem C49_refuted_at_least_one :
    firstSimpleGapFit (K := ℚ) (fun (_ : List Nat) => .ok ⟨[(0, 1), (2, 3)], 3, [1, 10]⟩) (fun n _ => .ok (List.replicate 3 n.toNat)) (some (1 / 10)) (some (1 / 4)) [1, 2, 12] =
      .ok ⟨0, [0, 0, 0]⟩ := by decide +kernel

/-- **C49, coinciding samples.** If all merge distances vanish (all samples coincide), the first "gap" is found immediately and the samples are *not* put in one cluster:
the number of clusters is the largest number allowed by `max_fraction`. -/
theorem C49_coinciding_samples {α : Type} (build : List α → PyM (Dendrogram K)) (cut : Int → Dendrogram K → PyM (List Nat)) (r f : K) (hr : 0 < r ∧ r ≤ 1) (hf : 0 < f ∧ f ≤ 1)
    (X : List α) (hX : 2 ≤ X.length) (tree : Dendrogram K) (hb : build X = .ok tree) (hl : tree.distances.length + 1 = X.length) (h0 : ∀ d ∈ tree.distances, d = 0) :
    firstSimpleGapFit build cut (some r) (some f) X = (cut ⌊f * X.length⌋ tree).map (fun labels => ⟨⌊f * X.length⌋, labels⟩) := by
  have hne : tree.distances ≠ [] := by intro h; rw [h] at hl; simp at hl; omega
  obtain ⟨n, h1, -, h2, -⟩ := C49_first_gap_partial build cut r f hr hf X hX tree hb hl _ (List.getLast?_eq_some_getLast hne)
  have hlast := h0 _ (List.getLast_mem hne)
  have hfl : ⌊f * (X.length : K)⌋ ≤ (X.length : Int) := by
    have : f * (X.length : K) ≤ X.length := by
      have : (0 : K) ≤ X.length := Nat.cast_nonneg _
      nlinarith [hf.2]
    have := (Int.floor_le (f * (X.length : K))).trans this
    exact_mod_cast this
  have h3 := h2 0 (by omega) (by
    rw [hlast, mul_zero]
    unfold gapBefore
    rw [if_pos rfl, sub_zero, List.getD_eq_getElem?_getD, List.getElem?_eq_getElem (by omega), Option.getD_some, h0 _ (List.getElem_mem _)]) (by intro i hi; omega)
  simp only [Nat.cast_zero, sub_zero] at h3
  rw [min_eq_right hfl] at h3
  rw [h1, h3]

example : firstSimpleGapFit (K := ℚ) (fun (_ : List Nat) => .ok ⟨[(0, 1), (2, 3)], 3, [0, 0]⟩) (fun n _ => .ok (List.range n.toNat)) (some (3 / 10)) (some 1) [7, 7, 7] =
    .ok ⟨3, [0, 1, 2]⟩ := by decide +kernel

/-- **C49, `max_fraction=None`.** Documented as "no constraint", it is rejected. -/
theorem C49_refuted_max_fraction_none {α : Type} (build : List α → PyM (Dendrogram K)) (cut : Int → Dendrogram K → PyM (List Nat)) (r : Option K) (X : List α) (hX : X ≠ []) :
    firstSimpleGapFit build cut r none X = .error .typeError := by
  unfold firstSimpleGapFit
  rw [if_neg (fun h => hX (List.length_eq_zero_iff.1 h))]; rfl

/-! ### `FirstHistogramGap` -/

/-- The range which is divided into bins: from the smallest to the largest merge distance, widened by one half on both sides if all merge distances are equal. -/
def IsRange (ds : List K) (a b : K) : Prop :=
  ∃ lo ∈ ds, ∃ hi ∈ ds, (∀ d ∈ ds, lo ≤ d ∧ d ≤ hi) ∧ ((lo < hi ∧ a = lo ∧ b = hi) ∨ (lo = hi ∧ a = lo - 1 / 2 ∧ b = hi + 1 / 2))

omit [FloorRing K] in
theorem histRange_spec (ds : List K) (h : ds ≠ []) : IsRange ds (histRange ds).1 (histRange ds).2 := by
  cases ds with
  | nil => exact absurd rfl h
  | cons d t =>
    obtain ⟨m1, m2⟩ := foldl_min_spec t d
    obtain ⟨M1, M2⟩ := foldl_max_spec t d
    refine ⟨_, m1, _, M1, fun x hx => ⟨m2 x hx, M2 x hx⟩, ?_⟩
    unfold histRange
    simp only
    by_cases he : t.foldl min d = t.foldl max d
    · right; rw [if_pos he]; exact ⟨he, rfl, rfl⟩
    · left; rw [if_neg he]; exact ⟨lt_of_le_of_ne (M2 _ m1) he, rfl, rfl⟩

omit [FloorRing K] in
theorem IsRange.lt {ds : List K} {a b : K} (h : IsRange ds a b) : a < b := by
  obtain ⟨lo, -, hi, -, -, ⟨h1, rfl, rfl⟩ | ⟨h1, rfl, rfl⟩⟩ := h
  · exact h1
  · rw [h1]; linarith

omit [FloorRing K] in
theorem IsRange.mem {ds : List K} {a b : K} (h : IsRange ds a b) : ∀ d ∈ ds, a ≤ d ∧ d ≤ b := by
  obtain ⟨lo, -, hi, -, h2, ⟨h1, rfl, rfl⟩ | ⟨h1, rfl, rfl⟩⟩ := h
  · exact h2
  · intro d hd; have := h2 d hd; constructor <;> linarith

omit [IsStrictOrderedRing K] [FloorRing K] in
theorem histEdges_getD (ds : List K) (k i : Nat) (hi : i ≤ k) : (histEdges ds k).getD i 0 = binEdge (histRange ds).1 (histRange ds).2 k i := by
  unfold histEdges linspace binEdge
  rw [List.getD_eq_getElem?_getD, List.getElem?_map, List.getElem?_range (by omega)]
  simp

omit [FloorRing K] in
theorem binEdge_last {a b : K} {k : Nat} (hk : 1 ≤ k) : binEdge a b k k = b := by
  unfold binEdge
  have : (k : K) ≠ 0 := by have : (0 : K) < k := by exact_mod_cast hk
                           exact this.ne'
  field_simp; ring

omit [FloorRing K] in
theorem histCounts_eq (ds : List K) (k : Nat) (hk : 1 ≤ k) :
    histCounts ds k = (List.range k).map fun i => binCount (histRange ds).1 (histRange ds).2 k i ds := by
  unfold histCounts
  apply List.map_congr_left
  intro i hi
  have hi' : i < k := List.mem_range.1 hi
  unfold binCount
  apply List.countP_congr
  intro d _
  rw [histEdges_getD ds k i (by omega), histEdges_getD ds k (i + 1) (by omega)]
  by_cases he : i + 1 = k
  · rw [he, binEdge_last hk]; simp [le_iff_lt_or_eq]
  · simp [he]

omit [FloorRing K] in
/-- The bins partition the merges: counts add up. -/
theorem binCount_sum {ds : List K} {a b : K} (h : IsRange ds a b) (k : Nat) (hk : 1 ≤ k) : (((List.range k).map fun i => binCount a b k i ds).sum) = ds.length := by
  have hab := h.lt
  have hmem := h.mem
  have hw : 0 < (b - a) / k := div_pos (by linarith) (by exact_mod_cast hk)
  -- every merge is in exactly one bin
  have hone : ∀ d, a ≤ d → d ≤ b → ((List.range k).countP fun i => decide (binEdge a b k i ≤ d ∧ (d < binEdge a b k (i + 1) ∨ i + 1 = k ∧ d ≤ b))) = 1 := by
    intro d hd1 hd2
    have hmono : ∀ i j : Nat, i ≤ j → binEdge a b k i ≤ binEdge a b k j := by
      intro i j hij
      unfold binEdge
      have : (i : K) ≤ j := by exact_mod_cast hij
      nlinarith
    have hex : ∃ i, i < k ∧ binEdge a b k i ≤ d ∧ (d < binEdge a b k (i + 1) ∨ i + 1 = k ∧ d ≤ b) := by
      have : ∀ m, m ≤ k → (∃ i, i < m ∧ binEdge a b k i ≤ d ∧ (d < binEdge a b k (i + 1) ∨ i + 1 = k ∧ d ≤ b)) ∨ binEdge a b k m ≤ d := by
        intro m
        induction m with
        | zero => intro _; right; unfold binEdge; simpa using hd1
        | succ m ih =>
          intro hm
          rcases ih (by omega) with ⟨i, hi, h1, h2⟩ | h1
          · exact Or.inl ⟨i, by omega, h1, h2⟩
          · by_cases h2 : d < binEdge a b k (m + 1)
            · exact Or.inl ⟨m, by omega, h1, Or.inl h2⟩
            · exact Or.inr (not_lt.1 h2)
      rcases this (k - 1) (by omega) with ⟨i, hi, h1, h2⟩ | h1
      · exact ⟨i, by omega, h1, h2⟩
      · exact ⟨k - 1, by omega, h1, Or.inr ⟨by omega, hd2⟩⟩
    obtain ⟨i, hi, h1, h2⟩ := hex
    have huniq : ∀ j, j < k → (binEdge a b k j ≤ d ∧ (d < binEdge a b k (j + 1) ∨ j + 1 = k ∧ d ≤ b)) → j = i := by
      intro j hj ⟨h3, h4⟩
      rcases lt_trichotomy i j with hij | hij | hij
      · exfalso
        rcases h2 with h2 | ⟨h2, -⟩
        · have := hmono (i + 1) j (by omega); linarith
        · omega
      · exact hij.symm
      · exfalso
        rcases h4 with h4 | ⟨h4, -⟩
        · have := hmono (j + 1) i (by omega); linarith
        · omega
    have hcongr : ((List.range k).countP fun i => decide (binEdge a b k i ≤ d ∧ (d < binEdge a b k (i + 1) ∨ i + 1 = k ∧ d ≤ b))) = (List.range k).countP fun j => decide (j = i) := by
      apply List.countP_congr
      intro j hj
      have hj' := List.mem_range.1 hj
      simp only [decide_eq_true_eq]
      exact ⟨huniq j hj', by rintro rfl; exact ⟨h1, h2⟩⟩
    rw [hcongr]
    have : ((List.range k).countP fun j => decide (j = i)) = (List.range k).count i := by
      rw [List.count]; apply List.countP_congr; intro x _; simp
    rw [this, List.count_eq_one_of_mem List.nodup_range (List.mem_range.2 hi)]
  -- exchange the order of summation
  have hsw : ∀ l : List K, (∀ d ∈ l, a ≤ d ∧ d ≤ b) → ((List.range k).map fun i => binCount a b k i l).sum = l.length := by
    intro l
    induction l with
    | nil => intro _; simp [binCount]
    | cons d t ih =>
      intro hl
      have hd := hl d (by simp)
      have : ((List.range k).map fun i => binCount a b k i (d :: t)).sum =
          ((List.range k).map fun i => binCount a b k i t).sum + ((List.range k).countP fun i => decide (binEdge a b k i ≤ d ∧ (d < binEdge a b k (i + 1) ∨ i + 1 = k ∧ d ≤ b))) := by
        generalize List.range k = R
        induction R with
        | nil => rfl
        | cons j R ihR =>
          rw [List.map_cons, List.sum_cons, ihR, List.map_cons, List.sum_cons, List.countP_cons]
          have : binCount a b k j (d :: t) = binCount a b k j t + if decide (binEdge a b k j ≤ d ∧ (d < binEdge a b k (j + 1) ∨ j + 1 = k ∧ d ≤ b)) = true then 1 else 0 := by
            unfold binCount; rw [List.countP_cons]
          rw [this]; omega
      rw [this, ih (fun x hx => hl x (by simp [hx])), hone d hd.1 hd.2, List.length_cons]
  exact hsw ds hmem

/-- A bin is a gap for `FirstHistogramGap` if it is empty or has fewer than `freq_threshold` merges. -/
def IsGapBin (thr count : Nat) : Prop := count = 0 ∨ count < thr

theorem isGap_iff (thr count : Nat) : isGap thr count = true ↔ IsGapBin thr count := by
  unfold isGap IsGapBin
  split <;> simp <;> omega

theorem exists_zero_of_sum_lt (l : List Nat) (h : l.sum < l.length) : 0 ∈ l := by
  induction l with
  | nil => simp at h
  | cons a t ih =>
    rw [List.sum_cons, List.length_cons] at h
    by_cases ha : a = 0
    · simp [ha]
    · exact List.mem_cons_of_mem _ (ih (by omega))

theorem gapLoop_ok (thr nStart : Nat) (hs : 1 ≤ nStart) (ds : List K) (fuel i : Nat)
    (hex : ∃ j, i ≤ j ∧ j < i + fuel ∧ ∃ g, g < nStart + j ∧ IsGapBin thr (binCount (histRange ds).1 (histRange ds).2 (nStart + j) g ds)) :
    ∃ j g, i ≤ j ∧ gapLoop thr nStart ds fuel i = some (j, mergesUpTo ds (binEdge (histRange ds).1 (histRange ds).2 (nStart + j) g)) ∧
      (∀ j', i ≤ j' → j' < j → ∀ g', g' < nStart + j' → ¬ IsGapBin thr (binCount (histRange ds).1 (histRange ds).2 (nStart + j') g' ds)) ∧
      g < nStart + j ∧ IsGapBin thr (binCount (histRange ds).1 (histRange ds).2 (nStart + j) g ds) ∧
      ∀ g', g' < g → ¬ IsGapBin thr (binCount (histRange ds).1 (histRange ds).2 (nStart + j) g' ds) := by
  induction fuel generalizing i with
  | zero => obtain ⟨j, h1, h2, -⟩ := hex; omega
  | succ fuel ih =>
    have hk : 1 ≤ nStart + i := by omega
    have hget : ∀ (g : Nat) (hg : g < (histCounts ds (nStart + i)).length), (histCounts ds (nStart + i))[g] = binCount (histRange ds).1 (histRange ds).2 (nStart + i) g ds := by
      intro g hg
      simp only [histCounts_eq ds (nStart + i) hk, List.getElem_map, List.getElem_range]
    have hlen : (histCounts ds (nStart + i)).length = nStart + i := by simp [histCounts]
    cases hf : (histCounts ds (nStart + i)).findIdx? (isGap thr) with
    | some g =>
      rw [List.findIdx?_eq_some_iff_getElem] at hf
      obtain ⟨hg, hg1, hg2⟩ := hf
      have hf' : (histCounts ds (nStart + i)).findIdx? (isGap thr) = some g := by
        rw [List.findIdx?_eq_some_iff_getElem]; exact ⟨hg, hg1, hg2⟩
      refine ⟨i, g, le_refl _, ?_, by intro j' h1 h2; omega, by omega, ?_, ?_⟩
      · unfold gapLoop
        simp only [hf']
        rw [histEdges_getD ds (nStart + i) g (by omega)]; rfl
      · rw [hget g hg, isGap_iff] at hg1; exact hg1
      · intro g' hg'
        have := hg2 g' hg'
        rw [hget g' (by omega), isGap_iff] at this
        exact this
    | none =>
      have hno : ∀ g', g' < nStart + i → ¬ IsGapBin thr (binCount (histRange ds).1 (histRange ds).2 (nStart + i) g' ds) := by
        intro g' hg' hgap
        rw [List.findIdx?_eq_none_iff] at hf
        have := hf _ (List.getElem_mem (show g' < (histCounts ds (nStart + i)).length by omega))
        rw [hget g' (by omega), (isGap_iff _ _).2 hgap] at this
        exact absurd this (by simp)
      obtain ⟨j, h1, h2, g, hg, hgap⟩ := hex
      have hne : j ≠ i := by rintro rfl; exact hno g hg hgap
      obtain ⟨j0, g0, hj0, he, hmin, hrest⟩ := ih (i + 1) ⟨j, by omega, by omega, g, hg, hgap⟩
      refine ⟨j0, g0, by omega, ?_, ?_, hrest⟩
      · unfold gapLoop; simp only [hf, he]
      · intro j' h1' h2'
        rcases Nat.eq_or_lt_of_le h1' with rfl | hlt
        · exact hno
        · exact hmin j' (by omega) h2'

/-- **C50.** `FirstHistogramGap` on at least three samples terminates: for every vector of merge distances there is a number of bins `k`, at least `n_bins_start` and
reached after at most as many refinements as there are merges, which is the first one such that the histogram of the merge distances with `k` equal bins has a gap; `g` is
its first gap. The dendrogram is cut at the left edge of this gap: the number of clusters is the number of samples minus the number of merges up to that edge, or
`⌊max_fraction * n_samples⌋` if this is smaller. It is between one and the number of samples if `max_fraction * n_samples ≥ 1`, and (for `freq_threshold` 0 or 1) at least
two if `max_fraction * n_samples ≥ 2`: without a constraint, three or more samples are never put into a single cluster. -/
theorem C50_histogram_gap {α : Type} (build : List α → PyM (Dendrogram K)) (cut : Int → Dendrogram K → PyM (List Nat)) (thr nStart : Nat) (hs : 1 ≤ nStart) (f : K)
    (hf : 0 < f ∧ f ≤ 1) (X : List α) (hX : 3 ≤ X.length) (tree : Dendrogram K) (hb : build X = .ok tree) (hl : tree.distances.length + 1 = X.length) :
    ∃ (a b : K) (k g : Nat) (n : Int), IsRange tree.distances a b ∧ nStart ≤ k ∧ k ≤ nStart + tree.distances.length ∧
      (∀ k' g', nStart ≤ k' → k' < k → g' < k' → ¬ IsGapBin thr (binCount a b k' g' tree.distances)) ∧
      g < k ∧ IsGapBin thr (binCount a b k g tree.distances) ∧ (∀ g', g' < g → ¬ IsGapBin thr (binCount a b k g' tree.distances)) ∧
      (∀ fuel, X.length ≤ fuel →
        firstHistogramGapFit fuel build cut thr (some f) nStart X = (cut n tree).map (fun labels => some ⟨n, labels⟩)) ∧
      n = min ((X.length : Int) - mergesUpTo tree.distances (binEdge a b k g)) ⌊f * X.length⌋ ∧
      n ≤ X.length ∧ (n : K) ≤ f * X.length ∧ (1 ≤ f * (X.length : K) → 1 ≤ n) ∧ (thr ≤ 1 → 2 ≤ f * (X.length : K) → 2 ≤ n) := by
  set ds := tree.distances with hds
  have hne : ds ≠ [] := by intro h; rw [h] at hl; simp at hl; omega
  have hR := histRange_spec ds hne
  -- with more bins than merges there is an empty bin
  have hpig : ∃ g, g < nStart + ds.length ∧ IsGapBin thr (binCount (histRange ds).1 (histRange ds).2 (nStart + ds.length) g ds) := by
    have hsum := binCount_sum hR (nStart + ds.length) (by omega)
    have h0 := exists_zero_of_sum_lt ((List.range (nStart + ds.length)).map fun i => binCount (histRange ds).1 (histRange ds).2 (nStart + ds.length) i ds) (by
      rw [hsum]; simp; omega)
    obtain ⟨g, hg, hg0⟩ := List.mem_map.1 h0
    exact ⟨g, List.mem_range.1 hg, Or.inl hg0⟩
  obtain ⟨g0, hg0, hgap0⟩ := hpig
  have hgl : ∀ fuel, X.length ≤ fuel → _ := fun fuel hfuel => gapLoop_ok thr nStart hs ds fuel 0 ⟨ds.length, by omega, by omega, g0, hg0, hgap0⟩
  obtain ⟨j, g, -, he, hmin, hg, hgap, hgmin⟩ := hgl X.length (le_refl _)
  have hj : j ≤ ds.length := by
    by_contra hcon
    exact hmin ds.length (by omega) (by omega) g0 hg0 hgap0
  have hNK : ((ds.length : K) + 1) = (X.length : K) := by rw [← hl]; push_cast; ring
  set num : Int := (X.length : Int) - mergesUpTo ds (binEdge (histRange ds).1 (histRange ds).2 (nStart + j) g) with hnum
  have hmle : mergesUpTo ds (binEdge (histRange ds).1 (histRange ds).2 (nStart + j) g) ≤ ds.length := List.countP_le_length
  have hflN : f = 1 → min num ⌊f * (X.length : K)⌋ = num := by
    intro h1
    rw [h1, one_mul]
    have : ⌊(X.length : K)⌋ = (X.length : Int) := by exact_mod_cast Int.floor_natCast X.length
    rw [this, min_eq_left]; omega
  have hpos : 0 ≤ f * (X.length : K) := mul_nonneg hf.1.le (Nat.cast_nonneg _)
  refine ⟨(histRange ds).1, (histRange ds).2, nStart + j, g, min num ⌊f * (X.length : K)⌋, hR, by omega, by omega, ?_, hg, hgap, hgmin, ?_, rfl, ?_, ?_, ?_, ?_⟩
  · intro k' g' h1 h2 h3
    have := hmin (k' - nStart) (by omega) (by omega) g' (by omega)
    rwa [show nStart + (k' - nStart) = k' by omega] at this
  · intro fuel hfuel
    obtain ⟨j2, g2, -, he2, hmin2, hg2, hgap2, hgmin2⟩ := hgl fuel hfuel
    -- the loop result does not depend on the bound
    have hjj : j2 = j := by
      rcases lt_trichotomy j2 j with h | h | h
      · exact absurd hgap2 (hmin j2 (by omega) h g2 hg2)
      · exact h
      · exact absurd hgap (hmin2 j (by omega) h g hg)
    subst hjj
    have hgg : g2 = g := by
      rcases lt_trichotomy g2 g with h | h | h
      · exact absurd hgap2 (hgmin g2 h)
      · exact h
      · exact absurd hgap (hgmin2 g h)
    subst hgg
    have hnc : numClustersHistogram fuel ds thr nStart f = some (min num ⌊f * (X.length : K)⌋) := by
      unfold numClustersHistogram
      have e1 : ¬ ds.length = 1 := by omega
      rw [if_neg e1, he2]
      simp only
      have hn2 : (ds.length : Int) + 1 - (mergesUpTo ds (binEdge (histRange ds).1 (histRange ds).2 (nStart + j2) g2) : Int) = num := by
        rw [hnum, ← hl]; push_cast; ring
      rw [hn2, hNK]
      split
      · rename_i h1; rw [hflN h1]
      · rw [← floor_min_num]; split <;> rfl
    unfold firstHistogramGapFit
    have e1 : ¬ X.length = 0 := by omega
    have e2 : ¬ X.length = 1 := by omega
    have e3 : ¬ ((thr : Int) < 0) := by omega
    have e4 : ¬ ((nStart : Int) < 1) := by omega
    rw [if_neg e1, if_neg e3]
    simp only [checkFraction, hf, and_self, if_true, ok_bind, e2, e4, if_false, hb, Int.toNat_natCast, ← hds, hnc]
    cases cut (min num ⌊f * (X.length : K)⌋) tree <;> rfl
  · exact (min_le_left _ _).trans (by omega)
  · calc ((min num ⌊f * (X.length : K)⌋ : Int) : K) ≤ ((⌊f * (X.length : K)⌋ : Int) : K) := by exact_mod_cast min_le_right _ _
      _ ≤ _ := Int.floor_le _
  · intro h1
    exact le_min (by omega) (Int.le_floor.2 (by simpa using h1))
  · intro ht h2
    refine le_min ?_ (Int.le_floor.2 (by simpa using h2))
    -- the largest merge distance lies to the right of the left edge of the gap
    suffices hlt : mergesUpTo ds (binEdge (histRange ds).1 (histRange ds).2 (nStart + j) g) < ds.length by omega
    obtain ⟨lo, hlo, hi, hhi, hbd, hcase⟩ := hR
    have hab := (histRange_spec ds hne).lt
    have hedge : binEdge (histRange ds).1 (histRange ds).2 (nStart + j) g < hi := by
      have hc0 : binCount (histRange ds).1 (histRange ds).2 (nStart + j) g ds = 0 := by
        rcases hgap with h | h
        · exact h
        · omega
      by_contra hcon
      have hcon := not_lt.1 hcon
      have hkpos : (0 : K) < ((nStart + j : Nat) : K) := by exact_mod_cast (show 0 < nStart + j by omega)
      have hwpos : 0 < ((histRange ds).2 - (histRange ds).1) / ((nStart + j : Nat) : K) := div_pos (by linarith) hkpos
      have hgk : (g : K) + 1 ≤ ((nStart + j : Nat) : K) := by exact_mod_cast hg
      have hw : ((nStart + j : Nat) : K) * (((histRange ds).2 - (histRange ds).1) / ((nStart + j : Nat) : K)) = (histRange ds).2 - (histRange ds).1 := by
        field_simp
      have hlast : binEdge (histRange ds).1 (histRange ds).2 (nStart + j) g + ((histRange ds).2 - (histRange ds).1) / ((nStart + j : Nat) : K) ≤ (histRange ds).2 := by
        unfold binEdge
        nlinarith
      rcases hcase with ⟨h1, ha, hb'⟩ | ⟨h1, ha, hb'⟩
      · -- the edge is below the maximum
        have := hb'.le
        linarith
      · -- all merges coincide: they are in the bin before, which is the first gap
        -- bin 0 is empty or is the only one
        have hb0 : binCount (histRange ds).1 (histRange ds).2 (nStart + j) 0 ds = 0 ∨ nStart + j = 1 := by
          by_cases hk1 : nStart + j = 1
          · exact Or.inr hk1
          · left
            unfold binCount
            rw [List.countP_eq_zero]
            intro d hd
            have hdlo : d = lo := le_antisymm ((hbd d hd).2.trans h1.symm.le) (hbd d hd).1
            have hk2 : (2 : K) ≤ ((nStart + j : Nat) : K) := by exact_mod_cast (show 2 ≤ nStart + j by omega)
            have he1 : binEdge (histRange ds).1 (histRange ds).2 (nStart + j) 1 ≤ lo := by
              unfold binEdge
              rw [ha, hb', ← h1]
              have : (lo + 1 / 2 - (lo - 1 / 2)) / ((nStart + j : Nat) : K) ≤ 1 / 2 := by
                rw [div_le_iff₀ hkpos]; linarith
              push_cast at this ⊢
              linarith
            simp only [decide_eq_true_eq, not_and_or, not_or]
            right
            refine ⟨by rw [hdlo]; simpa using he1, ?_⟩
            left; omega
        have hg00 : g = 0 := by
          rcases hb0 with h | h
          · by_contra hg1
            exact hgmin 0 (by omega) (Or.inl h)
          · omega
        rw [hg00] at hcon
        unfold binEdge at hcon
        rw [ha] at hcon
        push_cast at hcon
        rw [h1] at hcon
        linarith
    unfold mergesUpTo
    rw [List.countP_lt_length_iff]
    exact ⟨hi, hhi, by simpa using hedge⟩

/-- Non-vacuity of `C50_histogram_gap`: merge distances `1, 2, 3, 4, 5` with five initial bins need one refinement. -/
example : firstHistogramGapFit (K := ℚ) 6 (fun (_ : List Nat) => .ok ⟨[(0, 1), (2, 6), (3, 7), (4, 8), (5, 9)], 6, [1, 2, 3, 4, 5]⟩) (fun n _ => .ok (List.range n.toNat)) 0 (some 1) 5
    [0, 1, 3, 6, 10, 15] = .ok (some ⟨4, [0, 1, 2, 3]⟩) := by decide +kernel

/-- Two samples are always one cluster (there is a single merge), one sample as well; `max_fraction` plays no role. -/
theorem C50_two_samples {α : Type} (build : List α → PyM (Dendrogram K)) (cut : Int → Dendrogram K → PyM (List Nat)) (thr nStart : Nat) (hs : 1 ≤ nStart) (f : K)
    (hf : 0 < f ∧ f ≤ 1) (x y : α) (tree : Dendrogram K) (hb : build [x, y] = .ok tree) (hl : tree.distances.length = 1) (fuel : Nat) :
    firstHistogramGapFit fuel build cut thr (some f) nStart [x, y] = (cut 1 tree).map (fun labels => some ⟨1, labels⟩) ∧
    firstHistogramGapFit fuel build cut thr (some f) nStart [x] = .ok (some ⟨1, [0]⟩) := by
  have e3 : ¬ ((thr : Int) < 0) := by omega
  have e4 : ¬ ((nStart : Int) < 1) := by omega
  constructor
  · unfold firstHistogramGapFit
    simp only [List.length_cons, List.length_nil, checkFraction, hf, and_self, if_true, ok_bind, e3, e4, if_false, hb, numClustersHistogram, hl]
    simp
    cases cut 1 tree <;> rfl
  · simp [firstHistogramGapFit, checkFraction, hf, e3, e4]

/-- **C50, the documented threshold is not the one used.** The documentation calls "gap" a bin of height *no greater than* `freq_threshold`; in fact `freq_threshold = 1` always
gives the same result as `freq_threshold = 0`, so a bin with one merge is not a gap for `freq_threshold = 1`. -/
theorem C50_refuted_documented_threshold {α : Type} (build : List α → PyM (Dendrogram K)) (cut : Int → Dendrogram K → PyM (List Nat)) (nStart : Int) (f : Option K) (X : List α)
    (fuel : Nat) : firstHistogramGapFit fuel build cut 1 f nStart X = firstHistogramGapFit fuel build cut 0 f nStart X := by
  have hgap : isGap 1 = isGap 0 := by funext c; simp [isGap]
  have hloop : ∀ (nS fuel i : Nat) (ds : List K), gapLoop 1 nS ds fuel i = gapLoop 0 nS ds fuel i := by
    intro nS fuel
    induction fuel with
    | zero => intro i ds; rfl
    | succ n ih => intro i ds; unfold gapLoop; rw [hgap, ih]
  unfold firstHistogramGapFit
  simp only [numClustersHistogram, Int.toNat_one, Int.toNat_zero, hloop]
  simp

example : firstHistogramGapFit (K := ℚ) 6 (fun (_ : List Nat) => .ok ⟨[(0, 1), (2, 6), (3, 7), (4, 8), (5, 9)], 6, [1, 2, 3, 4, 5]⟩) (fun n _ => .ok (List.range n.toNat)) 1 (some 1) 5
    [0, 1, 3, 6, 10, 15] = .ok (some ⟨4, [0, 1, 2, 3]⟩) ∧ ∀ i, i < 5 → binCount (K := ℚ) 1 5 5 i [1, 2, 3, 4, 5] ≤ 1 := by decide +kernel

end Gtda.Props
