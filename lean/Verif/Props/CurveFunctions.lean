import Verif.Model.CurveFunctions
import Verif.Spec.CurveFunctions
import Verif.Props.CurveFeatures
import Verif.Props.TimeSeriesMore
import Mathlib.Algebra.Order.BigOperators.Ring.Finset
import Mathlib.Algebra.BigOperators.Intervals

set_option autoImplicit false

/-!
# C161: the named features of curves
-/

namespace Gtda.Props.CurveFunctions
open Gtda.Py Gtda.CurveFeatures Gtda.CurveFunctions Gtda.Spec Gtda.Props

/-! ### Auxiliary results -/

theorem foldl_max_spec : ∀ (x : List ℝ) (a : ℝ), x.foldl max a ∈ a :: x ∧ ∀ b ∈ a :: x, b ≤ x.foldl max a := by
  intro x
  induction x with
  | nil => intro a; simp
  | cons c x ih =>
    intro a
    obtain ⟨h1, h2⟩ := ih (max a c)
    rw [List.foldl_cons]
    refine ⟨?_, ?_⟩
    · rcases List.mem_cons.1 h1 with h | h
      · rw [h]
        rcases max_choice a c with h' | h' <;> rw [h'] <;> simp
      · simp [h]
    · intro b hb
      have hm := h2 _ (List.mem_cons_self ..)
      rcases List.mem_cons.1 hb with rfl | hb
      · exact (le_max_left _ _).trans hm
      · rcases List.mem_cons.1 hb with rfl | hb
        · exact (le_max_right _ _).trans hm
        · exact h2 b (List.mem_cons_of_mem _ hb)

theorem foldl_min_spec : ∀ (x : List ℝ) (a : ℝ), x.foldl min a ∈ a :: x ∧ ∀ b ∈ a :: x, x.foldl min a ≤ b := by
  intro x
  induction x with
  | nil => intro a; simp
  | cons c x ih =>
    intro a
    obtain ⟨h1, h2⟩ := ih (min a c)
    rw [List.foldl_cons]
    refine ⟨?_, ?_⟩
    · rcases List.mem_cons.1 h1 with h | h
      · rw [h]
        rcases min_choice a c with h' | h' <;> rw [h'] <;> simp
      · simp [h]
    · intro b hb
      have hm := h2 _ (List.mem_cons_self ..)
      rcases List.mem_cons.1 hb with rfl | hb
      · exact hm.trans (min_le_left _ _)
      · rcases List.mem_cons.1 hb with rfl | hb
        · exact hm.trans (min_le_right _ _)
        · exact h2 b (List.mem_cons_of_mem _ hb)

theorem npMax_spec (x : List ℝ) (hx : x ≠ []) : ∃ m, npMax x = .ok m ∧ IsMax x m := by
  cases x with
  | nil => exact absurd rfl hx
  | cons a x => exact ⟨_, rfl, foldl_max_spec x a⟩

theorem npMin_spec (x : List ℝ) (hx : x ≠ []) : ∃ m, npMin x = .ok m ∧ IsMin x m := by
  cases x with
  | nil => exact absurd rfl hx
  | cons a x => exact ⟨_, rfl, foldl_min_spec x a⟩

theorem idxOf_first (x : List ℝ) (m : ℝ) (h : m ∈ x) : IsFirst x m ((x.idxOf m : Nat) : ℝ) := by
  refine ⟨_, rfl, ?_, ?_⟩
  · have hl := List.idxOf_lt_length_of_mem h
    rw [List.getElem?_eq_getElem hl, List.getElem_idxOf hl]
  · intro k hk e
    induction x generalizing k with
    | nil => simp at h
    | cons a x ih =>
      by_cases ha : a = m
      · subst ha; simp at hk
      · rw [List.idxOf_cons_ne _ ha] at hk
        cases k with
        | zero => exact ha (by simpa using e)
        | succ k => exact ih ((List.mem_cons.1 h).resolve_left fun h' => ha h'.symm) k (by omega) (by simpa using e)

theorem mean_mul (x : List ℝ) (hx : x ≠ []) : npMean x * x.length = x.sum := by
  have : (x.length : ℝ) ≠ 0 := by simpa using hx
  unfold npMean
  field_simp

theorem npMedian_spec (x : List ℝ) (hx : x ≠ []) : IsMedian x (npMedian x) := by
  have hl : (x.insertionSort (· ≤ ·)).length = x.length := List.length_insertionSort _ _
  have hp := List.length_pos_of_ne_nil hx
  have h1 : (x.length - 1) / 2 < (x.insertionSort (· ≤ ·)).length := by omega
  have h2 : x.length / 2 < (x.insertionSort (· ≤ ·)).length := by omega
  refine ⟨x.insertionSort (· ≤ ·), List.perm_insertionSort _ _, List.pairwise_insertionSort _ _, _, _, List.getElem?_eq_getElem h1, List.getElem?_eq_getElem h2, ?_⟩
  unfold npMedian
  simp only [List.getD_eq_getElem?_getD, List.getElem?_eq_getElem h1, List.getElem?_eq_getElem h2, Option.getD_some]

theorem recipe_spec (s : String) (hs : s ∈ featureNames) (x : List ℝ) (hx : x ≠ []) : ∃ v, recipe s [] x = .ok v ∧ IsFeature s x v := by
  obtain ⟨M, hM, hM'⟩ := npMax_spec x hx
  obtain ⟨m, hm, hm'⟩ := npMin_spec x hx
  have hlen : (0 : ℝ) < x.length := by exact_mod_cast List.length_pos_of_ne_nil hx
  simp only [featureNames, List.mem_cons, List.not_mem_nil, or_false] at hs
  rcases hs with rfl | rfl | rfl | rfl | rfl | rfl | rfl | rfl
  · exact ⟨((x.idxOf M : Nat) : ℝ), by simp [recipe, npArgmax, hM], by simp [IsFeature]; exact ⟨M, hM', idxOf_first x M hM'.1⟩⟩
  · exact ⟨((x.idxOf m : Nat) : ℝ), by simp [recipe, npArgmin, hm], by simp [IsFeature]; exact ⟨m, hm', idxOf_first x m hm'.1⟩⟩
  · exact ⟨m, by simp [recipe, hm], by simp [IsFeature]; exact hm'⟩
  · exact ⟨M, by simp [recipe, hM], by simp [IsFeature]; exact hM'⟩
  · exact ⟨npMean x, by simp [recipe], by simp [IsFeature]; exact mean_mul x hx⟩
  · refine ⟨npStd x, by simp [recipe], ?_⟩
    have h2 : npStd x ^ 2 * x.length = (x.map fun a => (a - npMean x) ^ 2).sum := by
      have h := mean_mul (x.map fun a => (a - npMean x) ^ 2) (by simpa using hx)
      rw [List.length_map] at h
      rw [← h]
      unfold npStd
      rw [Real.sq_sqrt]
      unfold npMean
      refine div_nonneg (List.sum_nonneg ?_) (by positivity)
      intro b hb
      obtain ⟨a, -, rfl⟩ := List.mem_map.1 hb
      positivity
    simp only [IsFeature]
    simp only [show ("std" : String) ≠ "max" by decide, show ("std" : String) ≠ "min" by decide, show ("std" : String) ≠ "argmax" by decide, show ("std" : String) ≠ "argmin" by decide,
      show ("std" : String) ≠ "mean" by decide, show ("std" : String) ≠ "average" by decide, show ("std" : String) ≠ "median" by decide, false_imp_iff, or_self, true_and, and_true, true_imp_iff]
    exact ⟨Real.sqrt_nonneg _, npMean x, mean_mul x hx, h2⟩
  · exact ⟨npMedian x, by simp [recipe], by simp [IsFeature]; exact npMedian_spec x hx⟩
  · exact ⟨npMean x, by simp [recipe], by simp [IsFeature]; exact mean_mul x hx⟩

theorem names_available (s : String) (hs : s ∈ featureNames) : s ∈ curveFunctions ∧ s ≠ "identity" := by
  simp only [featureNames, List.mem_cons, List.not_mem_nil, or_false] at hs
  rcases hs with rfl | rfl | rfl | rfl | rfl | rfl | rfl | rfl <;> decide

theorem perm_sorted_unique {s s' : List ℝ} (hp : s.Perm s') (h : s.Pairwise (· ≤ ·)) (h' : s'.Pairwise (· ≤ ·)) : s = s' :=
  List.Perm.eq_of_pairwise (fun _ _ _ _ h1 h2 => le_antisymm h1 h2) h h' hp

theorem median_unique {x : List ℝ} {v v' : ℝ} (h : IsMedian x v) (h' : IsMedian x v') : v = v' := by
  obtain ⟨s, hp, hs, a, b, ha, hb, rfl⟩ := h
  obtain ⟨s', hp', hs', a', b', ha', hb', rfl⟩ := h'
  obtain rfl := perm_sorted_unique (hp.trans hp'.symm) hs hs'
  rw [ha] at ha'
  rw [hb] at hb'
  rw [Option.some.inj ha', Option.some.inj hb']

theorem median_bounds {x : List ℝ} {v a b : ℝ} (h : IsMedian x v) (ha : IsMin x a) (hb : IsMax x b) : a ≤ v ∧ v ≤ b := by
  obtain ⟨s, hp, -, y, z, hy, hz, rfl⟩ := h
  have hy' := hp.mem_iff.1 (List.mem_of_getElem? hy)
  have hz' := hp.mem_iff.1 (List.mem_of_getElem? hz)
  constructor <;> linarith [ha.2 y hy', ha.2 z hz', hb.2 y hy', hb.2 z hz']

theorem countP_within {ε : ℝ} {x x' : List ℝ} (h : Within ε x x') (v : ℝ) : x.countP (fun a => decide (a ≤ v)) ≤ x'.countP fun a => decide (a ≤ v + ε) := by
  induction h with
  | nil => simp
  | @cons a b x x' hab _ ih =>
    rw [List.countP_cons, List.countP_cons]
    have := abs_le.1 hab
    by_cases ha : a ≤ v
    · have hb : b ≤ v + ε := by linarith
      simp only [ha, hb, decide_true, if_true]
      omega
    · simp only [ha, decide_false, Bool.false_eq_true, if_false]
      omega

theorem kth_within {ε : ℝ} {x x' s s' : List ℝ} (h : Within ε x x') (hp : s.Perm x) (hp' : s'.Perm x') (hs : s.Pairwise (· ≤ ·)) (hs' : s'.Pairwise (· ≤ ·)) (k : Nat) (a a' : ℝ)
    (ha : s[k]? = some a) (ha' : s'[k]? = some a') : a' ≤ a + ε := by
  obtain ⟨hk, rfl⟩ := List.getElem?_eq_some_iff.1 ha
  obtain ⟨hk', rfl⟩ := List.getElem?_eq_some_iff.1 ha'
  rw [sorted_le_iff_lt_count s' hs' _ k hk']
  have h1 := (sorted_le_iff_lt_count s hs s[k] k hk).1 le_rfl
  have h2 := countP_within h s[k]
  rw [← hp.countP_eq, ← hp'.countP_eq] at h2
  exact lt_of_lt_of_le h1 h2

theorem within_symm {ε : ℝ} {x x' : List ℝ} (h : Within ε x x') : Within ε x' x := by
  induction h with
  | nil => exact .nil
  | cons hab _ ih => exact .cons (by rwa [abs_sub_comm]) ih

theorem median_within {ε : ℝ} {x x' : List ℝ} {v v' : ℝ} (hw : Within ε x x') (h : IsMedian x v) (h' : IsMedian x' v') : |v - v'| ≤ ε := by
  have hl : x.length = x'.length := hw.length_eq
  obtain ⟨s, hp, hs, a, b, ha, hb, rfl⟩ := h
  obtain ⟨s', hp', hs', a', b', ha', hb', rfl⟩ := h'
  rw [← hl] at ha' hb'
  have h1 := kth_within hw hp hp' hs hs' _ a a' ha ha'
  have h2 := kth_within hw hp hp' hs hs' _ b b' hb hb'
  have h3 := kth_within (within_symm hw) hp' hp hs' hs _ a' a ha' ha
  have h4 := kth_within (within_symm hw) hp' hp hs' hs _ b' b hb' hb
  rw [abs_le]
  constructor <;> linarith

theorem median_map {x : List ℝ} {v : ℝ} (c e : ℝ) (h : IsMedian x v) : IsMedian (x.map fun a => c * a + e) (c * v + e) := by
  obtain ⟨s, hp, hs, a, b, ha, hb, rfl⟩ := h
  have hsl := hp.length_eq
  rcases le_or_gt 0 c with hc | hc
  · refine ⟨s.map fun a => c * a + e, hp.map _, ?_, c * a + e, c * b + e, ?_, ?_, by ring⟩
    · rw [List.pairwise_map]
      exact hs.imp fun {p q} hpq => by nlinarith
    · rw [List.length_map, List.getElem?_map, ha]; rfl
    · rw [List.length_map, List.getElem?_map, hb]; rfl
  · have hpos : 0 < x.length := by
      obtain ⟨hk, -⟩ := List.getElem?_eq_some_iff.1 hb
      omega
    refine ⟨(s.map fun a => c * a + e).reverse, (List.reverse_perm _).trans (hp.map _), ?_, c * b + e, c * a + e, ?_, ?_, by ring⟩
    · rw [List.pairwise_reverse, List.pairwise_map]
      exact hs.imp fun {p q} hpq => by nlinarith
    · rw [List.getElem?_reverse (by simp; omega), List.length_map, List.length_map, hsl, show x.length - 1 - (x.length - 1) / 2 = x.length / 2 by omega, List.getElem?_map, hb]; rfl
    · rw [List.getElem?_reverse (by simp; omega), List.length_map, List.length_map, hsl, show x.length - 1 - x.length / 2 = (x.length - 1) / 2 by omega, List.getElem?_map, ha]; rfl

/-- A sum over a list as a sum over positions. -/
theorem sum_range (x : List ℝ) (f : ℝ → ℝ) : (x.map f).sum = ∑ k ∈ Finset.range x.length, f (x.getD k 0) := by
  induction x with
  | nil => simp
  | cons a x ih =>
    rw [List.map_cons, List.sum_cons, List.length_cons, Finset.sum_range_succ', ih]
    simp [add_comm]

theorem std_bound {x : List ℝ} {a b σ : ℝ} (hx : x ≠ []) (hσ : IsFeature "std" x σ) (ha : IsMin x a) (hb : IsMax x b) : σ ≤ (b - a) / 2 := by
  obtain ⟨h0, μ, hμ, h2⟩ := hσ.2.2.2.2.2.1 rfl
  have hn : (0 : ℝ) < x.length := by exact_mod_cast List.length_pos_of_ne_nil hx
  have hab : a ≤ b := ha.2 b hb.1
  have key : ∀ l : List ℝ, (∀ y ∈ l, a ≤ y ∧ y ≤ b) → (l.map fun y => (y - μ) ^ 2).sum ≤ (a + b - 2 * μ) * l.sum + (μ ^ 2 - a * b) * l.length := by
    intro l
    induction l with
    | nil => intro _; simp
    | cons y l ih =>
      intro hl
      have h1 := ih fun z hz => hl z (List.mem_cons_of_mem _ hz)
      obtain ⟨h3, h4⟩ := hl y (List.mem_cons_self ..)
      simp only [List.map_cons, List.sum_cons, List.length_cons]
      push_cast
      nlinarith [mul_nonneg (sub_nonneg.2 h3) (sub_nonneg.2 h4)]
  have h := key x fun y hy => ⟨ha.2 y hy, hb.2 y hy⟩
  rw [← h2, ← hμ] at h
  have h5 : σ ^ 2 ≤ ((b - a) / 2) ^ 2 := by
    have : σ ^ 2 * x.length ≤ ((b - a) / 2) ^ 2 * x.length := by nlinarith [sq_nonneg (μ - (a + b) / 2)]
    exact le_of_mul_le_mul_right this hn
  exact (abs_le.1 (abs_le_of_sq_le_sq h5 (by linarith))).2

theorem mean_bounds {x : List ℝ} {a b μ : ℝ} (hx : x ≠ []) (hμ : μ * x.length = x.sum) (ha : IsMin x a) (hb : IsMax x b) : a ≤ μ ∧ μ ≤ b := by
  have hn : (0 : ℝ) < x.length := by exact_mod_cast List.length_pos_of_ne_nil hx
  have key : ∀ l : List ℝ, (∀ y ∈ l, a ≤ y ∧ y ≤ b) → a * l.length ≤ l.sum ∧ l.sum ≤ b * l.length := by
    intro l
    induction l with
    | nil => intro _; simp
    | cons y l ih =>
      intro hl
      obtain ⟨h1, h2⟩ := ih fun z hz => hl z (List.mem_cons_of_mem _ hz)
      obtain ⟨h3, h4⟩ := hl y (List.mem_cons_self ..)
      simp only [List.sum_cons, List.length_cons]
      push_cast
      constructor <;> linarith
  obtain ⟨h1, h2⟩ := key x fun y hy => ⟨ha.2 y hy, hb.2 y hy⟩
  rw [← hμ] at h1 h2
  exact ⟨le_of_mul_le_mul_right h1 hn, le_of_mul_le_mul_right h2 hn⟩

theorem within_get {ε : ℝ} {x x' : List ℝ} (h : Within ε x x') : ∀ k < x.length, |x.getD k 0 - x'.getD k 0| ≤ ε := by
  induction h with
  | nil => intro k hk; simp at hk
  | cons hab _ ih =>
    intro k hk
    cases k with
    | zero => simpa using hab
    | succ k => simpa using ih k (by simpa using hk)

theorem max_within {ε : ℝ} {x x' : List ℝ} {v v' : ℝ} (hw : Within ε x x') (h : IsMax x v) (h' : IsMax x' v') : v ≤ v' + ε := by
  obtain ⟨k, hk, rfl⟩ := List.mem_iff_getElem.1 h.1
  have hl := hw.length_eq
  have h1 := within_get hw k hk
  have h2 := h'.2 x'[k] (List.getElem_mem _)
  simp only [List.getD_eq_getElem?_getD, List.getElem?_eq_getElem hk, List.getElem?_eq_getElem (show k < x'.length from hl ▸ hk), Option.getD_some] at h1
  linarith [(abs_le.1 h1).2]

theorem min_within {ε : ℝ} {x x' : List ℝ} {v v' : ℝ} (hw : Within ε x x') (h : IsMin x v) (h' : IsMin x' v') : v' ≤ v + ε := by
  obtain ⟨k, hk, rfl⟩ := List.mem_iff_getElem.1 h.1
  have hl := hw.length_eq
  have h1 := within_get hw k hk
  have h2 := h'.2 x'[k] (List.getElem_mem _)
  simp only [List.getD_eq_getElem?_getD, List.getElem?_eq_getElem hk, List.getElem?_eq_getElem (show k < x'.length from hl ▸ hk), Option.getD_some] at h1
  linarith [(abs_le.1 h1).1]

theorem mean_within {ε : ℝ} {x x' : List ℝ} {v v' : ℝ} (hx : x ≠ []) (hw : Within ε x x') (h : v * x.length = x.sum) (h' : v' * x'.length = x'.sum) : |v - v'| ≤ ε := by
  have hn : (0 : ℝ) < x.length := by exact_mod_cast List.length_pos_of_ne_nil hx
  have hl : x.length = x'.length := hw.length_eq
  have key : |x.sum - x'.sum| ≤ ε * x.length := by
    have h1 := sum_range x id
    have h2 := sum_range x' id
    rw [List.map_id] at h1 h2
    rw [h1, h2, ← hl, ← Finset.sum_sub_distrib]
    refine (Finset.abs_sum_le_sum_abs _ _).trans ((Finset.sum_le_card_nsmul _ _ ε fun k hk => within_get hw k (Finset.mem_range.1 hk)).trans ?_)
    rw [Finset.card_range, nsmul_eq_mul, mul_comm]
  rw [← h, ← h', ← hl, ← sub_mul, abs_mul, abs_of_pos hn] at key
  exact le_of_mul_le_mul_right key hn

theorem std_within {ε : ℝ} (hε : 0 ≤ ε) {x x' : List ℝ} {v v' : ℝ} (hx : x ≠ []) (hw : Within ε x x') (h : IsFeature "std" x v) (h' : IsFeature "std" x' v') : v' ≤ v + ε := by
  obtain ⟨h0, μ, hμ, h2⟩ := h.2.2.2.2.2.1 rfl
  obtain ⟨h0', μ', hμ', h2'⟩ := h'.2.2.2.2.2.1 rfl
  have hn : (0 : ℝ) < x.length := by exact_mod_cast List.length_pos_of_ne_nil hx
  have hl : x.length = x'.length := hw.length_eq
  set n := x.length
  rw [sum_range] at h2 h2'
  have e1 := sum_range x id
  have e2 := sum_range x' id
  rw [List.map_id, ← hμ] at e1
  rw [List.map_id, ← hμ'] at e2
  rw [← hl] at h2' e2
  change v ^ 2 * (n : ℝ) = ∑ k ∈ Finset.range n, (x.getD k 0 - μ) ^ 2 at h2
  change μ * (n : ℝ) = ∑ k ∈ Finset.range n, x.getD k 0 at e1
  change μ' * (n : ℝ) = ∑ k ∈ Finset.range n, x'.getD k 0 at e2
  change v' ^ 2 * (n : ℝ) = ∑ k ∈ Finset.range n, (x'.getD k 0 - μ') ^ 2 at h2'
  -- deviations of the first curve, and of the difference
  have hV : ∑ k ∈ Finset.range n, ((x'.getD k 0 - x.getD k 0) - (μ' - μ)) ^ 2 ≤ ε ^ 2 * n := by
    have hexp : ∑ k ∈ Finset.range n, ((x'.getD k 0 - x.getD k 0) - (μ' - μ)) ^ 2 = ∑ k ∈ Finset.range n, (x'.getD k 0 - x.getD k 0) ^ 2 - n * (μ' - μ) ^ 2 := by
      have : ∀ k ∈ Finset.range n, ((x'.getD k 0 - x.getD k 0) - (μ' - μ)) ^ 2 =
          (x'.getD k 0 - x.getD k 0) ^ 2 - 2 * (μ' - μ) * x'.getD k 0 + 2 * (μ' - μ) * x.getD k 0 + (μ' - μ) ^ 2 := fun k _ => by ring
      rw [Finset.sum_congr rfl this, Finset.sum_add_distrib, Finset.sum_add_distrib, Finset.sum_sub_distrib, ← Finset.mul_sum, ← Finset.mul_sum, ← e1, ← e2, Finset.sum_const,
        Finset.card_range, nsmul_eq_mul]
      ring
    have hs : ∑ k ∈ Finset.range n, (x'.getD k 0 - x.getD k 0) ^ 2 ≤ n * ε ^ 2 := by
      refine (Finset.sum_le_card_nsmul _ _ (ε ^ 2) fun k hk => ?_).trans (by rw [Finset.card_range, nsmul_eq_mul])
      have := within_get hw k (Finset.mem_range.1 hk)
      rw [abs_sub_comm] at this
      exact sq_le_sq' (abs_le.1 this).1 (abs_le.1 this).2
    rw [hexp]
    nlinarith [sq_nonneg (μ' - μ)]
  have hcs := Finset.sum_mul_sq_le_sq_mul_sq (Finset.range n) (fun k => x.getD k 0 - μ) fun k => (x'.getD k 0 - x.getD k 0) - (μ' - μ)
  rw [← h2] at hcs
  have hUV : ∑ k ∈ Finset.range n, (x.getD k 0 - μ) * ((x'.getD k 0 - x.getD k 0) - (μ' - μ)) ≤ v * ε * n := by
    refine (abs_le.1 (abs_le_of_sq_le_sq (hcs.trans ?_) (by positivity))).2
    calc v ^ 2 * n * ∑ k ∈ Finset.range n, ((x'.getD k 0 - x.getD k 0) - (μ' - μ)) ^ 2 ≤ v ^ 2 * n * (ε ^ 2 * n) := mul_le_mul_of_nonneg_left hV (by positivity)
      _ = (v * ε * n) ^ 2 := by ring
  have hsum : v' ^ 2 * (n : ℝ) ≤ (v + ε) ^ 2 * n := by
    have : ∀ k ∈ Finset.range n, (x'.getD k 0 - μ') ^ 2 = (x.getD k 0 - μ) ^ 2 + 2 * ((x.getD k 0 - μ) * ((x'.getD k 0 - x.getD k 0) - (μ' - μ))) +
        ((x'.getD k 0 - x.getD k 0) - (μ' - μ)) ^ 2 := fun k _ => by ring
    rw [h2', Finset.sum_congr rfl this, Finset.sum_add_distrib, Finset.sum_add_distrib, ← Finset.mul_sum, ← h2]
    nlinarith
  exact (abs_le.1 (abs_le_of_sq_le_sq (le_of_mul_le_mul_right hsum hn) (by positivity))).2

/-- The output of `StandardFeatures` with the name of a function. -/
theorem transform_spec (order : List Nat) (s : String) (hs : s ∈ featureNames) (n : Nat) (X : List (List (List ℝ))) (hX : ∀ c ∈ X, ∀ x ∈ c, x ≠ []) :
    ∃ f : List ℝ → ℝ, (∀ x : List ℝ, x ≠ [] → IsFeature s x (f x)) ∧ featuresFitTransform recipe order (.one (.str s)) .none n X = .ok (X.map fun c => c.map f) := by
  classical
  have hex : ∀ x : List ℝ, ∃ v, x ≠ [] → recipe s [] x = .ok v ∧ IsFeature s x v := by
    intro x
    by_cases hx : x = []
    · exact ⟨0, fun h => absurd hx h⟩
    · obtain ⟨v, hv⟩ := recipe_spec s hs x hx
      exact ⟨v, fun _ => hv⟩
  choose f hf using hex
  obtain ⟨h1, h2⟩ := names_available s hs
  refine ⟨f, fun x hx => (hf x hx).2, (C79_string recipe order s h1 n .none [] (Or.inl ⟨rfl, rfl⟩) (by simp [Accepts]) X _).2 h2 ?_⟩
  rw [List.forall₂_map_right_iff, List.forall₂_same]
  intro c hc
  rw [List.forall₂_map_right_iff, List.forall₂_same]
  intro x hx
  exact (hf x (hX c hc x hx)).1

theorem entry_feature (order : List Nat) (s : String) (hs : s ∈ featureNames) (n : Nat) (X : List (List (List ℝ))) (hX : ∀ c ∈ X, ∀ x ∈ c, x ≠ []) (R : List (List ℝ))
    (hR : featuresFitTransform recipe order (.one (.str s)) .none n X = .ok R) (i j : Nat) (x : List ℝ) (v : ℝ) (hx : Entry X i j x) (hv : Entry R i j v) : IsFeature s x v ∧ x ≠ [] := by
  obtain ⟨f, hf, he⟩ := transform_spec order s hs n X hX
  rw [he] at hR
  obtain rfl := Except.ok.inj hR
  obtain ⟨c, hc, hj⟩ := hx
  obtain ⟨row, hr, hv⟩ := hv
  rw [List.getElem?_map, hc] at hr
  obtain rfl := Option.some.inj hr
  rw [List.getElem?_map, hj] at hv
  obtain rfl := Option.some.inj hv
  have hne := hX c (List.mem_of_getElem? hc) x (List.mem_of_getElem? hj)
  exact ⟨hf x hne, hne⟩

/-! ### Properties -/

/-- **C161.** `StandardFeatures` with the name of a function: one number for each curve and channel, which is the feature of that name. -/
theorem C161_values (order : List Nat) (s : String) (hs : s ∈ featureNames) (n : Nat) (X : List (List (List ℝ))) (hX : ∀ c ∈ X, ∀ x ∈ c, x ≠ []) :
    ∃ R, featuresFitTransform recipe order (.one (.str s)) .none n X = .ok R ∧ R.map List.length = X.map List.length ∧
      ∀ (i j : Nat) x, Entry X i j x → ∃ v, Entry R i j v ∧ IsFeature s x v := by
  obtain ⟨f, hf, he⟩ := transform_spec order s hs n X hX
  refine ⟨_, he, ?_, ?_⟩
  · rw [List.map_map]
    exact List.map_congr_left fun c _ => by simp
  · rintro i j x ⟨c, hc, hj⟩
    refine ⟨f x, ⟨c.map f, by rw [List.getElem?_map, hc]; rfl, by rw [List.getElem?_map, hj]; rfl⟩, hf x (hX c (List.mem_of_getElem? hc) x (List.mem_of_getElem? hj))⟩

/-- **C161.** Mean, average and median are between minimum and maximum, and the standard deviation is at most half their difference. -/
theorem C161_order (order : List Nat) (n : Nat) (X : List (List (List ℝ))) (hX : ∀ c ∈ X, ∀ x ∈ c, x ≠ []) (R : String → List (List ℝ))
    (hR : ∀ s ∈ featureNames, featuresFitTransform recipe order (.one (.str s)) .none n X = .ok (R s)) (i j : Nat) (x : List ℝ) (hx : Entry X i j x) (a b σ : ℝ)
    (ha : Entry (R "min") i j a) (hb : Entry (R "max") i j b) (hσ : Entry (R "std") i j σ) :
    (∀ s ∈ ["mean", "average", "median"], ∀ v, Entry (R s) i j v → a ≤ v ∧ v ≤ b) ∧ 0 ≤ σ ∧ σ ≤ (b - a) / 2 := by
  obtain ⟨fa, hne⟩ := entry_feature order "min" (by decide) n X hX _ (hR _ (by decide)) i j x a hx ha
  obtain ⟨fb, -⟩ := entry_feature order "max" (by decide) n X hX _ (hR _ (by decide)) i j x b hx hb
  obtain ⟨fσ, -⟩ := entry_feature order "std" (by decide) n X hX _ (hR _ (by decide)) i j x σ hx hσ
  have hmin := fa.2.1 rfl
  have hmax := fb.1 rfl
  refine ⟨fun s hs v hv => ?_, (fσ.2.2.2.2.2.1 rfl).1, std_bound hne fσ hmin hmax⟩
  simp only [List.mem_cons, List.not_mem_nil, or_false] at hs
  have hmem : s ∈ featureNames := by rcases hs with rfl | rfl | rfl <;> decide
  obtain ⟨fv, -⟩ := entry_feature order s hmem n X hX _ (hR _ hmem) i j x v hx hv
  rcases hs with rfl | rfl | rfl
  · exact mean_bounds hne (fv.2.2.2.2.1 (Or.inl rfl)) hmin hmax
  · exact mean_bounds hne (fv.2.2.2.2.1 (Or.inr rfl)) hmin hmax
  · exact median_bounds (fv.2.2.2.2.2.2 rfl) hmin hmax

/-- **C161.** Curves that differ by at most `ε` in each bin have features that differ by at most `ε`, but for the positions of maximum and minimum. -/
theorem C161_stable (order order' : List Nat) (s : String) (hs : s ∈ featureNames) (hs1 : s ≠ "argmax") (hs2 : s ≠ "argmin") (n n' : Nat) (X X' : List (List (List ℝ)))
    (hX : ∀ c ∈ X, ∀ x ∈ c, x ≠ []) (hX' : ∀ c ∈ X', ∀ x ∈ c, x ≠ []) (R R' : List (List ℝ)) (hR : featuresFitTransform recipe order (.one (.str s)) .none n X = .ok R)
    (hR' : featuresFitTransform recipe order' (.one (.str s)) .none n' X' = .ok R') (i j i' j' : Nat) (x x' : List ℝ) (v v' ε : ℝ) (hx : Entry X i j x) (hx' : Entry X' i' j' x')
    (hv : Entry R i j v) (hv' : Entry R' i' j' v') (hw : Within ε x x') : |v - v'| ≤ ε := by
  obtain ⟨f, hne⟩ := entry_feature order s hs n X hX R hR i j x v hx hv
  obtain ⟨f', hne'⟩ := entry_feature order' s hs n' X' hX' R' hR' i' j' x' v' hx' hv'
  have hε : 0 ≤ ε := (abs_nonneg _).trans (within_get hw 0 (List.length_pos_of_ne_nil hne))
  simp only [featureNames, List.mem_cons, List.not_mem_nil, or_false] at hs
  have both : ∀ {p q : ℝ}, p ≤ q + ε → q ≤ p + ε → |p - q| ≤ ε := fun h1 h2 => abs_le.2 ⟨by linarith, by linarith⟩
  rcases hs with rfl | rfl | rfl | rfl | rfl | rfl | rfl | rfl
  · exact absurd rfl hs1
  · exact absurd rfl hs2
  · exact both (min_within (within_symm hw) (f'.2.1 rfl) (f.2.1 rfl)) (min_within hw (f.2.1 rfl) (f'.2.1 rfl))
  · exact both (max_within hw (f.1 rfl) (f'.1 rfl)) (max_within (within_symm hw) (f'.1 rfl) (f.1 rfl))
  · exact mean_within hne hw (f.2.2.2.2.1 (Or.inl rfl)) (f'.2.2.2.2.1 (Or.inl rfl))
  · exact both (std_within hε hne' (within_symm hw) f' f) (std_within hε hne hw f f')
  · exact median_within hw (f.2.2.2.2.2.2 rfl) (f'.2.2.2.2.2.2 rfl)
  · exact mean_within hne hw (f.2.2.2.2.1 (Or.inr rfl)) (f'.2.2.2.2.1 (Or.inr rfl))

/-- **C161.** The position of the maximum can move from the first to the last of `m + 2` bins, however small the change of the curve. -/
theorem C161_refuted_argmax (order : List Nat) (m : Nat) (ε : ℝ) (hε : 0 < ε) : ∃ x x' : List ℝ, x.length = m + 2 ∧ Within ε x x' ∧
    featuresFitTransform recipe order (.one (.str "argmax")) .none 1 [[x], [x']] = .ok [[0], [(m : ℝ) + 1]] := by
  have hne : ∀ c ∈ [[ε :: List.replicate m 0 ++ [0]], [0 :: List.replicate m 0 ++ [ε]]], ∀ x ∈ c, x ≠ ([] : List ℝ) := by
    intro c hc x hx
    simp only [List.mem_cons, List.not_mem_nil, or_false] at hc
    rcases hc with rfl | rfl <;> (rw [List.mem_singleton] at hx; subst hx; simp)
  obtain ⟨f, hf, he⟩ := transform_spec order "argmax" (by decide) 1 _ hne
  refine ⟨ε :: List.replicate m 0 ++ [0], 0 :: List.replicate m 0 ++ [ε], by simp, ?_, ?_⟩
  · refine List.Forall₂.cons (by simp [abs_of_pos hε]) (List.rel_append (R := fun a b : ℝ => |a - b| ≤ ε) ?_ ?_)
    · rw [List.forall₂_same]
      intro a _
      simpa using hε.le
    · exact .cons (by simp [abs_of_pos hε]) .nil
  · rw [he]
    obtain ⟨p, hp, k, hk, hpk, hlt⟩ := (hf (ε :: List.replicate m 0 ++ [0]) (by simp)).2.2.1 rfl
    obtain ⟨p', hp', k', hk', hpk', hlt'⟩ := (hf (0 :: List.replicate m 0 ++ [ε]) (by simp)).2.2.1 rfl
    have e1 : p = ε := by
      have h1 := hp.2 ε (by simp)
      have h2 := hp.1
      simp only [List.cons_append, List.mem_cons, List.mem_append, List.mem_replicate, List.not_mem_nil, or_false] at h2
      rcases h2 with h2 | ⟨-, h2⟩ | h2
      · exact h2
      · linarith
      · linarith
    have e2 : p' = ε := by
      have h1 := hp'.2 ε (by simp)
      have h2 := hp'.1
      simp only [List.cons_append, List.mem_cons, List.mem_append, List.mem_replicate, List.not_mem_nil, or_false] at h2
      rcases h2 with h2 | ⟨-, h2⟩ | h2
      · linarith
      · linarith
      · exact h2
    subst e1 e2
    have k0 : k = 0 := by
      by_contra hk0
      exact hlt 0 (by omega) (by simp)
    have k1 : k' = m + 1 := by
      by_contra hne1
      obtain ⟨hlen, -⟩ := List.getElem?_eq_some_iff.1 hpk'
      simp only [List.cons_append, List.length_cons, List.length_append, List.length_replicate, List.length_nil] at hlen
      cases k' with
      | zero => simp at hpk'; linarith
      | succ k' =>
        rw [List.cons_append, List.getElem?_cons_succ, List.getElem?_append_left (by simp; omega), List.getElem?_replicate, if_pos (by omega)] at hpk'
        have := Option.some.inj hpk'
        linarith
    simp only [List.map_cons, List.map_nil, hk, hk', k0, k1]
    push_cast
    rfl

/-- **C161.** Curves in other units: `c a + e` in place of `a`. Mean, average and median change alike, the standard deviation is multiplied by `|c|`; maximum and minimum change alike if `c` is positive, in
which case their positions stay, and are exchanged if it is negative. -/
theorem C161_units (order order' : List Nat) (n n' : Nat) (X X' : List (List (List ℝ))) (hX : ∀ c ∈ X, ∀ x ∈ c, x ≠ []) (hX' : ∀ c ∈ X', ∀ x ∈ c, x ≠ []) (R R' : String → List (List ℝ))
    (hR : ∀ s ∈ featureNames, featuresFitTransform recipe order (.one (.str s)) .none n X = .ok (R s))
    (hR' : ∀ s ∈ featureNames, featuresFitTransform recipe order' (.one (.str s)) .none n' X' = .ok (R' s)) (i j i' j' : Nat) (x : List ℝ) (c e : ℝ)
    (hx : Entry X i j x) (hx' : Entry X' i' j' (x.map fun a => c * a + e)) (F F' : String → ℝ) (hF : ∀ s ∈ featureNames, Entry (R s) i j (F s))
    (hF' : ∀ s ∈ featureNames, Entry (R' s) i' j' (F' s)) :
    F' "mean" = c * F "mean" + e ∧ F' "average" = c * F "average" + e ∧ F' "median" = c * F "median" + e ∧ F' "std" = |c| * F "std" ∧
      (0 < c → F' "max" = c * F "max" + e ∧ F' "min" = c * F "min" + e ∧ F' "argmax" = F "argmax" ∧ F' "argmin" = F "argmin") ∧
      (c < 0 → F' "max" = c * F "min" + e ∧ F' "min" = c * F "max" + e ∧ F' "argmax" = F "argmin" ∧ F' "argmin" = F "argmax") := by
  have f : ∀ s ∈ featureNames, IsFeature s x (F s) := fun s hs => (entry_feature order s hs n X hX _ (hR s hs) i j x _ hx (hF s hs)).1
  have f' : ∀ s ∈ featureNames, IsFeature s (x.map fun a => c * a + e) (F' s) := fun s hs => (entry_feature order' s hs n' X' hX' _ (hR' s hs) i' j' _ _ hx' (hF' s hs)).1
  have hne := (entry_feature order "mean" (by decide) n X hX _ (hR _ (by decide)) i j x _ hx (hF _ (by decide))).2
  have hn : (0 : ℝ) < x.length := by exact_mod_cast List.length_pos_of_ne_nil hne
  have hsum : (x.map fun a => c * a + e).sum = c * x.sum + e * x.length := by
    clear hx hx' hF hF' f f' hne hn
    induction x with
    | nil => simp
    | cons a x ih => simp only [List.map_cons, List.sum_cons, List.length_cons, ih]; push_cast; ring
  have mean : ∀ μ μ' : ℝ, μ * x.length = x.sum → μ' * (x.map fun a => c * a + e).length = (x.map fun a => c * a + e).sum → μ' = c * μ + e := by
    intro μ μ' h h'
    rw [hsum, ← h, List.length_map] at h'
    exact mul_right_cancel₀ hn.ne' (by rw [h']; ring)
  have maxU : ∀ (y : List ℝ) (p q : ℝ), IsMax y p → IsMax y q → p = q := fun y p q hp hq => le_antisymm (hq.2 p hp.1) (hp.2 q hq.1)
  have minU : ∀ (y : List ℝ) (p q : ℝ), IsMin y p → IsMin y q → p = q := fun y p q hp hq => le_antisymm (hp.2 q hq.1) (hq.2 p hp.1)
  have mem : ∀ p ∈ x, c * p + e ∈ x.map fun a => c * a + e := fun p hp => List.mem_map.2 ⟨p, hp, rfl⟩
  have first : c ≠ 0 → ∀ p v v' : ℝ, IsFirst x p v → IsFirst (x.map fun a => c * a + e) (c * p + e) v' → v' = v := by
    rintro hc p v v' ⟨k, rfl, hk, hl⟩ ⟨k', rfl, hk', hl'⟩
    rw [List.getElem?_map] at hk'
    obtain ⟨p', hp', e'⟩ := Option.map_eq_some_iff.1 hk'
    have : p' = p := mul_left_cancel₀ hc (by linarith)
    subst this
    have h1 : ¬ k' < k := fun h => hl k' h hp'
    have h2 : ¬ k < k' := fun h => hl' k h (by rw [List.getElem?_map, hk]; rfl)
    rw [show k' = k by omega]
  refine ⟨mean _ _ ((f "mean" (by decide)).2.2.2.2.1 (Or.inl rfl)) ((f' "mean" (by decide)).2.2.2.2.1 (Or.inl rfl)),
    mean _ _ ((f "average" (by decide)).2.2.2.2.1 (Or.inr rfl)) ((f' "average" (by decide)).2.2.2.2.1 (Or.inr rfl)),
    median_unique ((f' "median" (by decide)).2.2.2.2.2.2 rfl) (median_map c e ((f "median" (by decide)).2.2.2.2.2.2 rfl)), ?_, fun hc => ?_, fun hc => ?_⟩
  · obtain ⟨h0, μ, hμ, h2⟩ := (f "std" (by decide)).2.2.2.2.2.1 rfl
    obtain ⟨h0', μ', hμ', h2'⟩ := (f' "std" (by decide)).2.2.2.2.2.1 rfl
    have e1 := mean μ μ' hμ hμ'
    subst e1
    have e2 : ((x.map fun a => c * a + e).map fun a => (a - (c * μ + e)) ^ 2).sum = c ^ 2 * (x.map fun a => (a - μ) ^ 2).sum := by
      rw [List.map_map, ← List.sum_map_mul_left]
      congr 1
      exact List.map_congr_left fun a _ => by simp only [Function.comp]; ring
    rw [e2, ← h2, List.length_map] at h2'
    have h3 : F' "std" ^ 2 = (|c| * F "std") ^ 2 := by
      rw [mul_pow, sq_abs]
      exact mul_right_cancel₀ hn.ne' (by rw [h2']; ring)
    exact (sq_eq_sq₀ h0' (by positivity)).1 h3
  · have hmax := fun p (h : IsMax x p) => (⟨mem p h.1, fun a ha => by
      obtain ⟨b, hb, rfl⟩ := List.mem_map.1 ha
      have := h.2 b hb
      nlinarith⟩ : IsMax (x.map fun a => c * a + e) (c * p + e))
    have hmin := fun p (h : IsMin x p) => (⟨mem p h.1, fun a ha => by
      obtain ⟨b, hb, rfl⟩ := List.mem_map.1 ha
      have := h.2 b hb
      nlinarith⟩ : IsMin (x.map fun a => c * a + e) (c * p + e))
    obtain ⟨p, hp, hv⟩ := (f "argmax" (by decide)).2.2.1 rfl
    obtain ⟨p', hp', hv'⟩ := (f' "argmax" (by decide)).2.2.1 rfl
    obtain ⟨r, hr, hw⟩ := (f "argmin" (by decide)).2.2.2.1 rfl
    obtain ⟨r', hr', hw'⟩ := (f' "argmin" (by decide)).2.2.2.1 rfl
    rw [maxU _ _ _ hp' (hmax p hp)] at hv'
    rw [minU _ _ _ hr' (hmin r hr)] at hw'
    exact ⟨maxU _ _ _ ((f' "max" (by decide)).1 rfl) (hmax _ ((f "max" (by decide)).1 rfl)), minU _ _ _ ((f' "min" (by decide)).2.1 rfl) (hmin _ ((f "min" (by decide)).2.1 rfl)),
      first hc.ne' p _ _ hv hv', first hc.ne' r _ _ hw hw'⟩
  · have hmax := fun p (h : IsMin x p) => (⟨mem p h.1, fun a ha => by
      obtain ⟨b, hb, rfl⟩ := List.mem_map.1 ha
      have := h.2 b hb
      nlinarith⟩ : IsMax (x.map fun a => c * a + e) (c * p + e))
    have hmin := fun p (h : IsMax x p) => (⟨mem p h.1, fun a ha => by
      obtain ⟨b, hb, rfl⟩ := List.mem_map.1 ha
      have := h.2 b hb
      nlinarith⟩ : IsMin (x.map fun a => c * a + e) (c * p + e))
    obtain ⟨p, hp, hv⟩ := (f "argmin" (by decide)).2.2.2.1 rfl
    obtain ⟨p', hp', hv'⟩ := (f' "argmax" (by decide)).2.2.1 rfl
    obtain ⟨r, hr, hw⟩ := (f "argmax" (by decide)).2.2.1 rfl
    obtain ⟨r', hr', hw'⟩ := (f' "argmin" (by decide)).2.2.2.1 rfl
    rw [maxU _ _ _ hp' (hmax p hp)] at hv'
    rw [minU _ _ _ hr' (hmin r hr)] at hw'
    exact ⟨maxU _ _ _ ((f' "max" (by decide)).1 rfl) (hmax _ ((f "min" (by decide)).2.1 rfl)), minU _ _ _ ((f' "min" (by decide)).2.1 rfl) (hmin _ ((f "max" (by decide)).1 rfl)),
      first hc.ne p _ _ hv hv', first hc.ne r _ _ hw hw'⟩

/-- The hypotheses are met, and the features are numbers one can compute: of the curve with the values 1, 5, 3, 5 the maximum is 5, first in bin 1, the mean 7/2 and the median 4. -/
example (order : List Nat) : featuresFitTransform recipe order (.one (.str "max")) .none 1 [[[1, 5, 3, 5]]] = .ok [[5]] ∧
    featuresFitTransform recipe order (.one (.str "argmax")) .none 1 [[[1, 5, 3, 5]]] = .ok [[1]] ∧
    featuresFitTransform recipe order (.one (.str "mean")) .none 1 [[[1, 5, 3, 5]]] = .ok [[7 / 2]] ∧
    featuresFitTransform recipe order (.one (.str "median")) .none 1 [[[1, 5, 3, 5]]] = .ok [[4]] ∧ Within 1 [1, 5, 3, 5] [2, 4, 3, 5] := by
  have hX : ∀ c ∈ [[([1, 5, 3, 5] : List ℝ)]], ∀ x ∈ c, x ≠ [] := by
    intro c hc x hx
    rw [List.mem_singleton.1 hc, List.mem_singleton] at hx
    simp [hx]
  have hmax : IsMax [1, 5, 3, 5] 5 := ⟨by simp, by
    intro a ha
    simp only [List.mem_cons, List.not_mem_nil, or_false] at ha
    rcases ha with rfl | rfl | rfl | rfl <;> norm_num⟩
  have maxU : ∀ p, IsMax [1, 5, 3, 5] p → p = 5 := fun p hp => le_antisymm (hmax.2 p hp.1) (hp.2 5 hmax.1)
  refine ⟨?_, ?_, ?_, ?_, ?_⟩
  · obtain ⟨f, hf, he⟩ := transform_spec order "max" (by decide) 1 _ hX
    rw [he, List.map_singleton, List.map_singleton, maxU _ ((hf [1, 5, 3, 5] (by simp)).1 rfl)]
  · obtain ⟨f, hf, he⟩ := transform_spec order "argmax" (by decide) 1 _ hX
    obtain ⟨p, hp, k, hk, hpk, hlt⟩ := (hf [1, 5, 3, 5] (by simp)).2.2.1 rfl
    rw [maxU p hp] at hpk hlt
    have hk1 : k = 1 := by
      have h1 : ¬ 1 < k := fun h => hlt 1 h rfl
      have h0 : k ≠ 0 := by rintro rfl; norm_num at hpk
      omega
    rw [he, List.map_singleton, List.map_singleton, hk, hk1, Nat.cast_one]
  · obtain ⟨f, hf, he⟩ := transform_spec order "mean" (by decide) 1 _ hX
    have h := (hf [1, 5, 3, 5] (by simp)).2.2.2.2.1 (Or.inl rfl)
    norm_num at h
    rw [he, List.map_singleton, List.map_singleton, show f [1, 5, 3, 5] = 7 / 2 by linarith]
  · obtain ⟨f, hf, he⟩ := transform_spec order "median" (by decide) 1 _ hX
    have h := (hf [1, 5, 3, 5] (by simp)).2.2.2.2.2.2 rfl
    have h4 : IsMedian [1, 5, 3, 5] 4 := ⟨[1, 3, 5, 5], List.Perm.cons _ (List.Perm.swap _ _ _), by norm_num, 3, 5, rfl, rfl, by norm_num⟩
    rw [he, List.map_singleton, List.map_singleton, median_unique h h4]
  · exact .cons (by norm_num) (.cons (by norm_num) (.cons (by norm_num) (.cons (by norm_num) .nil)))

end Gtda.Props.CurveFunctions
