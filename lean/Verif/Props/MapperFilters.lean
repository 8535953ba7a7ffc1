import Verif.Model.MapperFilters
import Verif.Spec.MapperCluster
import Verif.Lemmas.Distances
import Verif.Lemmas.Entropy

set_option autoImplicit false
set_option linter.unusedSectionVars false

/-!
# C52 and C85: filter functions of Mapper
-/

namespace Gtda.Props
open Gtda.Py Gtda.Mapper Gtda.Diagrams Gtda.Spec

theorem pNorm_ge_entry (p : ENNReal) (hp : 0 < p) (v : List ℝ) (x : ℝ) (hx : x ∈ v) : |x| ≤ pNorm p v := by
  unfold pNorm
  split
  · have h := (foldl_max_iSup (v.map fun x => |x|) 0 _).1 (le_refl _)
    exact h.2 _ (List.mem_map_of_mem hx)
  · rename_i hpt
    have hpos : 0 < p.toReal := ENNReal.toReal_pos hp.ne' hpt
    have h1 : |x| ^ p.toReal ≤ (v.map fun x => |x| ^ p.toReal).sum :=
      le_sum_of_mem _ (by
        intro y hy
        obtain ⟨z, -, rfl⟩ := List.mem_map.1 hy
        positivity) _ (List.mem_map_of_mem (f := fun x => |x| ^ p.toReal) hx)
    calc |x| = (|x| ^ p.toReal) ^ (1 / p.toReal) := by
          rw [← Real.rpow_mul (abs_nonneg x), mul_one_div_cancel hpos.ne', Real.rpow_one]
      _ ≤ _ := Real.rpow_le_rpow (by positivity) h1 (by positivity)

theorem pNorm_top_attained (v : List ℝ) (hv : v ≠ []) : ∃ x ∈ v, pNorm ⊤ v = |x| := by
  unfold pNorm
  rw [if_pos rfl]
  have key : ∀ (l : List ℝ) (a : ℝ), l.foldl max a = a ∨ l.foldl max a ∈ l := by
    intro l
    induction l with
    | nil => intro a; simp
    | cons b t ih =>
      intro a
      rw [List.foldl_cons]
      rcases ih (max a b) with h | h
      · rcases max_choice a b with h' | h'
        · left; rw [h, h']
        · right; rw [h, h']; simp
      · right; simp [h]
  obtain ⟨a, t, rfl⟩ := List.exists_cons_of_ne_nil hv
  rcases key ((a :: t).map fun x => |x|) 0 with h | h
  · have h2 := ((foldl_max_iSup ((a :: t).map fun x => |x|) 0 _).1 (le_refl _)).2 |a| (by simp)
    rw [h] at h2
    exact ⟨a, by simp, by rw [h]; exact le_antisymm (abs_nonneg a) h2⟩
  · obtain ⟨x, hx, he⟩ := List.mem_map.1 h
    exact ⟨x, hx, he.symm⟩

theorem pNorm_perm (p : ENNReal) {u v : List ℝ} (h : u.Perm v) : pNorm p u = pNorm p v := by
  unfold pNorm
  split
  · apply le_antisymm
    · exact (foldl_max_iSup _ _ _).2 ⟨((foldl_max_iSup (v.map fun x => |x|) 0 _).1 (le_refl _)).1, fun x hx =>
        ((foldl_max_iSup (v.map fun x => |x|) 0 _).1 (le_refl _)).2 x ((h.map _).mem_iff.1 hx)⟩
    · exact (foldl_max_iSup _ _ _).2 ⟨((foldl_max_iSup (u.map fun x => |x|) 0 _).1 (le_refl _)).1, fun x hx =>
        ((foldl_max_iSup (u.map fun x => |x|) 0 _).1 (le_refl _)).2 x ((h.map _).mem_iff.2 hx)⟩
  · rw [(h.map _).sum_eq]

/-- **C52, eccentricity.** For a metric `d` (symmetric, zero on equal rows, not negative) the eccentricity of row `x` is the `p`-norm of its distances to all rows. It is at
least every single distance. For `p = inf` it is the largest distance, and then eccentricities of `x` and `y` differ by at most `d x y` if `d` satisfies the triangle
inequality. A distance matrix passed with `metric='precomputed'` gives the `p`-norms of its rows. -/
theorem C52_eccentricity (p : ENNReal) (hp : 0 < p) (d : List ℝ → List ℝ → ℝ) (X : List (List ℝ)) (hsym : ∀ x ∈ X, ∀ y ∈ X, d x y = d y x)
    (h0 : ∀ x ∈ X, d x x = 0) (hnn : ∀ x ∈ X, ∀ y ∈ X, 0 ≤ d x y) :
    eccentricity p false d X = X.map (fun x => [lpNorm p (X.map (d x))]) ∧
    (∀ x ∈ X, ∀ y ∈ X, d x y ≤ lpNorm p (X.map (d x))) ∧
    (∀ x ∈ X, ∃ y ∈ X, lpNorm ⊤ (X.map (d x)) = d x y) ∧
    ((∀ x ∈ X, ∀ y ∈ X, ∀ z ∈ X, d x z ≤ d x y + d y z) → ∀ x ∈ X, ∀ y ∈ X, |lpNorm ⊤ (X.map (d x)) - lpNorm ⊤ (X.map (d y))| ≤ d x y) ∧
    (∀ D : List (List ℝ), eccentricity p true d D = D.map fun r => [lpNorm p r]) := by
  have hge : ∀ q : ENNReal, 0 < q → ∀ x ∈ X, ∀ y ∈ X, d x y ≤ lpNorm q (X.map (d x)) := by
    intro q hq x hx y hy
    rw [← pNorm_eq q hq]
    exact (le_abs_self _).trans (pNorm_ge_entry q hq _ _ (List.mem_map_of_mem hy))
  have hatt : ∀ x ∈ X, ∃ y ∈ X, lpNorm ⊤ (X.map (d x)) = d x y := by
    intro x hx
    obtain ⟨v, hv, he⟩ := pNorm_top_attained (X.map (d x)) (by intro h; rw [List.map_eq_nil_iff] at h; rw [h] at hx; simp at hx)
    obtain ⟨y, hy, rfl⟩ := List.mem_map.1 hv
    exact ⟨y, hy, by rw [← pNorm_eq ⊤ (by simp), he, abs_of_nonneg (hnn x hx y hy)]⟩
  refine ⟨?_, fun x hx y hy => hge p hp x hx y hy, hatt, ?_, ?_⟩
  · unfold eccentricity
    rw [if_neg (by simp), squarePdist_eq 0 d X hsym h0, List.map_map]
    apply List.map_congr_left
    intro x _
    simp only [Function.comp_apply, pNorm_eq p hp]
  · intro htri x hx y hy
    obtain ⟨a, ha, hae⟩ := hatt x hx
    obtain ⟨b, hb, hbe⟩ := hatt y hy
    have h1 := hge ⊤ (by simp) x hx b hb
    have h2 := hge ⊤ (by simp) y hy a ha
    have h3 := htri x hx y hy a ha
    have h4 := htri y hy x hx b hb
    have h5 := hsym x hx y hy
    rw [abs_le]
    constructor <;> linarith
  · intro D
    unfold eccentricity
    rw [if_pos rfl]
    apply List.map_congr_left
    intro r _
    rw [pNorm_eq p hp]

/-- Non-vacuity of `C52_eccentricity`: the absolute difference of first coordinates satisfies all the hypotheses. -/
example : let d : List ℝ → List ℝ → ℝ := fun a b => |a.headD 0 - b.headD 0|
    (∀ x y, d x y = d y x) ∧ (∀ x, d x x = 0) ∧ (∀ x y, 0 ≤ d x y) ∧ (∀ x y z, d x z ≤ d x y + d y z) ∧ d [1] [3] = 2 := by
  refine ⟨fun x y => abs_sub_comm _ _, fun x => by simp, fun x y => abs_nonneg _, fun x y z => abs_sub_le _ _ _, by norm_num⟩

/-- Reordering the samples reorders the eccentricities accordingly: each one depends only on the row and on the multiset of all rows. -/
theorem C52_eccentricity_perm (p : ENNReal) (hp : 0 < p) (d : List ℝ → List ℝ → ℝ) (X X' : List (List ℝ)) (h : X.Perm X') (x : List ℝ) :
    lpNorm p (X.map (d x)) = lpNorm p (X'.map (d x)) := by
  rw [← pNorm_eq p hp, ← pNorm_eq p hp, pNorm_perm p (h.map _)]

/-- The probability vector of a row: absolute values divided by their sum. -/
noncomputable def probabilities (r : List ℝ) : List ℝ := r.map fun x => |x| / (r.map fun x => |x|).sum

theorem entropyFilter_eq (X : List (List ℝ)) : entropyFilter X = X.map fun r => [scipyEntropy2 (r.map fun x => |x|)] := by
  unfold entropyFilter
  simp only
  split
  · rw [List.map_map]; rfl
  · rename_i h
    apply List.map_congr_left
    intro r hr
    congr 2
    have : ∀ x ∈ r, |x| = x := by
      intro x hx
      apply abs_of_nonneg
      by_contra hneg
      apply h
      rw [List.any_eq_true]
      exact ⟨r, hr, List.any_eq_true.2 ⟨x, hx, by simpa using hneg⟩⟩
    nth_rewrite 1 [← List.map_id r]
    apply List.map_congr_left
    intro x hx
    rw [id, this x hx]

theorem abs_sum_zero_iff (r : List ℝ) : (r.map fun x => |x|).sum = 0 ↔ ∀ x ∈ r, x = 0 := by
  rw [sum_eq_zero_iff _ (by intro y hy; obtain ⟨z, -, rfl⟩ := List.mem_map.1 hy; exact abs_nonneg z)]
  simp

theorem probabilities_filter (r : List ℝ) : (probabilities r).filter (fun p => decide (p ≠ 0)) = probabilities (r.filter fun x => decide (x ≠ 0)) ∨ ∀ x ∈ r, x = 0 := by
  by_cases hz : ∀ x ∈ r, x = 0
  · exact Or.inr hz
  · left
    have hs : (r.map fun x => |x|).sum ≠ 0 := fun h => hz ((abs_sum_zero_iff r).1 h)
    have hsum : ((r.filter fun x => decide (x ≠ 0)).map fun x => |x|).sum = (r.map fun x => |x|).sum := by
      clear hs hz
      induction r with
      | nil => rfl
      | cons a t ih =>
        by_cases ha : a = 0
        · simp [ha]; simpa using ih
        · simp [ha]; simpa using ih
    unfold probabilities
    rw [hsum]
    generalize (r.map fun x => |x|).sum = s at hs
    clear hz hsum
    induction r with
    | nil => rfl
    | cons a t ih =>
      rw [List.map_cons, List.filter_cons, List.filter_cons, ih]
      by_cases ha : a = 0
      · simp [ha]
      · have : |a| / s ≠ 0 := div_ne_zero (abs_ne_zero.2 ha) hs
        simp [ha, this]

/-- **C52, entropy.** The value for a row that is not zero is the Shannon entropy (base 2) of its probability vector (absolute values divided by their sum), whatever the other
rows are. It is between zero and the logarithm of the number of non-zero entries of the row. The value for a row of zeros is NaN. -/
theorem C52_entropy (X : List (List ℝ)) (hX : ∀ r ∈ X, r ≠ []) :
    ∃ H : List ℝ → Option ℝ, entropyFilter X = X.map (fun r => [H r]) ∧
      ∀ r ∈ X, ((∀ x ∈ r, x = 0) → H r = none) ∧
        ((∃ x ∈ r, x ≠ 0) → H r = some (shannon2 (probabilities r)) ∧ 0 ≤ shannon2 (probabilities r) ∧
          shannon2 (probabilities r) ≤ Real.logb 2 (r.countP fun x => decide (x ≠ 0)) ∧
          shannon2 (probabilities r) ≤ Real.logb 2 r.length) := by
  refine ⟨fun r => scipyEntropy2 (r.map fun x => |x|), entropyFilter_eq X, ?_⟩
  intro r hr
  refine ⟨?_, ?_⟩
  · intro hz
    beta_reduce
    unfold scipyEntropy2
    rw [if_neg (by simpa using hX r hr), if_pos ((abs_sum_zero_iff r).2 hz)]
  · rintro ⟨x0, hx0, hne⟩
    have hs : (r.map fun x => |x|).sum ≠ 0 := fun h => hne ((abs_sum_zero_iff r).1 h x0 hx0)
    have hv : scipyEntropy2 (r.map fun x => |x|) = some (shannon2 (probabilities r)) := by
      rw [scipyEntropy2_eq _ (by intro y hy; obtain ⟨z, -, rfl⟩ := List.mem_map.1 hy; exact abs_nonneg z) hs, List.map_map]; rfl
    have hfl : shannon2 (probabilities r) = shannon2 (probabilities (r.filter fun x => decide (x ≠ 0))) := by
      rw [shannon2_filter]
      rcases probabilities_filter r with h | h
      · rw [h]
      · exact absurd (h x0 hx0) hne
    have hb := shannon2_bounds ((r.filter fun x => decide (x ≠ 0)).map fun x => |x|) (by
      intro y hy
      obtain ⟨z, hz, rfl⟩ := List.mem_map.1 hy
      exact abs_pos.2 (by simpa using (List.mem_filter.1 hz).2)) (by
      intro h
      have : x0 ∈ r.filter fun x => decide (x ≠ 0) := List.mem_filter.2 ⟨hx0, by simpa using hne⟩
      rw [List.map_eq_nil_iff] at h
      rw [h] at this; simp at this)
    rw [List.map_map] at hb
    have hb' : 0 ≤ shannon2 (probabilities (r.filter fun x => decide (x ≠ 0))) ∧
        shannon2 (probabilities (r.filter fun x => decide (x ≠ 0))) ≤ Real.logb 2 ((r.filter fun x => decide (x ≠ 0)).length) := by
      simpa [probabilities, Function.comp_def] using hb
    rw [← hfl, ← List.countP_eq_length_filter] at hb'
    refine ⟨hv, hb'.1, hb'.2, hb'.2.trans ?_⟩
    have hpos : 0 < r.countP fun x => decide (x ≠ 0) := List.countP_pos_iff.2 ⟨x0, hx0, by simpa using hne⟩
    apply Real.logb_le_logb_of_le (by norm_num)
    · exact_mod_cast hpos
    · exact_mod_cast List.countP_le_length

/-- Multiplying a row by a non-zero number, or permuting its entries, does not change its entropy. -/
theorem C52_entropy_invariant (r r' : List ℝ) (c : ℝ) (hc : c ≠ 0) (h : r'.Perm (r.map fun x => c * x)) : shannon2 (probabilities r') = shannon2 (probabilities r) := by
  have h1 : (probabilities r').Perm (probabilities (r.map fun x => c * x)) := by
    unfold probabilities
    rw [(h.map fun x => |x|).sum_eq]
    exact h.map _
  rw [shannon2_perm h1]
  congr 1
  unfold probabilities
  rw [List.map_map, List.map_map]
  apply List.map_congr_left
  intro x _
  have hsum : (r.map ((fun x => |x|) ∘ fun x => c * x)).sum = |c| * (r.map fun x => |x|).sum := by
    rw [← List.sum_map_mul_left]
    congr 1
    apply List.map_congr_left
    intro y _
    simp [abs_mul]
  simp only [Function.comp_apply]
  rw [hsum, abs_mul, mul_div_mul_left _ _ (abs_ne_zero.2 hc)]

/-- The entropy is zero exactly when only one entry of the row is not zero. -/
theorem C52_entropy_zero_iff (r : List ℝ) (hr : ∃ x ∈ r, x ≠ 0) : shannon2 (probabilities r) = 0 ↔ r.countP (fun x => decide (x ≠ 0)) = 1 := by
  obtain ⟨x0, hx0, hne⟩ := hr
  have hs : (r.map fun x => |x|).sum ≠ 0 := fun h => hne ((abs_sum_zero_iff r).1 h x0 hx0)
  have hspos : 0 < (r.map fun x => |x|).sum := lt_of_le_of_ne (List.sum_nonneg (by intro y hy; obtain ⟨z, -, rfl⟩ := List.mem_map.1 hy; exact abs_nonneg z)) hs.symm
  have hfl : shannon2 (probabilities r) = shannon2 (probabilities (r.filter fun x => decide (x ≠ 0))) := by
    rw [shannon2_filter]
    rcases probabilities_filter r with h | h
    · rw [h]
    · exact absurd (h x0 hx0) hne
  constructor
  · intro h0
    -- every term vanishes, so every probability is zero or one
    have hple : ∀ p ∈ probabilities r, 0 ≤ p ∧ p ≤ 1 := by
      intro p hp
      obtain ⟨x, hx, rfl⟩ := List.mem_map.1 hp
      exact ⟨by positivity, (div_le_one hspos).2 (le_sum_of_mem _ (by intro y hy; obtain ⟨z, -, rfl⟩ := List.mem_map.1 hy; exact abs_nonneg z) _ (List.mem_map_of_mem (f := fun x : ℝ => |x|) hx))⟩
    have hterm : ∀ p ∈ probabilities r, p = 0 ∨ p = 1 := by
      have hall := (sum_eq_zero_iff ((probabilities r).map fun p => -(p * Real.logb 2 p)) (by
        intro y hy
        obtain ⟨p, hp, rfl⟩ := List.mem_map.1 hy
        obtain ⟨h1, h2⟩ := hple p hp
        have : Real.logb 2 p ≤ 0 := by
          rcases eq_or_lt_of_le h1 with h | h
          · rw [← h]; simp
          · exact Real.logb_nonpos (by norm_num) h1 h2
        nlinarith)).1 h0
      intro p hp
      have := hall _ (List.mem_map_of_mem hp)
      obtain ⟨h1, h2⟩ := hple p hp
      rw [neg_eq_zero, mul_eq_zero] at this
      rcases this with h | h
      · exact Or.inl h
      · rw [Real.logb_eq_zero] at h
        rcases h with h | h | h | h | h | h
        · norm_num at h
        · norm_num at h
        · norm_num at h
        · exact Or.inl h
        · exact Or.inr h
        · linarith
    -- the sum of the probabilities is one
    have hsum1 : (probabilities r).sum = 1 := by
      have : probabilities r = (r.map fun x => |x|).map fun x => x / (r.map fun x => |x|).sum := by simp [probabilities]
      rw [this, sum_map_div, div_self hs]
    have hcount : ∀ l : List ℝ, (∀ p ∈ l, p = 0 ∨ p = 1) → l.sum = (l.countP fun p => decide (p ≠ 0) : ℕ) := by
      intro l
      induction l with
      | nil => intro _; simp
      | cons a t ih =>
        intro h
        rw [List.sum_cons, ih (fun p hp => h p (by simp [hp])), List.countP_cons]
        rcases h a (by simp) with h | h
        · simp [h]
        · simp [h]; ring
    rw [hcount _ hterm] at hsum1
    have h3 : (probabilities r).countP (fun p => decide (p ≠ 0)) = r.countP fun x => decide (x ≠ 0) := by
      unfold probabilities
      rw [List.countP_map]
      apply List.countP_congr
      intro x _
      simp [hs]
    rw [h3] at hsum1
    exact_mod_cast hsum1
  · intro h1
    rw [hfl]
    rw [List.countP_eq_length_filter] at h1
    obtain ⟨a, ha⟩ := List.length_eq_one_iff.1 h1
    have ha0 : a ≠ 0 := by
      have : a ∈ r.filter fun x => decide (x ≠ 0) := by rw [ha]; simp
      simpa using (List.mem_filter.1 this).2
    rw [ha]
    simp [probabilities, shannon2, div_self (abs_ne_zero.2 ha0)]

example : ∃ x ∈ ([0, -3, 0] : List ℝ), x ≠ 0 := ⟨-3, by simp, by norm_num⟩

/-! ### C85: projections and callables on rows -/

/-- **C85, projection.** `Projection(columns=j)` returns column `j` as a matrix with one column, `Projection(columns=[j₁, …])` the matrix of the given columns in the given order;
`0 ≤ j < n_columns`. -/
theorem C85_projection {K : Type} (X : List (List K)) (d : Nat) (hX : ∀ r ∈ X, r.length = d) (j : Nat) (hj : j < d) (js : List Nat) (hjs : ∀ j ∈ js, j < d) :
    (∃ R, projection (.one j) X = .ok R ∧ List.Forall₂ (fun r o => ∃ x, r[j]? = some x ∧ o = [x]) X R) ∧
    (∃ R, projection (.many (js.map Int.ofNat)) X = .ok R ∧ List.Forall₂ (fun r o => Picks r js o) X R) := by
  constructor
  · unfold projection
    simp only
    induction X with
    | nil => exact ⟨[], rfl, .nil⟩
    | cons r t ih =>
      obtain ⟨R, h1, h2⟩ := ih fun r hr => hX r (by simp [hr])
      have hlt : j < r.length := by rw [hX r (by simp)]; exact hj
      refine ⟨[r[j]] :: R, ?_, .cons ⟨r[j], by simp [hlt], rfl⟩ h2⟩
      rw [List.mapM_cons, npIndex_nat r j hlt, h1]; rfl
  · unfold projection
    simp only
    induction X with
    | nil => exact ⟨[], rfl, .nil⟩
    | cons r t ih =>
      obtain ⟨R, h1, h2⟩ := ih fun r hr => hX r (by simp [hr])
      have : ∃ o, fancy r (js.map Int.ofNat) = .ok o ∧ Picks r js o := by
        have hlt : ∀ j ∈ js, j < r.length := by rw [hX r (by simp)]; exact hjs
        clear hjs ih h1 h2
        induction js with
        | nil => exact ⟨[], rfl, rfl⟩
        | cons a t ih =>
          obtain ⟨o, h1, h2⟩ := ih fun i hi => hlt i (by simp [hi])
          have ha : a < r.length := hlt a (by simp)
          refine ⟨r[a] :: o, ?_, ?_⟩
          · have : npIndex r (Int.ofNat a) = .ok r[a] := npIndex_nat r a ha
            unfold fancy at h1 ⊢
            rw [List.map_cons, List.mapM_cons, this, ok_bind, h1]; rfl
          · unfold Picks at h2 ⊢
            simp [h2, ha]
      obtain ⟨o, h3, h4⟩ := this
      refine ⟨o :: R, ?_, .cons h4 h2⟩
      rw [List.mapM_cons, h3, h1]; rfl

example : projection (.many [2, 0]) [[1, 2, 3], [4, 5, 6]] = .ok [[3, 1], [6, 4]] ∧ projection (.one 1) [[1, 2, 3], [4, 5, 6]] = .ok [[2], [5]] := by decide +kernel

/-- **C85, callables.** A callable without parameter `axis` (or with both `axis` and `keepdims`) is applied to each row separately; a number is returned as a row of length one.
Missing: callables with a parameter `axis` but no `keepdims`, see `C85_refuted_axis_without_keepdims`. -/
theorem C85_callable_on_rows_partial {K : Type} (f : RowCallable K) (X : List (List K)) (hf : f.hasAxis = true → f.hasKeepdims = true) :
    ∃ R, callableOnRows f X = .ok R ∧ List.Forall₂ (fun r o => (∀ x, f.row r = .inl x → o = [x]) ∧ ∀ l, f.row r = .inr l → o = l) X R := by
  refine ⟨X.map fun r => toRow (f.row r), ?_, ?_⟩
  · unfold callableOnRows
    cases h : f.hasAxis with
    | false => simp
    | true => simp [hf h]
  · induction X with
    | nil => exact .nil
    | cons r t ih =>
      refine .cons ⟨fun x hx => by beta_reduce; rw [hx]; rfl, fun l hl => by beta_reduce; rw [hl]; rfl⟩ ih

example : callableOnRows ⟨false, false, fun r : List Nat => .inl r.sum⟩ [[0, 1], [2, 3]] = .ok [[1], [5]] := by decide +kernel

/-- **C85, callables: false in general.** A callable which can act on 1D arrays but has a parameter `axis` and no parameter `keepdims` always raises. -/
theorem C85_refuted_axis_without_keepdims {K : Type} (f : RowCallable K) (X : List (List K)) (h1 : f.hasAxis = true) (h2 : f.hasKeepdims = false) :
    callableOnRows f X = .error .typeError := by simp [callableOnRows, h1, h2]

end Gtda.Props
