import Verif.Spec.PointClouds
import Verif.Lemmas.List
import Mathlib.Tactic.Linarith
import Mathlib.Tactic.FieldSimp

set_option autoImplicit false
set_option linter.unusedSectionVars false

/-!
# C68, C69, C71: rescalings of point clouds and weak alpha edges
-/

namespace Gtda.Props
open Gtda.Py Gtda.PointClouds Gtda.Spec

/-! ### C68 -/

theorem sorted_kth {l : List ℝ} (hs : l.Pairwise (· ≤ ·)) (k : Nat) (hk : k < l.length) : IsKth k l l[k] := by
  have hmono : ∀ (i j : Nat) (hi : i < l.length) (hj : j < l.length), i ≤ j → l[i] ≤ l[j] := by
    intro i j hi hj hij
    rcases Nat.lt_or_eq_of_le hij with h | h
    · exact List.pairwise_iff_getElem.1 hs i j hi hj h
    · subst h; exact le_refl _
  refine ⟨List.getElem_mem hk, ?_, ?_⟩
  · have : l.countP (fun x => decide (x < l[k])) ≤ (l.take k).length := by
      have hsplit : ∀ q : ℝ → Bool, l.countP q = (l.take k).countP q + (l.drop k).countP q := by
        intro q
        rw [← List.countP_append, List.take_append_drop]
      rw [hsplit]
      have h0 : (l.drop k).countP (fun x => decide (x < l[k])) = 0 := by
        rw [List.countP_eq_zero]
        intro x hx
        obtain ⟨i, hi, rfl⟩ := List.mem_iff_getElem.1 hx
        rw [List.getElem_drop]
        simpa using hmono k (k + i) hk (by simp at hi; omega) (by omega)
      rw [h0, add_zero]
      exact List.countP_le_length
    exact this.trans (by simp)
  · have : (l.take (k + 1)).length ≤ l.countP (fun x => decide (x ≤ l[k])) := by
      have h1 : (l.take (k + 1)).countP (fun x => decide (x ≤ l[k])) = (l.take (k + 1)).length := by
        rw [List.countP_eq_length]
        intro x hx
        obtain ⟨i, hi, rfl⟩ := List.mem_iff_getElem.1 hx
        rw [List.getElem_take]
        simp at hi
        simpa using hmono i k (by omega) hk (by omega)
      rw [← h1]
      exact (List.take_sublist _ _).countP_le
    simp at this
    omega

theorem isKth_perm {k : Nat} {l l' : List ℝ} (h : l.Perm l') (v : ℝ) : IsKth k l v ↔ IsKth k l' v := by
  unfold IsKth
  rw [h.mem_iff, h.countP_eq, h.countP_eq]

theorem isKth_unique {k : Nat} {l : List ℝ} {v w : ℝ} (hv : IsKth k l v) (hw : IsKth k l w) : v = w := by
  have key : ∀ a b : ℝ, IsKth k l a → IsKth k l b → ¬ a < b := by
    intro a b ha hb hab
    have h1 : l.countP (fun x => decide (x ≤ a)) ≤ l.countP (fun x => decide (x < b)) := by
      apply List.countP_mono_left
      intro x _ hx
      simp only [decide_eq_true_eq] at hx ⊢
      linarith
    have := ha.2.2
    have := hb.2.1
    omega
  exact le_antisymm (not_lt.1 (key w v hw hv)) (not_lt.1 (key v w hv hw))

theorem npIndex_kth (r : List ℝ) (k : Nat) (hk : k < r.length) : ∃ v, npIndex (r.insertionSort (· ≤ ·)) k = .ok v ∧ IsKth k r v := by
  have hl : k < (r.insertionSort (· ≤ ·)).length := by simpa using hk
  refine ⟨(r.insertionSort (· ≤ ·))[k], npIndex_nat _ k hl, ?_⟩
  rw [← isKth_perm (List.perm_insertionSort (· ≤ ·) r)]
  exact sorted_kth (List.pairwise_insertionSort (· ≤ ·) r) k hl

theorem kthInRows_ok (k : Nat) (D : List (List ℝ)) (hk : ∀ r ∈ D, k < r.length) :
    ∃ s, kthInRows k D = .ok s ∧ List.Forall₂ (fun r v => IsKth k r v) D s := by
  unfold kthInRows
  induction D with
  | nil => exact ⟨[], rfl, .nil⟩
  | cons r t ih =>
    obtain ⟨s, h1, h2⟩ := ih fun r hr => hk r (by simp [hr])
    obtain ⟨v, hv, hkv⟩ := npIndex_kth r k (hk r (by simp))
    exact ⟨v :: s, by rw [List.mapM_cons, hv, h1]; rfl, .cons hkv h2⟩

theorem at2_table (n : Nat) (f : Nat → Nat → ℝ) (i j : Nat) (hi : i < n) (hj : j < n) :
    at2 ((List.range n).map fun i => (List.range n).map fun j => f i j) i j = f i j := by
  simp [at2, List.getD_eq_getElem?_getD, hi, hj]

theorem rescaling_at2 (k n : Nat) (hn : 0 < n) (D : List (List ℝ)) (hD : IsSquare n D) :
    (k < n → ∃ R, consistentRescaling k D = .ok R ∧ IsSquare n R ∧ (∀ i < n, at2 R i i = 0) ∧ (∀ i < n, ∀ j < n, at2 R i j = at2 R j i) ∧
      ∀ (i j : Nat) (ri rj : List ℝ) (vi vj : ℝ), i < j → D[i]? = some ri → D[j]? = some rj → IsKth k ri vi → IsKth k rj vj →
        at2 R i j = at2 D i j / Real.sqrt (vi * vj)) ∧
    (n ≤ k → consistentRescaling k D = .error .indexError) := by
  constructor
  · intro hk
    obtain ⟨s, hs, hf⟩ := kthInRows_ok k D fun r hr => by rw [hD.2 r hr]; exact hk
    refine ⟨_, by unfold consistentRescaling; rw [hs]; rfl, ⟨by simp [hD.1], ?_⟩, ?_, ?_, ?_⟩
    · intro r hr
      obtain ⟨i, -, rfl⟩ := List.mem_map.1 hr
      simp [hD.1]
    · intro i hi
      rw [hD.1, at2_table n _ i i hi hi]
      simp
    · intro i hi j hj
      rw [hD.1, at2_table n _ i j hi hj, at2_table n _ j i hj hi]
      rw [add_comm]
    · intro i j ri rj vi vj hij hri hrj hvi hvj
      have hjn : j < n := by rw [← hD.1]; exact (List.getElem?_eq_some_iff.1 hrj).1
      have hlen : s.length = n := by rw [← hf.length_eq, hD.1]
      have hval : ∀ (i : Nat) (r : List ℝ) (v : ℝ), D[i]? = some r → IsKth k r v → s.getD i 0 = v := by
        intro i r v hr hv
        obtain ⟨hi, rfl⟩ := List.getElem?_eq_some_iff.1 hr
        have hi' : i < s.length := by rw [← hf.length_eq]; exact hi
        have := List.forall₂_iff_get.1 hf |>.2 i hi hi'
        rw [List.getD_eq_getElem?_getD, List.getElem?_eq_getElem hi']
        exact isKth_unique this hv
      rw [hD.1, at2_table n _ i j (by omega) hjn]
      beta_reduce
      rw [if_pos hij, if_neg (by omega), add_zero, hval i ri vi hri hvi, hval j rj vj hrj hvj]
  · intro hk
    have hne : D ≠ [] := by rintro rfl; have := hD.1; simp at this; omega
    obtain ⟨r, t, rfl⟩ := List.exists_cons_of_ne_nil hne
    unfold consistentRescaling kthInRows
    have hlen : (r.insertionSort (· ≤ ·)).length = n := by rw [List.length_insertionSort, hD.2 r (by simp)]
    have : npIndex (r.insertionSort (· ≤ ·)) (k : Int) = .error .indexError := by
      unfold npIndex
      have h0 : ¬ ((k : Int) < 0) := by omega
      simp only [h0, if_false, Int.toNat_natCast]
      rw [List.getElem?_eq_none (by rw [hlen]; exact hk)]
    rw [List.mapM_cons, this]; rfl

theorem at2_of_cell {D : List (List ℝ)} {i j : Nat} {v : ℝ} (h : cell D i j = some v) : at2 D i j = v := by
  unfold cell at h
  unfold at2
  cases hr : D[i]? with
  | none => rw [hr] at h; cases h
  | some r =>
    rw [hr] at h
    have h' : r[j]? = some v := h
    simp [List.getD_eq_getElem?_getD, hr, h']

theorem cell_of_square {n : Nat} {D : List (List ℝ)} (h : IsSquare n D) {i j : Nat} (hi : i < n) (hj : j < n) : cell D i j = some (at2 D i j) := by
  have h1 : i < D.length := by rw [h.1]; exact hi
  have h2 : j < D[i].length := by rw [h.2 _ (List.getElem_mem h1)]; exact hj
  simp [cell, at2, h1, h2, List.getD_eq_getElem?_getD]

/-- **C68.** For `1 ≤ k < n` and a distance matrix of size `n` the result is a symmetric matrix of size `n` with zero diagonal; for `i < j` its entry `(i, j)` is `D i j` divided
by the geometric mean (square root of the product) of the `k`-th smallest entries of rows `i` and `j` (the point itself has rank zero). If `k` is at least `n`, an `IndexError` is
raised. -/
theorem C68_consistent_rescaling (k n : Nat) (hn : 0 < n) (D : List (List ℝ)) (hD : IsSquare n D) :
    (k < n → ∃ R, consistentRescaling k D = .ok R ∧ IsSquare n R ∧ (∀ i < n, cell R i i = some 0) ∧ (∀ i < n, ∀ j < n, cell R i j = cell R j i) ∧
      ∀ (i j : Nat) (ri rj : List ℝ) (vi vj x : ℝ), i < j → D[i]? = some ri → D[j]? = some rj → IsKth k ri vi → IsKth k rj vj → ri[j]? = some x →
        cell R i j = some (x / Real.sqrt (vi * vj))) ∧
    (n ≤ k → consistentRescaling k D = .error .indexError) := by
  refine ⟨fun hk => ?_, (rescaling_at2 k n hn D hD).2⟩
  obtain ⟨R, h1, hR, h2, h3, h4⟩ := (rescaling_at2 k n hn D hD).1 hk
  refine ⟨R, h1, hR, ?_, ?_, ?_⟩
  · intro i hi
    rw [cell_of_square hR hi hi, h2 i hi]
  · intro i hi j hj
    rw [cell_of_square hR hi hj, cell_of_square hR hj hi, h3 i hi j hj]
  · intro i j ri rj vi vj x hij hri hrj hvi hvj hx
    have hj : j < n := by rw [← hD.1]; exact (List.getElem?_eq_some_iff.1 hrj).1
    rw [cell_of_square hR (by omega) hj, h4 i j ri rj vi vj hij hri hrj hvi hvj, at2_of_cell (v := x) (by simp [cell, hri, hx])]

/-- Multiplying all distances by `c > 0` does not change the result. -/
theorem C68_scale_invariant (k n : Nat) (hn : 0 < n) (hk : k < n) (D : List (List ℝ)) (hD : IsSquare n D) (c : ℝ) (hc : 0 < c) :
    consistentRescaling k (D.map fun r => r.map fun x => c * x) = consistentRescaling k D := by
  have hD' : IsSquare n (D.map fun r => r.map fun x => c * x) := ⟨by simp [hD.1], by
    intro r hr
    obtain ⟨r', hr', rfl⟩ := List.mem_map.1 hr
    simp [hD.2 r' hr']⟩
  have hkth : ∀ r v, IsKth k r v → IsKth k (r.map fun x => c * x) (c * v) := by
    rintro r v ⟨h1, h2, h3⟩
    refine ⟨List.mem_map_of_mem h1, ?_, ?_⟩
    · rw [List.countP_map]
      simpa [Function.comp_def, mul_lt_mul_iff_right₀ hc] using h2
    · rw [List.countP_map]
      simpa [Function.comp_def, mul_le_mul_iff_right₀ hc] using h3
  obtain ⟨R, h1, hR, h2, h3, h4⟩ := (rescaling_at2 k n hn D hD).1 hk
  obtain ⟨R', h1', hR', h2', h3', h4'⟩ := (rescaling_at2 k n hn _ hD').1 hk
  rw [h1, h1']
  congr 1
  have hupper : ∀ i j, i < j → j < n → at2 R' i j = at2 R i j := by
    intro i j hij hj
    have hi : i < D.length := by rw [hD.1]; omega
    have hj' : j < D.length := by rw [hD.1]; omega
    obtain ⟨vi, -, hvi⟩ := npIndex_kth D[i] k (by rw [hD.2 _ (List.getElem_mem hi)]; exact hk)
    obtain ⟨vj, -, hvj⟩ := npIndex_kth D[j] k (by rw [hD.2 _ (List.getElem_mem hj')]; exact hk)
    rw [h4 i j _ _ vi vj hij (List.getElem?_eq_getElem hi) (List.getElem?_eq_getElem hj') hvi hvj,
      h4' i j _ _ (c * vi) (c * vj) hij (by rw [List.getElem?_map, List.getElem?_eq_getElem hi]; rfl) (by rw [List.getElem?_map, List.getElem?_eq_getElem hj']; rfl)
        (hkth _ _ hvi) (hkth _ _ hvj)]
    have hat : at2 (D.map fun r => r.map fun x => c * x) i j = c * at2 D i j := by
      unfold at2
      simp only [List.getD_eq_getElem?_getD, List.getElem?_map, List.getElem?_eq_getElem hi, Option.map_some, Option.getD_some]
      cases D[i][j]? with
      | none => simp
      | some x => simp
    rw [hat, show c * vi * (c * vj) = c ^ 2 * (vi * vj) by ring, Real.sqrt_mul (by positivity), Real.sqrt_sq hc.le, mul_div_mul_left _ _ hc.ne']
  have hall : ∀ i < n, ∀ j < n, at2 R' i j = at2 R i j := by
    intro i hi j hj
    rcases Nat.lt_trichotomy i j with h | h | h
    · exact hupper i j h hj
    · subst h; rw [h2 i hi, h2' i hi]
    · rw [h3 i hi j hj, h3' i hi j hj]; exact hupper j i h hi
  apply List.ext_getElem
  · rw [hR.1, hR'.1]
  · intro i hi hi'
    have hin : i < n := by rw [← hR'.1]; exact hi
    apply List.ext_getElem
    · rw [hR.2 _ (List.getElem_mem _), hR'.2 _ (List.getElem_mem _)]
    · intro j hj hj'
      have hjn : j < n := by rw [← hR'.2 _ (List.getElem_mem hi)]; exact hj
      have := hall i hin j hjn
      unfold at2 at this
      simpa [List.getD_eq_getElem?_getD, hi, hi', hj, hj'] using this

/-- The whole transformer: ranks below one are rejected; otherwise each entry is rescaled separately. -/
theorem C68_transform {P : Type} (m : Metric P) (k : Int) (X : List (List P)) :
    (k < 1 → consistentTransform m k X = .error .valueError) ∧
    (1 ≤ k → ∀ R, consistentTransform m k X = .ok R → List.Forall₂ (fun x r => consistentRescaling k.toNat (pairwiseDistances m x) = .ok r) X R) := by
  constructor
  · intro h; unfold consistentTransform; rw [if_pos h]
  · intro h R hR
    unfold consistentTransform at hR
    rw [if_neg (by omega)] at hR
    clear h
    induction X generalizing R with
    | nil => cases hR; exact .nil
    | cons x t ih =>
      rw [List.mapM_cons] at hR
      cases hx : consistentRescaling k.toNat (pairwiseDistances m x) with
      | error e => rw [hx] at hR; cases hR
      | ok r =>
        rw [hx] at hR
        cases ht : t.mapM fun x => consistentRescaling k.toNat (pairwiseDistances m x) with
        | error e => rw [ht] at hR; cases hR
        | ok rs => rw [ht] at hR; cases hR; exact .cons hx (ih rs ht)

theorem mapM_each {α β : Type} {f : α → PyM β} {l : List α} (h : ∀ x ∈ l, ∃ y, f x = .ok y) : ∃ R, l.mapM f = .ok R ∧ List.Forall₂ (fun x y => f x = .ok y) l R := by
  induction l with
  | nil => exact ⟨[], rfl, .nil⟩
  | cons x t ih =>
    obtain ⟨y, hy⟩ := h x (by simp)
    obtain ⟨R, hR, hf⟩ := ih fun x hx => h x (by simp [hx])
    refine ⟨y :: R, ?_, .cons hy hf⟩
    rw [List.mapM_cons, hy]
    show (t.mapM f >>= fun R => pure (y :: R)) = _
    rw [hR]
    rfl

/-- **C68.** `ConsistentRescaling` on clouds of points with a metric `d`, all with more than `k ≥ 1` points: the entry for points `a` and `b` of a cloud, `a` before `b`, is `d a b` divided by the geometric
mean of the distances of `a` and of `b` to their `k`-th nearest neighbours in that cloud; the matrix is symmetric with zero diagonal. -/
theorem C68_points {P : Type} (d : P → P → ℝ) (k : Nat) (hk : 1 ≤ k) (X : List (List P)) (hX : ∀ x ∈ X, k < x.length) :
    ∃ R, consistentTransform (.func d) (k : Int) X = .ok R ∧ R.length = X.length ∧
      ∀ (s : Nat) x, X[s]? = some x → ∃ M, R[s]? = some M ∧ IsSquare x.length M ∧
        ∀ (i j : Nat) a b, x[i]? = some a → x[j]? = some b → (i = j → cell M i j = some 0) ∧
          (i < j → ∀ va vb, IsKth k (x.map (d a)) va → IsKth k (x.map (d b)) vb → cell M i j = some (d a b / Real.sqrt (va * vb)) ∧ cell M j i = some (d a b / Real.sqrt (va * vb))) := by
  have hsq : ∀ x : List P, IsSquare x.length (pairwiseDistances (.func d) x) := by
    intro x
    refine ⟨by simp [pairwiseDistances], ?_⟩
    intro r hr
    obtain ⟨a, -, rfl⟩ := List.mem_map.1 hr
    simp
  obtain ⟨R, hR, hf⟩ := mapM_each (f := fun x => consistentRescaling k (pairwiseDistances (.func d) x)) (l := X) fun x hx => by
    obtain ⟨M, hM, -⟩ := (C68_consistent_rescaling k x.length (by have := hX x hx; omega) _ (hsq x)).1 (hX x hx)
    exact ⟨M, hM⟩
  refine ⟨R, ?_, hf.length_eq.symm, ?_⟩
  · unfold consistentTransform
    rw [if_neg (by omega), Int.toNat_natCast]
    exact hR
  · intro s x hs
    obtain ⟨hs1, rfl⟩ := List.getElem?_eq_some_iff.1 hs
    have hs2 : s < R.length := by rw [← hf.length_eq]; exact hs1
    have hk' := hX _ (List.getElem_mem hs1)
    obtain ⟨M, hM, hsqM, h0, hsym, hval⟩ := (C68_consistent_rescaling k X[s].length (by omega) _ (hsq X[s])).1 hk'
    have := (List.forall₂_iff_get.1 hf).2 s hs1 hs2
    simp only [List.get_eq_getElem] at this
    rw [hM, Except.ok.injEq] at this
    refine ⟨M, by rw [List.getElem?_eq_getElem hs2, this], hsqM, ?_⟩
    intro i j a b ha hb
    have hi := (List.getElem?_eq_some_iff.1 ha).1
    have hj := (List.getElem?_eq_some_iff.1 hb).1
    refine ⟨by rintro rfl; exact h0 i hi, ?_⟩
    intro hij va vb hva hvb
    have := hval i j _ _ va vb (d a b) hij (by simp [pairwiseDistances, ha]) (by simp [pairwiseDistances, hb]) hva hvb (by simp [hb])
    exact ⟨this, by rw [← hsym i hi j hj]; exact this⟩

/-- Non-vacuity of C68: the distances of the points 0, 1, 3 on the line; the first neighbours of points 0 and 2 are at distances 1 and 2. -/
example : IsSquare 3 [[0, 1, 3], [1, 0, 2], [3, 2, 0]] ∧ IsKth 1 [0, 1, 3] 1 ∧ IsKth 1 [3, 2, 0] 2 := by
  refine ⟨⟨rfl, by simp⟩, ⟨by simp, ?_, ?_⟩, ⟨by simp, ?_, ?_⟩⟩ <;> norm_num [List.countP_cons]

/-- **C68, false as documented.** The documentation divides by the geometric mean of the `k`-th *largest* values of rows `i` and `j`. For `k = 1`, the distances of the points
0, 1, 3 on the line and the pair (0, 1) these are 3 and 2, but the result is 1. -/
theorem C68_refuted_kth_largest :
    ∃ R, consistentRescaling 1 [[0, 1, 3], [1, 0, 2], [3, 2, 0]] = .ok R ∧ cell R 0 1 = some 1 ∧ (1 : ℝ) / Real.sqrt (3 * 2) ≠ 1 := by
  obtain ⟨R, h1, -, -, -, h2⟩ := (C68_consistent_rescaling 1 3 (by norm_num) [[0, 1, 3], [1, 0, 2], [3, 2, 0]] ⟨rfl, by simp⟩).1 (by norm_num)
  refine ⟨R, h1, ?_, ?_⟩
  · rw [h2 0 1 [0, 1, 3] [1, 0, 2] 1 1 1 (by norm_num) rfl rfl ⟨by simp, by norm_num [List.countP_cons], by norm_num [List.countP_cons]⟩
      ⟨by simp, by norm_num [List.countP_cons], by norm_num [List.countP_cons]⟩ rfl]
    simp
  · intro h
    have hs : Real.sqrt (3 * 2) ≠ 0 := by positivity
    have h3 : Real.sqrt (3 * 2) = 1 := by
      rw [div_eq_iff hs, one_mul] at h
      exact h.symm
    have := Real.sq_sqrt (show (0 : ℝ) ≤ 3 * 2 by norm_num)
    rw [h3] at this
    norm_num at this

/-! ### C69 -/

/-- **C69.** For a precomputed distance matrix the entries `(i, i+1)` are multiplied by the factor and no other entry changes; the caller's array is not modified. Missing: integer
arrays with a floating-point factor are rejected, see `C69_refuted_integer_matrices`. -/
theorem C69_consecutive_partial {K : Type} [Mul K] (intArray floatFactor : Bool) (h : ¬ (intArray = true ∧ floatFactor = true)) (factor : K) (X : List (List (List K))) :
    (consecutivePrecomputed intArray floatFactor factor X).1 = X ∧
    ∃ R, (consecutivePrecomputed intArray floatFactor factor X).2 = .ok R ∧ R.length = X.length ∧
      ∀ (s i j : Nat) (D D' : List (List K)), X[s]? = some D → R[s]? = some D' → ∀ r r' : List K, D[i]? = some r → D'[i]? = some r' →
        D'.length = D.length ∧ r'.length = r.length ∧ ∀ x, r[j]? = some x → r'[j]? = some (if j = i + 1 then x * factor else x) := by
  refine ⟨rfl, X.map (scaleConsecutive factor), ?_, by simp, ?_⟩
  · unfold consecutivePrecomputed
    cases intArray <;> cases floatFactor <;> simp_all
  · intro s i j D D' hD hD' r r' hr hr'
    rw [List.getElem?_map, hD] at hD'
    simp only [Option.map_some, Option.some.injEq] at hD'
    subst hD'
    unfold scaleConsecutive at hr' ⊢
    rw [List.getElem?_mapIdx, hr] at hr'
    simp only [Option.map_some, Option.some.injEq] at hr'
    subst hr'
    refine ⟨by simp, by simp, ?_⟩
    intro x hx
    rw [List.getElem?_mapIdx, hx]
    rfl

example : scaleConsecutive 0 [[0, 2, 5], [2, 0, 3], [5, 3, 0]] = [[0, 0, 5], [2, 0, 0], [5, 3, 0]] := by decide +kernel

/-- **C69.** Point clouds: entry `(i, j)` of the output is the distance of points `i` and `j`, multiplied by the factor if `j = i + 1`. -/
theorem C69_points {K P : Type} [Mul K] (d : P → P → K) (factor : K) (X : List (List P)) :
    (consecutivePoints d factor X).length = X.length ∧
    ∀ (s : Nat) (x : List P), X[s]? = some x → ∃ D, (consecutivePoints d factor X)[s]? = some D ∧ D.length = x.length ∧
      ∀ (i : Nat) (a : P), x[i]? = some a → ∃ r, D[i]? = some r ∧ r.length = x.length ∧
        ∀ (j : Nat) (b : P), x[j]? = some b → r[j]? = some (if j = i + 1 then d a b * factor else d a b) := by
  refine ⟨by simp [consecutivePoints], ?_⟩
  intro s x hx
  refine ⟨scaleConsecutive factor (x.map fun a => x.map (d a)), by rw [consecutivePoints, List.getElem?_map, hx]; rfl, by simp [scaleConsecutive], ?_⟩
  intro i a ha
  refine ⟨(x.map (d a)).mapIdx fun j y => if j = i + 1 then y * factor else y, by simp [scaleConsecutive, ha], by simp, ?_⟩
  intro j b hb
  simp [hb]

example : consecutivePoints (fun a b : ℤ => |a - b|) 0 [[0, 2, 5]] = [[[0, 0, 5], [2, 0, 0], [5, 3, 0]]] := by decide +kernel

/-- **C69, false as documented.** The result is described as a distance matrix, but it is symmetric only if the factor does not change the consecutive distances. -/
theorem C69_refuted_symmetric (D : List (List ℝ)) (factor : ℝ) (i : Nat) (r r1 : List ℝ) (x : ℝ) (hr : D[i]? = some r) (hr1 : D[i + 1]? = some r1) (hx : r[i + 1]? = some x)
    (hx1 : r1[i]? = some x) :
    ∃ R, (consecutivePrecomputed false true factor [D]).2 = .ok [R] ∧ (cell R i (i + 1) = cell R (i + 1) i ↔ x * factor = x) := by
  refine ⟨_, rfl, ?_⟩
  unfold cell scaleConsecutive
  simp [hr, hr1, hx, hx1]
  left; omega

/-- **C69, false for integer matrices.** With the default factor (a float), integer distance matrices are always rejected. -/
theorem C69_refuted_integer_matrices {K : Type} [Mul K] (factor : K) (X : List (List (List K))) : (consecutivePrecomputed true true factor X).2 = .error .typeError := rfl

/-! ### C71 -/

theorem cumsumFrom_append (a : Nat) (l l' : List Nat) : cumsumFrom a (l ++ l') = cumsumFrom a l ++ cumsumFrom (a + l.sum) l' := by
  induction l generalizing a with
  | nil => simp [cumsumFrom]
  | cons x t ih => simp [cumsumFrom, ih, add_assoc]

theorem cumsumFrom_zeros (a n : Nat) : cumsumFrom a (List.replicate n 0) = List.replicate n a := by
  induction n with
  | zero => rfl
  | succ n ih => rw [List.replicate_succ, List.replicate_succ, cumsumFrom, add_zero, ih]

theorem foldl_set_shift (A B : List Nat) (idx : List Nat) :
    (idx.map (A.length + ·)).foldl (fun r i => r.set i 1) (A ++ B) = A ++ idx.foldl (fun r i => r.set i 1) B := by
  induction idx generalizing B with
  | nil => rfl
  | cons i t ih =>
    rw [List.map_cons, List.foldl_cons, List.foldl_cons, List.set_append_right _ _ (by omega), Nat.add_sub_cancel_left, ih]

theorem dropLast_indptr (nb : List (List Nat)) : (indptrOf nb).length = nb.length + 1 ∧ ∀ i ∈ indptrOf nb, i ≤ nb.flatten.length := by
  induction nb with
  | nil => simp [indptrOf]
  | cons b t ih =>
    refine ⟨by simp [indptrOf, ih.1], ?_⟩
    intro i hi
    simp only [indptrOf, List.mem_cons, List.mem_map] at hi
    rcases hi with rfl | ⟨j, hj, rfl⟩
    · simp
    · have := ih.2 j hj
      simp only [List.flatten_cons, List.length_append]; omega

theorem indptr_dropLast_cons (b : List Nat) (t : List (List Nat)) : (indptrOf (b :: t)).dropLast = 0 :: (indptrOf t).dropLast.map (b.length + ·) := by
  have hne : (indptrOf t).map (b.length + ·) ≠ [] := by
    intro h
    have := congrArg List.length h
    simp [(dropLast_indptr t).1] at this
  rw [indptrOf, List.dropLast_cons_of_ne_nil hne, List.map_dropLast]

theorem marks_eq (nb : List (List Nat)) (h : ∀ b ∈ nb, b ≠ []) :
    (indptrOf nb).dropLast.foldl (fun r i => r.set i 1) (List.replicate nb.flatten.length 0) = nb.flatMap (fun b => 1 :: List.replicate (b.length - 1) 0) ∧
    ∀ i ∈ (indptrOf nb).dropLast, i < nb.flatten.length := by
  induction nb with
  | nil => simp [indptrOf]
  | cons b t ih =>
    obtain ⟨ih1, ih2⟩ := ih fun b hb => h b (by simp [hb])
    have hb : b ≠ [] := h b (by simp)
    have hpos : 0 < b.length := List.length_pos_iff.2 hb
    constructor
    · rw [indptr_dropLast_cons, List.foldl_cons, List.flatten_cons, List.length_append, ← List.replicate_append_replicate,
        List.set_append_left _ _ (by simpa using hpos)]
      have hA : (List.replicate b.length 0).set 0 1 = 1 :: List.replicate (b.length - 1) 0 := by
        obtain ⟨m, hm⟩ : ∃ m, b.length = m + 1 := ⟨b.length - 1, by omega⟩
        rw [hm, List.replicate_succ, List.set_cons_zero]; rfl
      have hl : b.length = ((1 : Nat) :: List.replicate (b.length - 1) 0).length := by simp; omega
      rw [hA]
      have := foldl_set_shift ((1 : Nat) :: List.replicate (b.length - 1) 0) (List.replicate t.flatten.length 0) (indptrOf t).dropLast
      rw [← hl] at this
      rw [this, ih1, List.flatMap_cons]
    · intro i hi
      rw [indptr_dropLast_cons] at hi
      simp only [List.mem_cons, List.mem_map] at hi
      rw [List.flatten_cons, List.length_append]
      rcases hi with rfl | ⟨j, hj, rfl⟩
      · omega
      · have := ih2 j hj; omega

theorem cumsum_marks (a : Nat) (nb : List (List Nat)) (h : ∀ b ∈ nb, b ≠ []) :
    cumsumFrom a (nb.flatMap (fun b => 1 :: List.replicate (b.length - 1) 0)) = (List.range nb.length).flatMap fun u => List.replicate (nb.getD u []).length (a + 1 + u) := by
  induction nb generalizing a with
  | nil => simp [cumsumFrom]
  | cons b t ih =>
    have hpos : 0 < b.length := List.length_pos_iff.2 (h b (by simp))
    rw [List.flatMap_cons, cumsumFrom_append, ih _ fun b hb => h b (by simp [hb])]
    rw [List.length_cons, List.range_succ_eq_map, List.flatMap_cons, List.flatMap_map]
    congr 1
    · rw [cumsumFrom, cumsumFrom_zeros, ← List.replicate_succ]
      simp only [List.getD_cons_zero, add_zero]
      congr 1; omega
    · simp only [List.sum_cons, List.sum_replicate, smul_zero, add_zero, List.getD_cons_succ]
      congr 1
      funext u
      congr 1
      omega

theorem zip_flatMap_range (nb : List (List Nat)) (a : Nat) :
    ((List.range nb.length).flatMap fun u => List.replicate (nb.getD u []).length (a + u)).zip nb.flatten =
      (List.range nb.length).flatMap fun u => (nb.getD u []).map fun v => (a + u, v) := by
  induction nb generalizing a with
  | nil => rfl
  | cons b t ih =>
    rw [List.length_cons, List.range_succ_eq_map, List.flatMap_cons, List.flatMap_map, List.flatMap_cons, List.flatMap_map, List.flatten_cons]
    rw [List.zip_append (by simp)]
    congr 1
    · simp only [List.getD_cons_zero, add_zero]
      clear ih
      induction b with
      | nil => rfl
      | cons v b ih => rw [List.length_cons, List.replicate_succ, List.zip_cons_cons, ih, List.map_cons]
    · have := ih (a + 1)
      simp only [List.getD_cons_succ]
      have he : ∀ u, a + Nat.succ u = a + 1 + u := by intro u; omega
      calc _ = ((List.range t.length).flatMap fun u => List.replicate (t.getD u []).length (a + 1 + u)).zip t.flatten := by
            congr 2; funext u; rw [he]
        _ = _ := this
        _ = _ := by congr 1; funext u; exact List.map_congr_left fun v _ => by rw [Prod.mk.injEq]; exact ⟨by omega, rfl⟩

/-- **C71.** If every point has a neighbour in the triangulation, the sparse matrix has one entry for each pair (vertex, larger neighbour), with the distance of these two points.
Missing: points without neighbours, see `C71_refuted_isolated_point` and `C71_refuted_last_isolated`. -/
theorem C71_weak_alpha_edges_partial {K : Type} (dist : Nat → Nat → K) (nb : List (List Nat)) (h : ∀ b ∈ nb, b ≠ []) :
    weakAlphaEdges dist (indptrOf nb) nb.flatten = .ok (upperEdges dist nb) := by
  cases nb with
  | nil => rfl
  | cons b t =>
    have ht : ∀ c ∈ t, c ≠ [] := fun c hc => h c (by simp [hc])
    obtain ⟨hm, hlt⟩ := marks_eq t ht
    have htail : (indptrOf (b :: t)).tail.dropLast = (indptrOf t).dropLast.map (b.length + ·) := by
      rw [indptrOf, List.tail_cons, List.map_dropLast]
    have hset : setOnes (List.replicate (b :: t).flatten.length 0) (indptrOf (b :: t)).tail.dropLast =
        .ok (List.replicate b.length 0 ++ t.flatMap (fun b => 1 :: List.replicate (b.length - 1) 0)) := by
      unfold setOnes
      rw [htail, if_pos, List.flatten_cons, List.length_append, ← List.replicate_append_replicate]
      · have := foldl_set_shift (List.replicate b.length 0) (List.replicate t.flatten.length 0) (indptrOf t).dropLast
        rw [List.length_replicate] at this
        rw [this, hm]
      · rw [List.all_eq_true]
        intro i hi
        obtain ⟨j, hj, rfl⟩ := List.mem_map.1 hi
        have := hlt j hj
        simp
        simpa using this
    unfold weakAlphaEdges
    rw [hset, ok_bind]
    have hrow : cumsumFrom 0 (List.replicate b.length 0 ++ t.flatMap (fun b => 1 :: List.replicate (b.length - 1) 0)) =
        (List.range (b :: t).length).flatMap fun u => List.replicate ((b :: t).getD u []).length (0 + u) := by
      rw [cumsumFrom_append, cumsumFrom_zeros, cumsum_marks _ t ht, List.length_cons, List.range_succ_eq_map, List.flatMap_cons, List.flatMap_map]
      congr 1
      simp only [List.sum_replicate, smul_zero, add_zero, List.getD_cons_succ]
      congr 1
      funext u
      congr 1
      omega
    simp only [hrow, zip_flatMap_range]
    unfold upperEdges
    simp only [zero_add]
    have : ∀ l : List Nat, ((l.flatMap fun u => ((b :: t).getD u []).map fun v => (u, v)).filter fun p => decide (p.1 < p.2)).map (fun p => (p.1, p.2, dist p.1 p.2)) =
        l.flatMap fun u => (((b :: t).getD u []).filter fun v => decide (u < v)).map fun v => (u, v, dist u v) := by
      intro l
      induction l with
      | nil => rfl
      | cons u l ih =>
        rw [List.flatMap_cons, List.filter_append, List.map_append, ih, List.flatMap_cons, List.filter_map, List.map_map]
        rfl
    rw [this]; rfl

/-- Non-vacuity of C71: the triangulation of four points with the edges 01, 02, 12, 13, 23. -/
example : weakAlphaEdges (fun u v => u * 10 + v) [0, 2, 5, 8, 10] [1, 2, 0, 2, 3, 0, 1, 3, 1, 2] =
    .ok [(0, 1, 1), (0, 2, 2), (1, 2, 12), (1, 3, 13), (2, 3, 23)] ∧ indptrOf [[1, 2], [0, 2, 3], [0, 1, 3], [1, 2]] = [0, 2, 5, 8, 10] := by decide +kernel

/-- **C71, false with isolated points.** If point 1 is not in the triangulation (for example, a duplicate of another point), the edges of point 2 are attributed to point 1. -/
theorem C71_refuted_isolated_point :
    weakAlphaEdges (fun u v => u * 10 + v) (indptrOf [[2, 3], [], [0, 3], [0, 2]]) [2, 3, 0, 3, 0, 2] = .ok [(0, 2, 2), (0, 3, 3), (1, 3, 13)] ∧
    upperEdges (fun u v => u * 10 + v) [[2, 3], [], [0, 3], [0, 2]] = [(0, 2, 2), (0, 3, 3), (2, 3, 23)] := by decide +kernel

theorem indptr_isolated_last (nb : List (List Nat)) : nb.flatten.length ∈ (indptrOf (nb ++ [[]])).dropLast := by
  induction nb with
  | nil => simp [indptrOf]
  | cons c t ih =>
    rw [List.cons_append, indptr_dropLast_cons, List.flatten_cons, List.length_append]
    exact List.mem_cons_of_mem _ (List.mem_map_of_mem ih)

/-- **C71, false with isolated points.** If the last point (of at least two) is not in the triangulation, an `IndexError` is raised. -/
theorem C71_refuted_last_isolated {K : Type} (dist : Nat → Nat → K) (b : List Nat) (nb : List (List Nat)) :
    weakAlphaEdges dist (indptrOf (b :: nb ++ [[]])) (b :: nb ++ [[]]).flatten = .error .indexError := by
  unfold weakAlphaEdges setOnes
  rw [if_neg]
  · rfl
  · intro hall
    rw [List.all_eq_true] at hall
    have := hall (b.length + nb.flatten.length) (by
      rw [List.cons_append, indptrOf, List.tail_cons, ← List.map_dropLast]
      exact List.mem_map_of_mem (indptr_isolated_last nb))
    simp at this

end Gtda.Props
