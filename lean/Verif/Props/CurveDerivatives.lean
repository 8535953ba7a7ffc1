import Verif.Spec.CurveDerivatives
import Verif.Props.CurveFeatures
import Mathlib.Algebra.Order.Ring.Abs
import Mathlib.Tactic.Linarith
import Mathlib.Tactic.Ring

set_option autoImplicit false

/-!
# C156: what a derivative keeps of a curve
-/

namespace Gtda.Props.CurveDerivatives
open Gtda.Py Gtda.CurveFeatures Gtda.Spec.CurveDerivatives

section
variable {K : Type} [CommRing K]

theorem channel_derivative {k nJobs nBins : Nat} (hn : 1 ≤ nJobs) {X Y : List (List (List K))} (h : derivativeTransform (k : Int) nJobs nBins X = .ok Y) {s j : Nat} {x y : List K}
    (hx : Channel X s j x) (hy : Channel Y s j y) : y = diffN k x ∧ 1 ≤ k ∧ k < nBins := by
  unfold derivativeTransform derivativeFit at h
  by_cases h1 : (k : Int) < 1
  · rw [if_pos h1] at h; cases h
  by_cases h2 : (nBins : Int) ≤ k
  · rw [if_neg h1, if_pos h2] at h; cases h
  rw [if_neg h1, if_neg h2, C17_njobs_map _ nJobs hn] at h
  have hY : Y = X.map fun c => c.map (diffN k) := by
    simpa [bind, Except.bind, pure, Except.pure] using h.symm
  subst hY
  obtain ⟨c, hc, hx⟩ := hx
  obtain ⟨d, hd, hy⟩ := hy
  rw [List.getElem?_map, hc] at hd
  cases hd
  rw [List.getElem?_map, hx] at hy
  cases hy
  exact ⟨rfl, by omega, by omega⟩

theorem npDiff_cons (a b : K) (x : List K) : TimeSeries.npDiff (a :: b :: x) = (b - a) :: TimeSeries.npDiff (b :: x) := rfl

theorem npDiff_some {x : List K} {i : Nat} {a b : K} (ha : x[i]? = some a) (hb : x[i + 1]? = some b) : (TimeSeries.npDiff x)[i]? = some (b - a) := by
  rw [npDiff_getElem?, ha, hb]

theorem npDiff_inv {x : List K} {i : Nat} {d : K} (h : (TimeSeries.npDiff x)[i]? = some d) : ∃ a b, x[i]? = some a ∧ x[i + 1]? = some b ∧ d = b - a := by
  rw [npDiff_getElem?] at h
  cases ha : x[i]? with
  | none => rw [ha] at h; simp at h
  | some a =>
    cases hb : x[i + 1]? with
    | none => rw [ha, hb] at h; simp at h
    | some b =>
      rw [ha, hb] at h
      exact ⟨a, b, rfl, rfl, by simpa using h.symm⟩

theorem isPoly_succ (k : Nat) (x : List K) : IsPoly (k + 1) x ↔ IsPoly k (TimeSeries.npDiff x) := by
  constructor
  · rintro ⟨c, hc⟩
    refine ⟨fun m => c (m + 1), fun i d hd => ?_⟩
    obtain ⟨a, b, ha, hb, rfl⟩ := npDiff_inv hd
    rw [hc i a ha, hc (i + 1) b hb, Finset.sum_range_succ', Finset.sum_range_succ']
    simp only [Nat.choose_zero_right]
    rw [add_sub_add_right_eq_sub, ← Finset.sum_sub_distrib]
    apply Finset.sum_congr rfl
    intro m _
    rw [Nat.choose_succ_succ]
    push_cast
    ring
  · rintro ⟨c, hc⟩
    refine ⟨fun m => match m with | 0 => x.getD 0 0 | m + 1 => c m, fun i => ?_⟩
    induction i with
    | zero =>
      intro a ha
      rw [Finset.sum_range_succ']
      simp [List.getD_eq_getElem?_getD, ha]
    | succ i ih =>
      intro b hb
      have hi : i < x.length := by have := (List.getElem?_eq_some_iff.1 hb).1; omega
      have ha := ih x[i] (List.getElem?_eq_getElem hi)
      have hd := hc i _ (npDiff_some (List.getElem?_eq_getElem hi) hb)
      have hb' : b = x[i] + (b - x[i]) := by ring
      rw [hb', hd]
      conv_lhs => rw [ha]
      rw [Finset.sum_range_succ', Finset.sum_range_succ']
      simp only [Nat.choose_zero_right, Nat.choose_succ_succ]
      rw [add_right_comm, ← Finset.sum_add_distrib]
      congr 1
      apply Finset.sum_congr rfl
      intro m _
      push_cast
      ring

theorem diffN_zero_iff (k : Nat) (x : List K) : (∀ a ∈ diffN k x, a = 0) ↔ IsPoly k x := by
  induction k generalizing x with
  | zero =>
    constructor
    · intro h
      exact ⟨fun _ => 0, fun i a ha => by simpa using h a (List.mem_of_getElem? ha)⟩
    · rintro ⟨c, hc⟩ a ha
      obtain ⟨i, hi⟩ := List.mem_iff_getElem?.1 ha
      simpa using hc i a hi
  | succ k ih => rw [diffN, ih, isPoly_succ]

theorem zipWith_sub_zero {x y : List K} (h : x.length = y.length) : (∀ a ∈ List.zipWith (fun u v => 1 * u + -1 * v) x y, a = 0) ↔ x = y := by
  induction x generalizing y with
  | nil => cases y <;> simp_all
  | cons a x ih =>
    cases y with
    | nil => simp at h
    | cons b y =>
      simp only [List.length_cons, Nat.add_right_cancel_iff] at h
      simp only [List.zipWith_cons_cons, List.mem_cons, forall_eq_or_imp, ih h, List.cons.injEq]
      refine and_congr_left fun _ => ?_
      rw [one_mul, neg_one_mul, ← sub_eq_add_neg, sub_eq_zero]

theorem diffN_eq_iff (k : Nat) (x y : List K) (h : x.length = y.length) :
    diffN k x = diffN k y ↔ ∃ c : Nat → K, ∀ (i : Nat) a b, x[i]? = some a → y[i]? = some b → a = b + ∑ m ∈ Finset.range k, c m * (i.choose m : K) := by
  rw [← zipWith_sub_zero (by rw [diffN_length, diffN_length, h]), ← diffN_linear k 1 (-1) x y h, diffN_zero_iff]
  apply exists_congr
  intro c
  apply forall_congr'
  intro i
  rw [List.getElem?_zipWith]
  constructor
  · intro H a b ha hb
    rw [ha, hb] at H
    rw [← H _ rfl]
    ring
  · intro H a ha
    cases hx : x[i]? with
    | none => rw [hx] at ha; simp at ha
    | some u =>
      cases hy : y[i]? with
      | none => rw [hx, hy] at ha; simp at ha
      | some v =>
        rw [hx, hy] at ha
        simp only [Option.some.injEq] at ha
        rw [← ha, H u v hx hy]
        ring

theorem npDiff_inj {x y : List K} (hl : x.length = y.length) (h0 : x[0]? = y[0]?) (h : TimeSeries.npDiff x = TimeSeries.npDiff y) : x = y := by
  apply List.ext_getElem?
  intro i
  induction i with
  | zero => exact h0
  | succ i ih =>
    by_cases hi : i + 1 < x.length
    · have hx1 := List.getElem?_eq_getElem hi
      have hy1 := List.getElem?_eq_getElem (show i + 1 < y.length by omega)
      have hx := List.getElem?_eq_getElem (show i < x.length by omega)
      have e1 := npDiff_some hx hx1
      have e2 := npDiff_some (ih ▸ hx) hy1
      rw [h, e2, Option.some.injEq] at e1
      rw [hx1, hy1, Option.some.injEq]
      exact (sub_left_injective e1).symm
    · rw [List.getElem?_eq_none (by omega), List.getElem?_eq_none (by omega)]

theorem diffN_inj (k : Nat) {x y : List K} (hl : x.length = y.length) (hk : ∀ i < k, x[i]? = y[i]?) (h : diffN k x = diffN k y) : x = y := by
  induction k generalizing x y with
  | zero => exact h
  | succ k ih =>
    refine npDiff_inj hl (hk 0 (by omega)) (ih (by rw [npDiff_length, npDiff_length, hl]) (fun i hi => ?_) h)
    rw [npDiff_getElem?, npDiff_getElem?, hk i (by omega), hk (i + 1) (by omega)]

theorem npDiff_reverse (x : List K) : TimeSeries.npDiff x.reverse = ((TimeSeries.npDiff x).map (-1 * ·)).reverse := by
  apply List.ext_getElem?
  intro i
  by_cases hi : i + 1 < x.length
  · have h1 : x.reverse[i]? = some (x[x.length - 1 - i]'(by omega)) := by
      rw [List.getElem?_reverse (by omega), List.getElem?_eq_getElem]
    have h2 : x.reverse[i + 1]? = some (x[x.length - 1 - (i + 1)]'(by omega)) := by
      rw [List.getElem?_reverse (by omega), List.getElem?_eq_getElem]
    have h3 : (TimeSeries.npDiff x)[x.length - 1 - 1 - i]? = some ((x[x.length - 1 - i]'(by omega)) - (x[x.length - 1 - (i + 1)]'(by omega))) := by
      apply npDiff_some
      · rw [List.getElem?_eq_getElem (by omega)]
        simp only [Option.some.injEq]
        congr 1
        omega
      · rw [List.getElem?_eq_getElem (by omega)]
        simp only [Option.some.injEq]
        congr 1
        omega
    rw [npDiff_some h1 h2, List.getElem?_reverse (by rw [List.length_map, npDiff_length]; omega), List.length_map, npDiff_length, List.getElem?_map, h3]
    simp
  · rw [List.getElem?_eq_none (by rw [npDiff_length, List.length_reverse]; omega), List.getElem?_eq_none (by rw [List.length_reverse, List.length_map, npDiff_length]; omega)]

theorem npDiff_smul (a : K) (x : List K) : TimeSeries.npDiff (x.map (a * ·)) = (TimeSeries.npDiff x).map (a * ·) := by
  apply List.ext_getElem?
  intro i
  rw [npDiff_getElem?, List.getElem?_map, List.getElem?_map, List.getElem?_map, npDiff_getElem?]
  cases x[i]? <;> cases x[i + 1]? <;> simp [mul_sub]

theorem diffN_smul (k : Nat) (a : K) (x : List K) : diffN k (x.map (a * ·)) = (diffN k x).map (a * ·) := by
  induction k generalizing x with
  | zero => rfl
  | succ k ih => rw [diffN, diffN, npDiff_smul, ih]

theorem diffN_reverse (k : Nat) (x : List K) : diffN k x.reverse = ((diffN k x).map ((-1) ^ k * ·)).reverse := by
  induction k generalizing x with
  | zero => simp [diffN]
  | succ k ih =>
    rw [diffN, diffN, npDiff_reverse, ih, diffN_smul, List.map_map]
    congr 2
    funext a
    simp only [Function.comp]
    ring

theorem npDiff_sum (x : List K) (a b : K) (ha : x.head? = some a) (hb : x.getLast? = some b) : (TimeSeries.npDiff x).sum = b - a := by
  induction x generalizing a with
  | nil => simp at ha
  | cons c x ih =>
    simp only [List.head?_cons, Option.some.injEq] at ha
    subst ha
    cases x with
    | nil => simp only [List.getLast?_singleton, Option.some.injEq] at hb; subst hb; simp [TimeSeries.npDiff]
    | cons d x =>
      rw [npDiff_cons, List.sum_cons, ih d rfl (by simpa using hb)]
      ring

/-- The curve whose values alternate between `e` and `-e`. -/
def alternating (n : Nat) (e : K) : List K := (List.range n).map fun i => (-1) ^ i * e

theorem npDiff_alternating (n : Nat) (e : K) : TimeSeries.npDiff (alternating n e) = alternating (n - 1) (-2 * e) := by
  apply List.ext_getElem?
  intro i
  unfold alternating
  rw [npDiff_getElem?, List.getElem?_map, List.getElem?_map, List.getElem?_map]
  by_cases hi : i + 1 < n
  · rw [List.getElem?_range (by omega), List.getElem?_range hi, List.getElem?_range (by omega)]
    simp only [Option.map_some, Option.some.injEq]
    ring
  · rw [List.getElem?_eq_none (l := List.range n) (i := i + 1) (by simp; omega), List.getElem?_eq_none (l := List.range (n - 1)) (by simp; omega)]
    cases (List.range n)[i]? <;> rfl

theorem diffN_alternating (k n : Nat) (e : K) : diffN k (alternating n e) = alternating (n - k) ((-2) ^ k * e) := by
  induction k generalizing n e with
  | zero => simp [diffN]
  | succ k ih =>
    rw [diffN, npDiff_alternating, ih, show n - 1 - k = n - (k + 1) by omega]
    congr 1
    ring

/-! ### The theorems -/

/-- **C156.** The derivative of order `k` of a curve is zero everywhere exactly if the curve is a polynomial of degree less than `k` in the number of the bin. -/
theorem C156_zero (k nJobs nBins : Nat) (hn : 1 ≤ nJobs) (X Y : List (List (List K))) (h : derivativeTransform (k : Int) nJobs nBins X = .ok Y) (s j : Nat) (x y : List K) (hx : Channel X s j x) (hy : Channel Y s j y) :
    (∀ a ∈ y, a = 0) ↔ IsPoly k x := by
  rw [(channel_derivative hn h hx hy).1]
  exact diffN_zero_iff k x

/-- **C156.** Two curves with as many bins have the same derivative of order `k` exactly if they differ by a polynomial of degree less than `k`; with the same first `k` values, they are then the same curve. -/
theorem C156_same (k nJobs nBins : Nat) (hn : 1 ≤ nJobs) (X X' Y Y' : List (List (List K))) (h : derivativeTransform (k : Int) nJobs nBins X = .ok Y) (h' : derivativeTransform (k : Int) nJobs nBins X' = .ok Y')
    (s j s' j' : Nat) (x x' y y' : List K) (hx : Channel X s j x) (hx' : Channel X' s' j' x') (hy : Channel Y s j y) (hy' : Channel Y' s' j' y') (hl : x.length = x'.length) :
    (y = y' ↔ ∃ c : Nat → K, ∀ (i : Nat) a b, x[i]? = some a → x'[i]? = some b → a = b + ∑ m ∈ Finset.range k, c m * (i.choose m : K)) ∧
      (y = y' → (∀ i < k, x[i]? = x'[i]?) → x = x') := by
  rw [(channel_derivative hn h hx hy).1, (channel_derivative hn h' hx' hy').1]
  exact ⟨diffN_eq_iff k x x' hl, fun e hk => diffN_inj k hl hk e⟩

/-- **C156.** A curve read backwards has the derivative read backwards, with the other sign if the order is odd. -/
theorem C156_reverse (k nJobs nBins : Nat) (hn : 1 ≤ nJobs) (X X' Y Y' : List (List (List K))) (h : derivativeTransform (k : Int) nJobs nBins X = .ok Y) (h' : derivativeTransform (k : Int) nJobs nBins X' = .ok Y')
    (s j s' j' : Nat) (x x' y y' : List K) (hx : Channel X s j x) (hx' : Channel X' s' j' x') (hy : Channel Y s j y) (hy' : Channel Y' s' j' y') (hr : x' = x.reverse) :
    y' = (y.map ((-1) ^ k * ·)).reverse := by
  rw [(channel_derivative hn h hx hy).1, (channel_derivative hn h' hx' hy').1, hr]
  exact diffN_reverse k x

/-- **C156.** The values of the first derivative add up to the last value of the curve minus the first. -/
theorem C156_sum (nJobs nBins : Nat) (hn : 1 ≤ nJobs) (X Y : List (List (List K))) (h : derivativeTransform 1 nJobs nBins X = .ok Y) (s j : Nat) (x y : List K) (hx : Channel X s j x) (hy : Channel Y s j y)
    (a b : K) (ha : x.head? = some a) (hb : x.getLast? = some b) : y.sum = b - a := by
  rw [(channel_derivative (k := 1) hn h hx hy).1]
  exact npDiff_sum x a b ha hb

end

section
variable {K : Type} [CommRing K] [LinearOrder K] [IsStrictOrderedRing K]

/-- **C156.** The first derivative is nowhere negative exactly if the curve never falls, and positive everywhere exactly if it always rises. -/
theorem C156_monotone (nJobs nBins : Nat) (hn : 1 ≤ nJobs) (X Y : List (List (List K))) (h : derivativeTransform 1 nJobs nBins X = .ok Y) (s j : Nat) (x y : List K) (hx : Channel X s j x) (hy : Channel Y s j y) :
    ((∀ a ∈ y, 0 ≤ a) ↔ x.Pairwise (· ≤ ·)) ∧ ((∀ a ∈ y, 0 < a) ↔ x.Pairwise (· < ·)) := by
  have e : y = TimeSeries.npDiff x := (channel_derivative (k := 1) hn h hx hy).1
  rw [e]
  rw [← List.isChain_iff_pairwise, ← List.isChain_iff_pairwise]
  clear hx e
  induction x with
  | nil => simp [TimeSeries.npDiff]
  | cons a x ih =>
    cases x with
    | nil => simp [TimeSeries.npDiff]
    | cons b x =>
      rw [npDiff_cons, List.isChain_cons_cons, List.isChain_cons_cons, ← ih.1, ← ih.2]
      simp only [List.mem_cons, forall_eq_or_imp, sub_nonneg, sub_pos, and_self]

/-- **C156.** Curves that differ by at most `ε` in each bin have derivatives of order `k` that differ by at most `2 ^ k ε`. -/
theorem C156_stable (k nJobs nBins : Nat) (hn : 1 ≤ nJobs) (X X' Y Y' : List (List (List K))) (h : derivativeTransform (k : Int) nJobs nBins X = .ok Y) (h' : derivativeTransform (k : Int) nJobs nBins X' = .ok Y')
    (s j s' j' : Nat) (x x' y y' : List K) (hx : Channel X s j x) (hx' : Channel X' s' j' x') (hy : Channel Y s j y) (hy' : Channel Y' s' j' y') (ε : K) (hd : ∀ (i : Nat) a b, x[i]? = some a → x'[i]? = some b → |a - b| ≤ ε)
    (i : Nat) (a b : K) (ha : y[i]? = some a) (hb : y'[i]? = some b) : |a - b| ≤ 2 ^ k * ε := by
  rw [(channel_derivative hn h hx hy).1] at ha
  rw [(channel_derivative hn h' hx' hy').1] at hb
  clear hx hx' h h'
  induction k generalizing x x' ε with
  | zero => simpa using hd i a b ha hb
  | succ k ih =>
    have := ih (TimeSeries.npDiff x) (TimeSeries.npDiff x') (2 * ε) (fun i d d' h1 h2 => ?_) ha hb
    · calc |a - b| ≤ 2 ^ k * (2 * ε) := this
        _ = 2 ^ (k + 1) * ε := by ring
    · obtain ⟨p, q, hp, hq, rfl⟩ := npDiff_inv h1
      obtain ⟨p', q', hp', hq', rfl⟩ := npDiff_inv h2
      have e1 := hd i p p' hp hp'
      have e2 := hd (i + 1) q q' hq hq'
      rw [abs_le] at e1 e2 ⊢
      constructor <;> linarith

/-- **C156.** The bound is attained for each order, number of bins and `ε`: by a curve that alternates between `ε` and `-ε`, and zero. -/
theorem C156_sharp (k nJobs nBins : Nat) (hk : 1 ≤ k) (hb : k < nBins) (hn : 1 ≤ nJobs) (ε : K) (hε : 0 ≤ ε) :
    ∃ (x y : List K), x.length = nBins ∧ (∀ a ∈ x, |a| = ε) ∧ derivativeTransform (k : Int) nJobs nBins [[x]] = .ok [[y]] ∧ y.length = nBins - k ∧ ∀ a ∈ y, |a| = 2 ^ k * ε := by
  refine ⟨alternating nBins ε, alternating (nBins - k) ((-2) ^ k * ε), by simp [alternating], ?_, ?_, by simp [alternating], ?_⟩
  · intro a ha
    simp only [alternating, List.mem_map] at ha
    obtain ⟨i, _, rfl⟩ := ha
    rw [abs_mul, abs_pow, abs_neg, abs_one, one_pow, one_mul, abs_of_nonneg hε]
  · unfold derivativeTransform derivativeFit
    rw [if_neg (by omega), if_neg (by omega), C17_njobs_map _ nJobs hn]
    simp [bind, Except.bind, pure, Except.pure, diffN_alternating]
  · intro a ha
    simp only [alternating, List.mem_map] at ha
    obtain ⟨i, _, rfl⟩ := ha
    rw [abs_mul, abs_pow, abs_neg, abs_one, one_pow, one_mul, abs_mul, abs_pow, abs_neg, abs_of_nonneg hε, abs_two]

/-- Non-vacuity: the second derivative of a line and of a parabola, and of a curve and another one near it; a Betti curve that rises and falls. -/
example : derivativeTransform (K := ℚ) 2 2 4 [[[1, 3, 5, 7], [0, 1, 4, 9]], [[7, 5, 3, 1], [9, 4, 1, 0]]] = .ok [[[0, 0], [2, 2]], [[0, 0], [2, 2]]] ∧
    Channel [[[1, 3, 5, 7], [0, 1, 4, 9]], [[7, 5, 3, 1], [9, 4, 1, 0]]] 0 0 [(1 : ℚ), 3, 5, 7] ∧ IsPoly 2 [(1 : ℚ), 3, 5, 7] ∧ ¬ IsPoly 2 [(0 : ℚ), 1, 4, 9] ∧
    derivativeTransform (K := ℚ) 1 1 4 [[[0, 2, 3, 1]]] = .ok [[[2, 1, -2]]] := by
  refine ⟨by decide +kernel, ⟨_, rfl, rfl⟩, ?_, ?_, by decide +kernel⟩
  · rw [← diffN_zero_iff]
    decide +kernel
  · rw [← diffN_zero_iff]
    decide +kernel

end

end Gtda.Props.CurveDerivatives
