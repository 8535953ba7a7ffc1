import Mathlib.Analysis.SumIntegralComparisons
import Mathlib.Analysis.SpecialFunctions.Pow.Deriv
import Mathlib.Analysis.Calculus.MeanValue

set_option autoImplicit false

/-!
# Sums over equally spaced values converge to integrals, maxima to suprema
-/

namespace Gtda.Lemmas.RiemannSums
open Set Filter Topology MeasureTheory

/-- Changes of `f` between `a` and `b` are dominated by those of `w`. -/
def Dominated (a b : ℝ) (f w : ℝ → ℝ) : Prop := ∀ x ∈ Icc a b, ∀ y ∈ Icc a b, x ≤ y → |f y - f x| ≤ w y - w x

/-- Of bounded variation between `a` and `b`, and continuous from the right. -/
structure Tame (a b : ℝ) (f : ℝ → ℝ) : Prop where
  dom : ∃ w, Dominated a b f w
  right : ∀ t, ContinuousWithinAt f (Ici t) t

theorem Tame.const (a b c : ℝ) : Tame a b fun _ => c := ⟨⟨fun _ => 0, fun x _ y _ _ => by simp⟩, fun t => continuousWithinAt_const⟩

theorem Tame.add {a b : ℝ} {f g : ℝ → ℝ} (hf : Tame a b f) (hg : Tame a b g) : Tame a b fun t => f t + g t := by
  obtain ⟨⟨w, hw⟩, hf'⟩ := hf
  obtain ⟨⟨v, hv⟩, hg'⟩ := hg
  refine ⟨⟨fun t => w t + v t, fun x hx y hy h => ?_⟩, fun t => (hf' t).add (hg' t)⟩
  have h1 := hw x hx y hy h
  have h2 := hv x hx y hy h
  calc |f y + g y - (f x + g x)| = |(f y - f x) + (g y - g x)| := by ring_nf
    _ ≤ |f y - f x| + |g y - g x| := abs_add_le _ _
    _ ≤ _ := by linarith

theorem Tame.smul {a b : ℝ} {f : ℝ → ℝ} (c : ℝ) (hf : Tame a b f) : Tame a b fun t => c * f t := by
  obtain ⟨⟨w, hw⟩, hf'⟩ := hf
  refine ⟨⟨fun t => |c| * w t, fun x hx y hy h => ?_⟩, fun t => continuousWithinAt_const.mul (hf' t)⟩
  rw [← mul_sub, ← mul_sub, abs_mul]
  exact mul_le_mul_of_nonneg_left (hw x hx y hy h) (abs_nonneg c)

theorem Tame.sub {a b : ℝ} {f g : ℝ → ℝ} (hf : Tame a b f) (hg : Tame a b g) : Tame a b fun t => f t - g t := by
  have := hf.add (hg.smul (-1))
  simpa [sub_eq_add_neg] using this

theorem Tame.sum {α : Type} {a b : ℝ} (l : List α) (f : α → ℝ → ℝ) (h : ∀ x ∈ l, Tame a b (f x)) : Tame a b fun t => (l.map fun x => f x t).sum := by
  induction l with
  | nil => exact Tame.const a b 0
  | cons x l ih =>
    simp only [List.map_cons, List.sum_cons]
    exact (h x List.mem_cons_self).add (ih fun y hy => h y (List.mem_cons_of_mem _ hy))

theorem Tame.of_lipschitz {f : ℝ → ℝ} (a b : ℝ) (h : ∀ x y, f x ≤ f y + |x - y|) : Tame a b f := by
  have key : ∀ x y, |f x - f y| ≤ |x - y| := by
    intro x y
    rw [abs_le]
    have h1 := h x y
    have h2 := h y x
    rw [abs_sub_comm y x] at h2
    exact ⟨by linarith, by linarith⟩
  refine ⟨⟨fun t => t, fun x _ y _ hxy => ?_⟩, fun t => ?_⟩
  · rw [← abs_of_nonneg (sub_nonneg.mpr hxy)]
    exact key y x
  · have : LipschitzWith 1 f := LipschitzWith.of_dist_le_mul fun x y => by
      rw [Real.dist_eq, Real.dist_eq, NNReal.coe_one, one_mul]
      exact key x y
    exact this.continuous.continuousWithinAt

/-- The function that is `1` between `β` and `δ` (without `δ`) and `0` elsewhere. -/
theorem Tame.indicator (a b β δ : ℝ) : Tame a b fun t => if β ≤ t ∧ t < δ then (1 : ℝ) else 0 := by
  constructor
  · refine ⟨fun t => (if β ≤ t then (1 : ℝ) else 0) + if δ ≤ t then (1 : ℝ) else 0, fun x _ y _ h => ?_⟩
    dsimp only
    split_ifs <;> first | (norm_num; done) | (exfalso; grind)
  · intro t
    have hev : (fun s : ℝ => if β ≤ s ∧ s < δ then (1 : ℝ) else 0) =ᶠ[𝓝[Ici t] t] fun _ => if β ≤ t ∧ t < δ then (1 : ℝ) else 0 := by
      have h1 : ∀ᶠ s in 𝓝[Ici t] t, (β ≤ s ↔ β ≤ t) := by
        by_cases hb : β ≤ t
        · filter_upwards [self_mem_nhdsWithin] with s hs
          exact ⟨fun _ => hb, fun _ => le_trans hb hs⟩
        · filter_upwards [mem_nhdsWithin_of_mem_nhds (Iio_mem_nhds (not_le.mp hb))] with s hs
          exact ⟨fun h => absurd h (not_le.mpr hs), fun h => absurd h hb⟩
      have h2 : ∀ᶠ s in 𝓝[Ici t] t, (s < δ ↔ t < δ) := by
        by_cases hd : t < δ
        · filter_upwards [mem_nhdsWithin_of_mem_nhds (Iio_mem_nhds hd)] with s hs
          exact ⟨fun _ => hd, fun _ => hs⟩
        · filter_upwards [self_mem_nhdsWithin] with s hs
          exact ⟨fun h => lt_of_le_of_lt hs h, fun h => absurd h hd⟩
      filter_upwards [h1, h2] with s a1 a2
      simp only [a1, a2]
    exact (continuousWithinAt_const (b := if β ≤ t ∧ t < δ then (1 : ℝ) else 0)).congr_of_eventuallyEq hev rfl

theorem Dominated.bounded {a b : ℝ} {f w : ℝ → ℝ} (h : Dominated a b f w) : ∀ x ∈ Icc a b, |f x| ≤ |f a| + (w b - w a) := by
  intro x hx
  have ha : a ∈ Icc a b := ⟨le_refl a, le_trans hx.1 hx.2⟩
  have hb : b ∈ Icc a b := ⟨le_trans hx.1 hx.2, le_refl b⟩
  have h1 := h a ha x hx hx.1
  have h2 := h x hx b hb hx.2
  have h3 := abs_nonneg (f b - f x)
  have h4 : |f x| ≤ |f a| + |f x - f a| := by
    calc |f x| = |f a + (f x - f a)| := by ring_nf
      _ ≤ _ := abs_add_le _ _
  linarith

theorem rpow_lipschitz (p M : ℝ) (hp : 1 ≤ p) (x y : ℝ) (hx : 0 ≤ x) (hy : 0 ≤ y) (hxM : x ≤ M) (hyM : y ≤ M) : |y ^ p - x ^ p| ≤ p * M ^ (p - 1) * |y - x| := by
  have h := (convex_Icc (0 : ℝ) M).norm_image_sub_le_of_norm_hasDerivWithin_le (f := fun x : ℝ => x ^ p) (f' := fun x => p * x ^ (p - 1)) (C := p * M ^ (p - 1)) (x := x) (y := y)
    (fun z _ => (Real.hasDerivAt_rpow_const (Or.inr hp)).hasDerivWithinAt) (fun z hz => ?_) ⟨hx, hxM⟩ ⟨hy, hyM⟩
  · simpa only [Real.norm_eq_abs] using h
  · rw [Real.norm_eq_abs, abs_of_nonneg (mul_nonneg (by linarith) (Real.rpow_nonneg hz.1 _))]
    exact mul_le_mul_of_nonneg_left (Real.rpow_le_rpow hz.1 hz.2 (by linarith)) (by linarith)

theorem Tame.abs_rpow {a b : ℝ} {f : ℝ → ℝ} (hf : Tame a b f) (p : ℝ) (hp : 1 ≤ p) : Tame a b fun t => |f t| ^ p := by
  obtain ⟨⟨w, hw⟩, hr⟩ := hf
  have hB := hw.bounded
  refine ⟨⟨fun t => p * (|f a| + |w b - w a|) ^ (p - 1) * w t, fun x hx y hy h => ?_⟩, fun t => (hr t).abs.rpow_const (Or.inr (by linarith))⟩
  have hle : ∀ x ∈ Icc a b, |f x| ≤ |f a| + |w b - w a| := fun x hx => le_trans (hB x hx) (by have := le_abs_self (w b - w a); linarith)
  have h1 := rpow_lipschitz p (|f a| + |w b - w a|) hp (|f x|) (|f y|) (abs_nonneg _) (abs_nonneg _) (hle x hx) (hle y hy)
  refine le_trans h1 ?_
  rw [← mul_sub]
  exact mul_le_mul_of_nonneg_left (le_trans (abs_abs_sub_abs_le _ _) (hw x hx y hy h)) (by positivity)

/-! ### Sums and integrals -/

theorem monotone_sums (a h : ℝ) (m : Nat) (hh : 0 ≤ h) (u : ℝ → ℝ) (hu : MonotoneOn u (Icc a (a + h * m))) :
    h * ∑ i ∈ Finset.range m, u (a + h * i) ≤ (∫ t in a..a + h * m, u t) ∧ (∫ t in a..a + h * m, u t) ≤ h * ∑ i ∈ Finset.range m, u (a + h * (i + 1)) := by
  have hg : MonotoneOn (fun x => u (a + h * x)) (Icc (0 : ℝ) (0 + m)) := by
    intro x hx y hy hxy
    rw [zero_add] at hx hy
    have e : ∀ z : ℝ, z ∈ Icc (0 : ℝ) m → a + h * z ∈ Icc a (a + h * m) := fun z hz =>
      ⟨by have := mul_nonneg hh hz.1; linarith, by have := mul_le_mul_of_nonneg_left hz.2 hh; linarith⟩
    exact hu (e x hx) (e y hy) (by have := mul_le_mul_of_nonneg_left hxy hh; linarith)
  have h1 := hg.sum_le_integral
  have h2 := hg.integral_le_sum
  have e := intervalIntegral.smul_integral_comp_add_mul (a := 0) (b := 0 + (m : ℝ)) u h a
  simp only [smul_eq_mul, mul_zero, add_zero, zero_add] at e h1 h2
  rw [← e]
  refine ⟨mul_le_mul_of_nonneg_left h1 hh, mul_le_mul_of_nonneg_left ?_ hh⟩
  simpa using h2

theorem monotone_error (a h : ℝ) (m : Nat) (hh : 0 ≤ h) (u : ℝ → ℝ) (hu : MonotoneOn u (Icc a (a + h * m))) :
    0 ≤ (∫ t in a..a + h * m, u t) - h * ∑ i ∈ Finset.range m, u (a + h * i) ∧ (∫ t in a..a + h * m, u t) - h * ∑ i ∈ Finset.range m, u (a + h * i) ≤ h * (u (a + h * m) - u a) := by
  obtain ⟨h1, h2⟩ := monotone_sums a h m hh u hu
  refine ⟨by linarith, ?_⟩
  have e : ∑ i ∈ Finset.range m, u (a + h * ((i : ℝ) + 1)) - ∑ i ∈ Finset.range m, u (a + h * i) = u (a + h * m) - u a := by
    rw [← Finset.sum_sub_distrib]
    have := Finset.sum_range_sub (fun i : Nat => u (a + h * (i : ℝ))) m
    simpa using this
  have : h * ∑ i ∈ Finset.range m, u (a + h * ((i : ℝ) + 1)) - h * ∑ i ∈ Finset.range m, u (a + h * i) = h * (u (a + h * m) - u a) := by rw [← mul_sub, e]
  linarith

theorem sum_error (a h : ℝ) (m : Nat) (hh : 0 ≤ h) (f w : ℝ → ℝ) (hw : Dominated a (a + h * m) f w) :
    |h * ∑ i ∈ Finset.range (m + 1), f (a + h * i) - ∫ t in a..a + h * m, f t| ≤ h * (2 * (w (a + h * m) - w a) + |f (a + h * m)|) := by
  have hm : (0 : ℝ) ≤ h * m := mul_nonneg hh (Nat.cast_nonneg m)
  have hmw : MonotoneOn w (Icc a (a + h * m)) := fun x hx y hy hxy => by
    have := le_trans (abs_nonneg _) (hw x hx y hy hxy)
    linarith
  have hmu : MonotoneOn (fun t => w t + f t) (Icc a (a + h * m)) := fun x hx y hy hxy => by
    have := (abs_le.mp (hw x hx y hy hxy)).1
    dsimp only
    linarith
  obtain ⟨a1, a2⟩ := monotone_error a h m hh w hmw
  obtain ⟨b1, b2⟩ := monotone_error a h m hh _ hmu
  have hu : Set.uIcc a (a + h * m) = Icc a (a + h * m) := Set.uIcc_of_le (by linarith)
  have i1 : IntervalIntegrable w volume a (a + h * m) := MonotoneOn.intervalIntegrable (by rw [hu]; exact hmw)
  have i2 : IntervalIntegrable (fun t => w t + f t) volume a (a + h * m) := MonotoneOn.intervalIntegrable (by rw [hu]; exact hmu)
  have e : (∫ t in a..a + h * m, f t) = (∫ t in a..a + h * m, (w t + f t)) - ∫ t in a..a + h * m, w t := by
    rw [← intervalIntegral.integral_sub i2 i1]
    congr 1
    funext t
    ring
  have es : ∑ i ∈ Finset.range m, (w (a + h * i) + f (a + h * i)) = ∑ i ∈ Finset.range m, w (a + h * i) + ∑ i ∈ Finset.range m, f (a + h * i) := Finset.sum_add_distrib
  rw [es] at b1 b2
  rw [Finset.sum_range_succ, e]
  have hc := hw a ⟨le_refl _, by linarith⟩ (a + h * m) ⟨by linarith, le_refl _⟩ (by linarith)
  have hc' := abs_le.mp hc
  have k1 := mul_le_mul_of_nonneg_left hc'.2 hh
  have k2 := mul_le_mul_of_nonneg_left hc'.1 hh
  have k3 := mul_le_mul_of_nonneg_left (le_abs_self (f (a + h * m))) hh
  have k4 := mul_le_mul_of_nonneg_left (neg_abs_le (f (a + h * m))) hh
  rw [abs_le]
  constructor <;> nlinarith

/-- Sums over equally spaced values converge to the integral. -/
theorem tendsto_sum (a b : ℝ) (hab : a ≤ b) (f : ℝ → ℝ) (hf : Tame a b f) :
    Tendsto (fun n : Nat => (b - a) / ((n : ℝ) - 1) * ∑ i ∈ Finset.range n, f (a + (b - a) / ((n : ℝ) - 1) * i)) atTop (𝓝 (∫ t in a..b, f t)) := by
  obtain ⟨⟨w, hw⟩, -⟩ := hf
  rw [← tendsto_add_atTop_iff_nat 2]
  rw [tendsto_iff_dist_tendsto_zero]
  have hlim : Tendsto (fun n : Nat => (b - a) / (n + 1 : ℝ) * (2 * (w b - w a) + |f b|)) atTop (𝓝 0) := by
    have h1 : Tendsto (fun n : Nat => (b - a) / (n + 1 : ℝ)) atTop (𝓝 0) := by
      have := (tendsto_one_div_add_atTop_nhds_zero_nat (𝕜 := ℝ)).const_mul (b - a)
      simpa [div_eq_mul_inv] using this
    simpa using h1.mul_const (2 * (w b - w a) + |f b|)
  refine squeeze_zero (fun _ => dist_nonneg) (fun n => ?_) hlim
  have hn : ((n + 2 : Nat) : ℝ) - 1 = (n + 1 : ℝ) := by push_cast; ring
  have hpos : (0 : ℝ) < n + 1 := by positivity
  have hb : a + (b - a) / (n + 1 : ℝ) * ((n + 1 : Nat) : ℝ) = b := by
    push_cast
    field_simp
    ring
  have := sum_error a ((b - a) / (n + 1 : ℝ)) (n + 1) (div_nonneg (by linarith) hpos.le) f w (by rw [hb]; exact hw)
  rw [hb] at this
  rw [hn, Real.dist_eq]
  exact this

/-! ### Maxima and suprema -/

/-- Some of the equally spaced values lies just right of `t`. -/
theorem grid_near (a b t : ℝ) (hat : a ≤ t) (htb : t < b) (m : Nat) (hm : 1 ≤ m) :
    ∃ i : Nat, i ≤ m ∧ t ≤ a + (b - a) / m * i ∧ a + (b - a) / m * i < t + (b - a) / m := by
  have hm' : (0 : ℝ) < m := by exact_mod_cast hm
  have hh : 0 < (b - a) / m := div_pos (by linarith) hm'
  refine ⟨⌈(t - a) / ((b - a) / m)⌉₊, ?_, ?_, ?_⟩
  · rw [Nat.ceil_le, div_le_iff₀ hh]
    have : (m : ℝ) * ((b - a) / m) = b - a := by field_simp
    linarith
  · have := Nat.le_ceil ((t - a) / ((b - a) / m))
    rw [div_le_iff₀ hh] at this
    linarith
  · have := Nat.ceil_lt_add_one (a := (t - a) / ((b - a) / m)) (div_nonneg (by linarith) hh.le)
    have h2 := mul_lt_mul_of_pos_left this hh
    have h3 : (b - a) / m * ((t - a) / ((b - a) / m) + 1) = (t - a) + (b - a) / m := by
      rw [mul_add, mul_one, mul_div_cancel₀ _ hh.ne']
    linarith

theorem bdd_values (a b : ℝ) (F : List (ℝ → ℝ)) (hF : ∀ f ∈ F, Tame a b f) : BddAbove {y | ∃ f ∈ F, ∃ t, a ≤ t ∧ t ≤ b ∧ y = |f t|} := by
  induction F with
  | nil => exact ⟨0, by rintro y ⟨f, hf, -⟩; cases hf⟩
  | cons f l ih =>
    obtain ⟨B, hB⟩ := ih fun g hg => hF g (List.mem_cons_of_mem _ hg)
    obtain ⟨⟨w, hw⟩, -⟩ := hF f List.mem_cons_self
    refine ⟨max B (|f a| + (w b - w a)), ?_⟩
    rintro y ⟨g, hg, t, h1, h2, rfl⟩
    rcases List.mem_cons.mp hg with rfl | hg
    · exact le_max_of_le_right (hw.bounded t ⟨h1, h2⟩)
    · exact le_max_of_le_left (hB ⟨g, hg, t, h1, h2, rfl⟩)

/-- Maxima over equally spaced values converge to the supremum. -/
theorem tendsto_max (a b : ℝ) (hab : a ≤ b) (F : List (ℝ → ℝ)) (hF : ∀ f ∈ F, Tame a b f) (M : Nat → ℝ)
    (hM0 : ∀ n : Nat, 2 ≤ n → 0 ≤ M n) (hM1 : ∀ n : Nat, 2 ≤ n → ∀ f ∈ F, ∀ i : Nat, i < n → |f (a + (b - a) / ((n : ℝ) - 1) * i)| ≤ M n)
    (hM2 : ∀ n : Nat, 2 ≤ n → M n = 0 ∨ ∃ f ∈ F, ∃ i : Nat, i < n ∧ M n = |f (a + (b - a) / ((n : ℝ) - 1) * i)|) :
    Tendsto M atTop (𝓝 (sSup {y | ∃ f ∈ F, ∃ t, a ≤ t ∧ t ≤ b ∧ y = |f t|})) := by
  have hbdd := bdd_values a b F hF
  have hS0 : 0 ≤ sSup {y | ∃ f ∈ F, ∃ t, a ≤ t ∧ t ≤ b ∧ y = |f t|} := Real.sSup_nonneg (by rintro y ⟨f, hf, t, -, -, rfl⟩; exact abs_nonneg _)
  have hgrid : ∀ n : Nat, 2 ≤ n → ∀ i : Nat, i < n → a ≤ a + (b - a) / ((n : ℝ) - 1) * i ∧ a + (b - a) / ((n : ℝ) - 1) * i ≤ b := by
    intro n hn i hi
    have h1 : (0 : ℝ) < (n : ℝ) - 1 := by have : (2 : ℝ) ≤ n := by exact_mod_cast hn
                                          linarith
    have h2 : (i : ℝ) ≤ (n : ℝ) - 1 := by
      have : ((i + 1 : Nat) : ℝ) ≤ (n : ℝ) := by exact_mod_cast hi
      push_cast at this
      linarith
    have h3 : 0 ≤ (b - a) / ((n : ℝ) - 1) := div_nonneg (by linarith) h1.le
    refine ⟨by have := mul_nonneg h3 (Nat.cast_nonneg (α := ℝ) i); linarith, ?_⟩
    have := mul_le_mul_of_nonneg_left h2 h3
    rw [div_mul_cancel₀ _ h1.ne'] at this
    linarith
  have hup : ∀ n, 2 ≤ n → M n ≤ sSup {y | ∃ f ∈ F, ∃ t, a ≤ t ∧ t ≤ b ∧ y = |f t|} := by
    intro n hn
    rcases hM2 n hn with h | ⟨f, hf, i, hi, h⟩
    · rw [h]; exact hS0
    · rw [h]
      exact le_csSup hbdd ⟨f, hf, _, (hgrid n hn i hi).1, (hgrid n hn i hi).2, rfl⟩
  rw [tendsto_order]
  constructor
  · intro c hc
    by_cases hne : ({y | ∃ f ∈ F, ∃ t, a ≤ t ∧ t ≤ b ∧ y = |f t|} : Set ℝ).Nonempty
    · obtain ⟨y, ⟨f, hf, t, h1, h2, rfl⟩, hlt⟩ := exists_lt_of_lt_csSup hne hc
      rcases eq_or_lt_of_le h2 with rfl | h2
      · filter_upwards [eventually_ge_atTop 2] with n hn
        refine lt_of_lt_of_le hlt ?_
        have := hM1 n hn f hf (n - 1) (by omega)
        have e : a + (t - a) / ((n : ℝ) - 1) * ((n - 1 : Nat) : ℝ) = t := by
          have h0 : (0 : ℝ) < (n : ℝ) - 1 := by have : (2 : ℝ) ≤ n := by exact_mod_cast hn
                                                linarith
          rw [Nat.cast_sub (by omega), Nat.cast_one, div_mul_cancel₀ _ h0.ne']
          ring
        rw [e] at this
        exact this
      · have hcont := ((hF f hf).right t).abs
        have hev := hcont.eventually (lt_mem_nhds hlt)
        obtain ⟨δ, hδ, hsub⟩ := (mem_nhdsGE_iff_exists_Ico_subset' h2).mp hev
        have hlim : Tendsto (fun n : Nat => (b - a) / ((n : ℝ) - 1)) atTop (𝓝 0) :=
          Tendsto.div_atTop tendsto_const_nhds (tendsto_atTop_add_const_right _ (-1) tendsto_natCast_atTop_atTop)
        have hsmall := hlim.eventually (gt_mem_nhds (sub_pos.mpr hδ : (0 : ℝ) < δ - t))
        filter_upwards [eventually_ge_atTop 2, hsmall] with n hn hs
        obtain ⟨i, hi, k1, k2⟩ := grid_near a b t h1 h2 (n - 1) (by omega)
        rw [Nat.cast_sub (by omega), Nat.cast_one] at k1 k2
        refine lt_of_lt_of_le ?_ (hM1 n hn f hf i (by omega))
        exact hsub ⟨k1, by linarith⟩
    · rw [Set.not_nonempty_iff_eq_empty.mp hne, Real.sSup_empty] at hc
      filter_upwards [eventually_ge_atTop 2] with n hn
      exact lt_of_lt_of_le hc (hM0 n hn)
  · intro c hc
    filter_upwards [eventually_ge_atTop 2] with n hn
    exact lt_of_le_of_lt (hup n hn) hc

end Gtda.Lemmas.RiemannSums
