import Verif.Props.Limits

set_option autoImplicit false

/-!
# C145: how many bins are enough
-/

namespace Gtda.Spec.Limits
open Gtda.Diagrams Gtda.DiagramMetrics Gtda.Spec.DiagramMetrics

/-- How much each of the curves of a diagram in dimension `q` can go up and down between `lo` and `hi`: a Betti curve by one at each birth and death, layers of landscapes and silhouettes with slopes of at most one. -/
def wobble {Q : Type} [DecidableEq Q] (metric : Metric) (lo hi : ℝ) (D : List (Pt ℝ Q)) (q : Q) : ℝ :=
  match metric with
  | .betti => 2 * (pointsIn D q).length
  | _ => hi - lo

/-- Distance between neighbouring values of the sampling. -/
noncomputable def stepOf (lo hi : ℝ) (n : Nat) : ℝ := (hi - lo) / ((n : ℝ) - 1)

end Gtda.Spec.Limits

namespace Gtda.Props.Rates
open Gtda Gtda.Py Gtda.Diagrams Gtda.DiagramMetrics Gtda.Spec.DiagramMetrics Gtda.Spec.Vectorizers Gtda.Spec.Limits Gtda.Props.DiagramMetrics Gtda.Lemmas.RiemannSums Gtda.Props.Limits
open Gtda.Vectorizers (observedDims)
open Filter Topology MeasureTheory Set
open scoped ENNReal

variable {Q : Type}

/-! ### Variation of curves -/

theorem dominated_sum {α : Type} {a b : ℝ} (l : List α) (f w : α → ℝ → ℝ) (h : ∀ x ∈ l, Dominated a b (f x) (w x)) : Dominated a b (fun t => (l.map fun x => f x t).sum) (fun t => (l.map fun x => w x t).sum) := by
  induction l with
  | nil => intro x _ y _ _; simp
  | cons z l ih =>
    intro x hx y hy hxy
    have h1 := h z List.mem_cons_self x hx y hy hxy
    have h2 := ih (fun z hz => h z (List.mem_cons_of_mem _ hz)) x hx y hy hxy
    simp only [List.map_cons, List.sum_cons]
    rw [abs_le] at *
    constructor <;> linarith [h1.1, h1.2, h2.1, h2.2]

theorem dominated_sub {a b : ℝ} {f g w v : ℝ → ℝ} (hf : Dominated a b f w) (hg : Dominated a b g v) : Dominated a b (fun t => f t - g t) (fun t => w t + v t) := by
  intro x hx y hy hxy
  have h1 := hf x hx y hy hxy
  have h2 := hg x hx y hy hxy
  rw [abs_le] at *
  dsimp only
  constructor <;> linarith [h1.1, h1.2, h2.1, h2.2]

/-- Slopes are at most `c`. -/
def Slope (c : ℝ) (f : ℝ → ℝ) : Prop := ∀ x y, |f x - f y| ≤ c * |x - y|

theorem slope_of {f : ℝ → ℝ} (h : ∀ x y, f x ≤ f y + |x - y|) : Slope 1 f := by
  intro x y
  rw [one_mul, abs_le]
  have h1 := h x y
  have h2 := h y x
  rw [abs_sub_comm] at h2
  constructor <;> linarith

theorem dominated_slope {a b : ℝ} {f : ℝ → ℝ} (h : Slope 1 f) : Dominated a b f id := by
  intro x _ y _ hxy
  have := h y x
  rwa [one_mul, abs_of_nonneg (sub_nonneg.mpr hxy)] at this

theorem slope_sub {c d : ℝ} {f g : ℝ → ℝ} (hf : Slope c f) (hg : Slope d g) : Slope (c + d) (fun t => f t - g t) := by
  intro x y
  have h1 := hf x y
  have h2 := hg x y
  rw [add_mul]
  rw [abs_le] at *
  constructor <;> linarith [h1.1, h1.2, h2.1, h2.2]

theorem tent_slope (β δ : ℝ) : Slope 1 fun t => tent β δ t := by
  apply slope_of
  intro x y
  have := fiber_lipschitz (Q := Nat) x y ⟨β, δ, 0⟩
  rw [fiber_eq, fiber_eq] at this
  exact this

theorem average_slope {α : Type} (l : List α) (w : α → ℝ) (hw : ∀ x ∈ l, 0 ≤ w x) (f : α → ℝ → ℝ) (hf : ∀ x ∈ l, Slope 1 (f x)) : Slope 1 fun t => (l.map fun x => w x * f x t).sum / (l.map w).sum := by
  intro x y
  have key : |(l.map fun z => w z * f z x).sum - (l.map fun z => w z * f z y).sum| ≤ (l.map w).sum * |x - y| ∧ 0 ≤ (l.map w).sum := by
    induction l with
    | nil => simp
    | cons z l ih =>
      obtain ⟨h1, h2⟩ := ih (fun z hz => hw z (List.mem_cons_of_mem _ hz)) (fun z hz => hf z (List.mem_cons_of_mem _ hz))
      have h3 := hf z List.mem_cons_self x y
      have h4 := hw z List.mem_cons_self
      simp only [List.map_cons, List.sum_cons]
      refine ⟨?_, by linarith⟩
      have h5 := mul_le_mul_of_nonneg_left h3 h4
      rw [← abs_of_nonneg h4, ← abs_mul, abs_of_nonneg h4, one_mul] at h5
      rw [abs_le] at h1 h5 ⊢
      constructor <;> nlinarith [h1.1, h1.2, h5.1, h5.2]
  dsimp only
  rw [← sub_div, abs_div, abs_of_nonneg key.2, one_mul]
  rcases key.2.eq_or_lt with h | h
  · rw [← h, div_zero]
    exact abs_nonneg _
  · rw [div_le_iff₀ h, mul_comm]
    exact key.1

theorem curves_slope [DecidableEq Q] (metric : Metric) (hm : metric = .landscape ∨ metric = .silhouette) (P : Params ℝ) (D : List (Pt ℝ Q)) (hD : ∀ p ∈ D, p.b ≤ p.d) (q : Q) : ∀ f ∈ curves metric P D q, Slope 1 f := by
  intro f hf
  rcases hm with rfl | rfl
  · simp only [curves, List.mem_map, List.mem_range] at hf
    obtain ⟨k, -, rfl⟩ := hf
    apply slope_of
    intro x y
    rw [← layer_eq, ← layer_eq]
    exact layerAt_lipschitz _ k x y
  · simp only [curves, List.mem_singleton] at hf
    subst hf
    refine average_slope (pointsIn D q) (fun p => (p.d - p.b) ^ (asVectorizer P).power) (fun p hp => ?_) (fun p t => tent p.b p.d t) fun p _ => tent_slope _ _
    exact Real.rpow_nonneg (sub_nonneg.mpr (hD p (List.mem_filter.mp hp).1)) _

theorem curves_dominated [DecidableEq Q] (metric : Metric) (hm : metric = .betti ∨ metric = .landscape ∨ metric = .silhouette) (P : Params ℝ) (D : List (Pt ℝ Q)) (hD : ∀ p ∈ D, p.b ≤ p.d) (q : Q) (a b : ℝ) :
    ∀ f ∈ curves metric P D q, ∃ w, Dominated a b f w ∧ w b - w a ≤ wobble metric a b D q := by
  intro f hf
  rcases hm with rfl | hm
  · simp only [curves, List.mem_singleton] at hf
    subst hf
    have e : (fun t => (aliveAt D q t : ℝ)) = fun t => ((pointsIn D q).map fun p => if p.b ≤ t ∧ t < p.d then (1 : ℝ) else 0).sum := by
      funext t
      unfold aliveAt pointsIn
      clear hD
      induction D with
      | nil => simp
      | cons p D ih =>
        rw [List.countP_cons, Nat.cast_add, ih, List.filter_cons]
        by_cases hq : p.q = q
        · simp only [hq, true_and, decide_true, if_true, List.map_cons, List.sum_cons]
          rw [add_comm]
          congr 1
          by_cases h : p.b ≤ t ∧ t < p.d <;> simp [h]
        · simp [hq]
    rw [e]
    refine ⟨_, dominated_sum (pointsIn D q) (fun p t => if p.b ≤ t ∧ t < p.d then (1 : ℝ) else 0) (fun p t => (if p.b ≤ t then (1 : ℝ) else 0) + if p.d ≤ t then (1 : ℝ) else 0) ?_, ?_⟩
    · intro p _ x _ y _ h
      dsimp only
      split_ifs <;> first | (norm_num; done) | (exfalso; grind)
    · unfold wobble
      dsimp only
      generalize pointsIn D q = l
      induction l with
      | nil => simp
      | cons p l ih =>
        simp only [List.map_cons, List.sum_cons, List.length_cons, Nat.cast_add, Nat.cast_one]
        have h1 : ((if p.b ≤ b then (1 : ℝ) else 0) + if p.d ≤ b then (1 : ℝ) else 0) - ((if p.b ≤ a then (1 : ℝ) else 0) + if p.d ≤ a then (1 : ℝ) else 0) ≤ 2 := by
          split_ifs <;> norm_num
        linarith
  · refine ⟨id, dominated_slope (curves_slope metric hm P D hD q f hf), ?_⟩
    rcases hm with rfl | rfl <;> exact le_rfl

theorem mem_differences {F G : List (ℝ → ℝ)} {f : ℝ → ℝ} (h : f ∈ differences F G) : ∃ u ∈ F, ∃ v ∈ G, f = fun t => u t - v t := by
  unfold differences at h
  induction F generalizing G with
  | nil => simp at h
  | cons u F ih =>
    cases G with
    | nil => simp at h
    | cons v G =>
      rw [List.zipWith_cons_cons, List.mem_cons] at h
      rcases h with h | h
      · exact ⟨u, List.mem_cons_self, v, List.mem_cons_self, h⟩
      · obtain ⟨u', hu, v', hv, e⟩ := ih h
        exact ⟨u', List.mem_cons_of_mem _ hu, v', List.mem_cons_of_mem _ hv, e⟩

/-- At the end of the range the curves of training diagrams vanish. -/
theorem curves_end [DecidableEq Q] (metric : Metric) (P : Params ℝ) (D : List (Pt ℝ Q)) (q : Q) (lo hi : ℝ) (h : ∀ p ∈ D, p.q = q → lo ≤ p.b ∧ p.d ≤ hi) : ∀ f ∈ curves metric P D q, f hi = 0 := by
  intro f hf
  have h1 : Tendsto f (𝓝[>] hi) (𝓝 (f hi)) := ((curves_tame metric P D q lo hi f hf).right hi).mono_left (nhdsWithin_mono _ Ioi_subset_Ici_self)
  have h2 : Tendsto f (𝓝[>] hi) (𝓝 0) := by
    refine tendsto_const_nhds.congr' ?_
    filter_upwards [self_mem_nhdsWithin] with t ht
    exact (curves_outside metric P D q lo hi h t (Or.inr ht) f hf).symm
  exact tendsto_nhds_unique h1 h2

/-! ### Errors of norms -/

theorem grid_facts (a b : ℝ) (hab : a ≤ b) (n : Nat) (hn : 2 ≤ n) : 0 ≤ stepOf a b n ∧ a + stepOf a b n * ((n - 1 : Nat) : ℝ) = b := by
  have h1 : (0 : ℝ) < (n : ℝ) - 1 := by
    have : (2 : ℝ) ≤ n := by exact_mod_cast hn
    linarith
  unfold stepOf
  refine ⟨div_nonneg (by linarith) h1.le, ?_⟩
  rw [Nat.cast_sub (by omega), Nat.cast_one, div_mul_cancel₀ _ h1.ne']
  ring

theorem sampled_power (p : ℝ≥0∞) (ht : p ≠ ⊤) (hp : 1 ≤ p) (a b : ℝ) (hab : a ≤ b) (F : List (ℝ → ℝ)) (n : Nat) (hn : 2 ≤ n) :
    (pNorm p (sampled F (gridOf a b n)) * stepOf a b n ^ (1 / p).toReal) ^ p.toReal = (F.map fun f => stepOf a b n * ∑ i ∈ Finset.range n, |f (a + stepOf a b n * i)| ^ p.toReal).sum := by
  have hp0 : 1 ≤ p.toReal := by
    rw [← ENNReal.toReal_one]
    exact ENNReal.toReal_mono ht hp
  have ee : ((1 : ℝ≥0∞) / p).toReal = 1 / p.toReal := by rw [ENNReal.toReal_div, ENNReal.toReal_one]
  have h0 := (grid_facts a b hab n hn).1
  have es : (F.map fun f => stepOf a b n * ∑ i ∈ Finset.range n, |f (a + stepOf a b n * i)| ^ p.toReal).sum = ((sampled F (gridOf a b n)).map fun x => |x| ^ p.toReal).sum * stepOf a b n := by
    unfold sampled
    induction F with
    | nil => simp
    | cons f F ih =>
      rw [List.map_cons, List.sum_cons, ih, List.map_cons, List.flatten_cons, List.map_append, List.sum_append, add_mul]
      congr 1
      rw [mul_comm]
      congr 1
      unfold gridOf stepOf
      rw [List.map_map, List.map_map, Finset.sum_range]
      rw [← List.sum_ofFn]
      congr 1
      apply List.ext_getElem
      · simp
      · intro i h1 h2
        simp
  have hs : 0 ≤ ((sampled F (gridOf a b n)).map fun x => |x| ^ p.toReal).sum := List.sum_nonneg (by
    intro x hx
    rw [List.mem_map] at hx
    obtain ⟨y, -, rfl⟩ := hx
    positivity)
  rw [es]
  unfold pNorm
  rw [if_neg ht, ee, ← Real.mul_rpow hs h0, ← Real.rpow_mul (mul_nonneg hs h0), one_div_mul_cancel (by linarith), Real.rpow_one]

theorem curveNorm_power (p : ℝ≥0∞) (ht : p ≠ ⊤) (hp : 1 ≤ p) (a b : ℝ) (hab : a ≤ b) (F : List (ℝ → ℝ)) : 0 ≤ curveNorm p a b F ∧ curveNorm p a b F ^ p.toReal = (F.map fun f => ∫ t in a..b, |f t| ^ p.toReal).sum := by
  have hp0 : 1 ≤ p.toReal := by
    rw [← ENNReal.toReal_one]
    exact ENNReal.toReal_mono ht hp
  have hs : 0 ≤ (F.map fun f => ∫ t in a..b, |f t| ^ p.toReal).sum := List.sum_nonneg (by
    intro x hx
    rw [List.mem_map] at hx
    obtain ⟨y, -, rfl⟩ := hx
    exact intervalIntegral.integral_nonneg hab fun t _ => by positivity)
  unfold curveNorm
  rw [if_neg ht]
  exact ⟨Real.rpow_nonneg hs _, by rw [← Real.rpow_mul hs, one_div_mul_cancel (by linarith), Real.rpow_one]⟩

theorem pNorm_nonneg' (p : ℝ≥0∞) (v : List ℝ) : 0 ≤ pNorm p v := by
  unfold pNorm
  split_ifs
  · exact (foldl_max _ 0).1
  · exact Real.rpow_nonneg (List.sum_nonneg (by
      intro x hx
      rw [List.mem_map] at hx
      obtain ⟨y, -, rfl⟩ := hx
      positivity)) _

/-- Differences of powers bound powers of differences. -/
theorem power_sub (r : ℝ) (hr : 1 ≤ r) (x y : ℝ) (hx : 0 ≤ x) (hy : 0 ≤ y) : |x - y| ^ r ≤ |x ^ r - y ^ r| := by
  have key : ∀ x y : ℝ, 0 ≤ x → x ≤ y → (y - x) ^ r ≤ y ^ r - x ^ r := by
    intro x y hx hxy
    have := Real.add_rpow_le_rpow_add hx (sub_nonneg.mpr hxy) hr
    rw [add_sub_cancel] at this
    linarith
  rcases le_total x y with h | h
  · rw [abs_sub_comm, abs_of_nonneg (sub_nonneg.mpr h), abs_sub_comm]
    exact (key x y hx h).trans (le_abs_self _)
  · rw [abs_of_nonneg (sub_nonneg.mpr h)]
    exact (key y x hy h).trans (le_abs_self _)

theorem error_power (p : ℝ≥0∞) (ht : p ≠ ⊤) (hp : 1 ≤ p) (a b : ℝ) (hab : a ≤ b) (F : List (ℝ → ℝ)) (V M Z : ℝ) (hV : ∀ f ∈ F, ∃ w, Dominated a b f w ∧ w b - w a ≤ V)
    (hM : ∀ f ∈ F, ∀ t, a ≤ t → t ≤ b → |f t| ≤ M) (hM0 : 0 ≤ M) (hZ : ∀ f ∈ F, |f b| ^ p.toReal ≤ Z) (n : Nat) (hn : 2 ≤ n) :
    |(pNorm p (sampled F (gridOf a b n)) * stepOf a b n ^ (1 / p).toReal) ^ p.toReal - curveNorm p a b F ^ p.toReal| ≤ F.length * (stepOf a b n * (2 * (p.toReal * M ^ (p.toReal - 1) * V) + Z)) := by
  have hp0 : 1 ≤ p.toReal := by
    rw [← ENNReal.toReal_one]
    exact ENNReal.toReal_mono ht hp
  rw [sampled_power p ht hp a b hab F n hn, (curveNorm_power p ht hp a b hab F).2]
  obtain ⟨g1, g2⟩ := grid_facts a b hab n hn
  have hc : 0 ≤ p.toReal * M ^ (p.toReal - 1) := mul_nonneg (by linarith) (Real.rpow_nonneg hM0 _)
  have one : ∀ f ∈ F, |stepOf a b n * ∑ i ∈ Finset.range n, |f (a + stepOf a b n * i)| ^ p.toReal - ∫ t in a..b, |f t| ^ p.toReal| ≤ stepOf a b n * (2 * (p.toReal * M ^ (p.toReal - 1) * V) + Z) := by
    intro f hf
    obtain ⟨w, hw, hwV⟩ := hV f hf
    have hd : Dominated a b (fun t => |f t| ^ p.toReal) fun t => p.toReal * M ^ (p.toReal - 1) * w t := by
      intro x hx y hy hxy
      dsimp only
      rw [← mul_sub]
      refine (rpow_lipschitz p.toReal M hp0 _ _ (abs_nonneg _) (abs_nonneg _) (hM f hf x hx.1 hx.2) (hM f hf y hy.1 hy.2)).trans (mul_le_mul_of_nonneg_left ?_ hc)
      exact (abs_abs_sub_abs_le_abs_sub _ _).trans (hw x hx y hy hxy)
    have := sum_error a (stepOf a b n) (n - 1) g1 (fun t => |f t| ^ p.toReal) _ (by rw [g2]; exact hd)
    rw [g2, show n - 1 + 1 = n by omega] at this
    refine this.trans (mul_le_mul_of_nonneg_left ?_ g1)
    rw [← mul_sub, abs_of_nonneg (Real.rpow_nonneg (abs_nonneg (f b)) _)]
    have h3 := mul_le_mul_of_nonneg_left hwV hc
    linarith [hZ f hf]
  clear hV hM hZ
  induction F with
  | nil => simp
  | cons f F ih =>
    have h1 := ih fun f hf => one f (List.mem_cons_of_mem _ hf)
    have h2 := one f List.mem_cons_self
    simp only [List.map_cons, List.sum_cons, List.length_cons, Nat.cast_add, Nat.cast_one]
    rw [abs_le] at *
    constructor <;> linarith [h1.1, h1.2, h2.1, h2.2]

theorem nearest (a b : ℝ) (hab : a ≤ b) (n : Nat) (hn : 2 ≤ n) (t : ℝ) (h1 : a ≤ t) (h2 : t ≤ b) : ∃ i : Nat, i < n ∧ |t - (a + stepOf a b n * i)| ≤ stepOf a b n / 2 := by
  obtain ⟨g1, g2⟩ := grid_facts a b hab n hn
  rcases g1.eq_or_lt with h | h
  · refine ⟨0, by omega, ?_⟩
    rw [← h] at g2 ⊢
    have : t = a := by linarith
    simp [this]
  · have hx0 : 0 ≤ (t - a) / stepOf a b n := div_nonneg (by linarith) h.le
    have hx1 : (t - a) / stepOf a b n ≤ ((n - 1 : Nat) : ℝ) := by rw [div_le_iff₀ h]; linarith
    have e : (t - a) / stepOf a b n * stepOf a b n = t - a := div_mul_cancel₀ _ h.ne'
    have f1 := Nat.floor_le (a := (t - a) / stepOf a b n + 1 / 2) (by linarith)
    have f2 := Nat.lt_floor_add_one ((t - a) / stepOf a b n + 1 / 2)
    refine ⟨⌊(t - a) / stepOf a b n + 1 / 2⌋₊, ?_, ?_⟩
    · have : ((⌊(t - a) / stepOf a b n + 1 / 2⌋₊ : Nat) : ℝ) < ((n - 1 : Nat) : ℝ) + 1 := by linarith
      have h' : ⌊(t - a) / stepOf a b n + 1 / 2⌋₊ < n - 1 + 1 := by exact_mod_cast this
      omega
    · rw [abs_le]
      constructor <;> nlinarith

theorem error_sup (a b : ℝ) (hab : a ≤ b) (F : List (ℝ → ℝ)) (hF : ∀ f ∈ F, Tame a b f) (c : ℝ) (hc : 0 ≤ c) (hs : ∀ f ∈ F, Slope c f) (n : Nat) (hn : 2 ≤ n) :
    pNorm ⊤ (sampled F (gridOf a b n)) ≤ curveNorm ⊤ a b F ∧ curveNorm ⊤ a b F ≤ pNorm ⊤ (sampled F (gridOf a b n)) + c * (stepOf a b n / 2) := by
  obtain ⟨g1, g2⟩ := grid_facts a b hab n hn
  have hbdd := bdd_values a b F hF
  unfold curveNorm pNorm
  rw [if_pos rfl, if_pos rfl]
  obtain ⟨m1, m2, m3⟩ := foldl_max ((sampled F (gridOf a b n)).map fun x => |x|) 0
  constructor
  · rcases m3 with h | h
    · rw [h]
      exact Real.sSup_nonneg (by rintro y ⟨f, -, t, -, -, rfl⟩; exact abs_nonneg _)
    · apply le_csSup hbdd
      rw [List.mem_map] at h
      obtain ⟨x, hx, hx'⟩ := h
      unfold sampled gridOf at hx
      rw [List.mem_flatten] at hx
      obtain ⟨l, hl, hx⟩ := hx
      rw [List.mem_map] at hl
      obtain ⟨f, hf, rfl⟩ := hl
      rw [List.mem_map] at hx
      obtain ⟨t, ht, rfl⟩ := hx
      rw [List.mem_map] at ht
      obtain ⟨i, hi, rfl⟩ := ht
      have hi' : (i : ℝ) ≤ ((n - 1 : Nat) : ℝ) := by
        have := List.mem_range.mp hi
        exact_mod_cast (by omega : i ≤ n - 1)
      refine ⟨f, hf, _, ?_, ?_, hx'.symm⟩
      · have := mul_nonneg g1 (Nat.cast_nonneg (α := ℝ) i)
        unfold stepOf at this
        linarith
      · have := mul_le_mul_of_nonneg_left hi' g1
        change a + stepOf a b n * i ≤ b
        linarith
  · refine Real.sSup_le ?_ (add_nonneg m1 (mul_nonneg hc (by linarith)))
    rintro y ⟨f, hf, t, h1, h2, rfl⟩
    obtain ⟨i, hi, hi'⟩ := nearest a b hab n hn t h1 h2
    have h3 : |f (a + stepOf a b n * i)| ≤ ((sampled F (gridOf a b n)).map fun x => |x|).foldl max 0 := by
      apply m2
      rw [List.mem_map]
      refine ⟨_, ?_, rfl⟩
      unfold sampled gridOf stepOf
      rw [List.mem_flatten]
      refine ⟨_, List.mem_map_of_mem hf, ?_⟩
      rw [List.mem_map]
      exact ⟨_, List.mem_map_of_mem (List.mem_range.mpr hi), rfl⟩
    have h4 := (hs f hf t (a + stepOf a b n * i)).trans (mul_le_mul_of_nonneg_left hi' hc)
    have h5 := abs_sub_abs_le_abs_sub (f t) (f (a + stepOf a b n * i))
    linarith

variable [LinearOrder Q]

theorem differences_length (F G : List (ℝ → ℝ)) (h : F.length = G.length) : (differences F G).length = F.length := by
  unfold differences
  rw [List.length_zipWith, h, min_self]

/-- **C145**, distances with finite `p`: let `M` bound the difference of the curves of two diagrams over the range of the training collection. With `n` bins, at distance `step` from each other, the `p`-th power of
the distance returned by `PairwiseDistance` differs from that of its limit by at most `step` times an amount which does not depend on `n`; hence the distance itself by at most the `p`-th root. For two diagrams of
the training collection the last term, which comes from the right end of the range, is not needed. -/
theorem C145_distance (E : Engine ℝ Q) (hE : RealEngine E) (P : Params ℝ) (metric : Metric) (hm : metric = .betti ∨ metric = .landscape ∨ metric = .silhouette) (hP : ValidParams .distance P metric) (hfin : pOf P ≠ ⊤)
    (e : Nat → Est ℝ Q) (he : ∀ n, (e n).params = withBins P n) (X : List (List (Pt ℝ Q))) (hT : Training X) (dims : List Q) (hdims : DimsOfFirst dims X)
    (X' : List (List (Pt ℝ Q))) (hX' : Valid X') (hE' : ∀ q ∈ dims, EqualCounts X' q) (hD' : ∀ D ∈ X', D ∈ Defined P metric dims) (hD : ∀ D ∈ X, D ∈ Defined P metric dims) :
    ∃ a : Nat → List (Pt ℝ Q) → List (Pt ℝ Q) → Q → ℝ,
      (∀ n, 2 ≤ n → (fit .distance X (e n)).2 = .ok () ∧ ∀ nJobs, 1 ≤ nJobs →
        transformDistance E nJobs X' (fit .distance X (e n)).1 = .ok (distanceResult P.order (X'.map fun D => X.map fun D' => dims.map fun q => a n D D' q))) ∧
      ∀ n, 2 ≤ n → ∀ D ∈ X', ∀ D' ∈ X, ∀ q ∈ dims, ∀ M, 0 ≤ M →
        (∀ f ∈ differences (curves metric P D q) (curves metric P D' q), ∀ t, low X q ≤ t → t ≤ high X dims q → |f t| ≤ M) →
        ∀ Z, Z = M ^ (pOf P).toReal ∨ (Z = 0 ∧ D ∈ X) →
        ∀ L, L = curveNorm (pOf P) (low X q) (high X dims q) (differences (curves metric P D q) (curves metric P D' q)) →
        ∀ B, B = (curves metric P D q).length * (stepOf (low X q) (high X dims q) n *
            (2 * ((pOf P).toReal * M ^ ((pOf P).toReal - 1) * (wobble metric (low X q) (high X dims q) D q + wobble metric (low X q) (high X dims q) D' q)) + Z)) →
        |a n D D' q ^ (pOf P).toReal - L ^ (pOf P).toReal| ≤ B ∧ |a n D D' q - L| ^ (pOf P).toReal ≤ B := by
  have hd : dims = observedDims X := dims_unique X _ _ hdims (Gtda.Props.Vectorizers.observedDims_spec X)
  subst hd
  have hp1 := pOf_one_le _ _ _ hP
  have hp0 : 1 ≤ (pOf P).toReal := by
    rw [← ENNReal.toReal_one]
    exact ENNReal.toReal_mono hfin hp1
  have key := distance_values E hE P metric hm hP e he X hT X' hX' hE' hD' hD
  refine ⟨_, fun n hn => ⟨(key n hn).1, (key n hn).2.2⟩, ?_⟩
  rintro n hn D hDX D' hDX' q hq M hM0 hM Z hZ _ rfl _ rfl
  have hle := (key n hn).2.1 q hq
  have hZ' : ∀ f ∈ differences (curves metric P D q) (curves metric P D' q), |f (high X (observedDims X) q)| ^ (pOf P).toReal ≤ Z := by
    intro f hf
    rcases hZ with rfl | ⟨rfl, hDX2⟩
    · exact Real.rpow_le_rpow (abs_nonneg _) (hM f hf _ hle le_rfl) (by linarith)
    · obtain ⟨u, hu, v, hv, rfl⟩ := mem_differences hf
      dsimp only
      rw [curves_end metric P D q _ _ (fun x hx hxq => in_range X _ q hq D hDX2 x hx hxq) u hu, curves_end metric P D' q _ _ (fun x hx hxq => in_range X _ q hq D' hDX' x hx hxq) v hv, sub_zero, abs_zero,
        Real.zero_rpow (by linarith)]
  have main := error_power (pOf P) hfin hp1 _ _ hle _ (wobble metric (low X q) (high X (observedDims X) q) D q + wobble metric (low X q) (high X (observedDims X) q) D' q) M Z (by
    intro f hf
    obtain ⟨u, hu, v, hv, rfl⟩ := mem_differences hf
    obtain ⟨w, hw, hw'⟩ := curves_dominated metric hm P D (hX'.2.2 D hDX) q (low X q) (high X (observedDims X) q) u hu
    obtain ⟨w₂, hw₂, hw₂'⟩ := curves_dominated metric hm P D' (hT.1.2.2 D' hDX') q (low X q) (high X (observedDims X) q) v hv
    exact ⟨_, dominated_sub hw hw₂, by linarith⟩) hM hM0 hZ' n hn
  rw [differences_length _ _ (curves_length metric P D D' q)] at main
  refine ⟨main, (power_sub _ hp0 _ _ ?_ (curveNorm_power _ hfin hp1 _ _ hle _).1).trans main⟩
  exact mul_nonneg (pNorm_nonneg' _ _) (Real.rpow_nonneg (grid_facts _ _ hle n hn).1 _)

/-- **C145**, amplitudes with finite `p`. -/
theorem C145_amplitude (E : Engine ℝ Q) (hE : RealEngine E) (P : Params ℝ) (metric : Metric) (hm : metric = .betti ∨ metric = .landscape ∨ metric = .silhouette) (hP : ValidParams .amplitude P metric) (hfin : pOf P ≠ ⊤)
    (e : Nat → Est ℝ Q) (he : ∀ n, (e n).params = withBins P n) (X : List (List (Pt ℝ Q))) (hT : Training X) (dims : List Q) (hdims : DimsOfFirst dims X)
    (X' : List (List (Pt ℝ Q))) (hX' : Valid X') (hE' : ∀ q ∈ dims, EqualCounts X' q) (hD' : ∀ D ∈ X', D ∈ Defined P metric dims) :
    ∃ a : Nat → List (Pt ℝ Q) → Q → ℝ,
      (∀ n, 2 ≤ n → (fit .amplitude X (e n)).2 = .ok () ∧ ∀ nJobs, 1 ≤ nJobs →
        transformAmplitude E nJobs X' (fit .amplitude X (e n)).1 = .ok (amplitudeResult P.order (X'.map fun D => dims.map fun q => a n D q))) ∧
      ∀ n, 2 ≤ n → ∀ D ∈ X', ∀ q ∈ dims, ∀ M, 0 ≤ M → (∀ f ∈ curves metric P D q, ∀ t, low X q ≤ t → t ≤ high X dims q → |f t| ≤ M) →
        ∀ Z, Z = M ^ (pOf P).toReal ∨ (Z = 0 ∧ D ∈ X) →
        ∀ L, L = curveNorm (pOf P) (low X q) (high X dims q) (curves metric P D q) →
        ∀ B, B = (curves metric P D q).length * (stepOf (low X q) (high X dims q) n * (2 * ((pOf P).toReal * M ^ ((pOf P).toReal - 1) * wobble metric (low X q) (high X dims q) D q) + Z)) →
        |a n D q ^ (pOf P).toReal - L ^ (pOf P).toReal| ≤ B ∧ |a n D q - L| ^ (pOf P).toReal ≤ B := by
  have hd : dims = observedDims X := dims_unique X _ _ hdims (Gtda.Props.Vectorizers.observedDims_spec X)
  subst hd
  have hp1 := pOf_one_le _ _ _ hP
  have hp0 : 1 ≤ (pOf P).toReal := by
    rw [← ENNReal.toReal_one]
    exact ENNReal.toReal_mono hfin hp1
  have key := amplitude_values E hE P metric hm hP e he X hT X' hX' hE' hD'
  refine ⟨_, fun n hn => ⟨(key n hn).1, (key n hn).2.2⟩, ?_⟩
  rintro n hn D hDX q hq M hM0 hM Z hZ _ rfl _ rfl
  have hle := (key n hn).2.1 q hq
  have hZ' : ∀ f ∈ curves metric P D q, |f (high X (observedDims X) q)| ^ (pOf P).toReal ≤ Z := by
    intro f hf
    rcases hZ with rfl | ⟨rfl, hDX2⟩
    · exact Real.rpow_le_rpow (abs_nonneg _) (hM f hf _ hle le_rfl) (by linarith)
    · rw [curves_end metric P D q _ _ (fun x hx hxq => in_range X _ q hq D hDX2 x hx hxq) f hf, abs_zero, Real.zero_rpow (by linarith)]
  have main := error_power (pOf P) hfin hp1 _ _ hle _ (wobble metric (low X q) (high X (observedDims X) q) D q) M Z (curves_dominated metric hm P D (hX'.2.2 D hDX) q _ _) hM hM0 hZ' n hn
  refine ⟨main, (power_sub _ hp0 _ _ ?_ (curveNorm_power _ hfin hp1 _ _ hle _).1).trans main⟩
  exact mul_nonneg (pNorm_nonneg' _ _) (Real.rpow_nonneg (grid_facts _ _ hle n hn).1 _)

/-- **C145**, infinite `p`: for `landscape` and `silhouette` the distances returned with `n` bins never exceed their limits and fall short of them by at most the distance of neighbouring bins. -/
theorem C145_distance_sup (E : Engine ℝ Q) (hE : RealEngine E) (P : Params ℝ) (metric : Metric) (hm : metric = .landscape ∨ metric = .silhouette) (hP : ValidParams .distance P metric) (hinf : pOf P = ⊤)
    (e : Nat → Est ℝ Q) (he : ∀ n, (e n).params = withBins P n) (X : List (List (Pt ℝ Q))) (hT : Training X) (dims : List Q) (hdims : DimsOfFirst dims X)
    (X' : List (List (Pt ℝ Q))) (hX' : Valid X') (hE' : ∀ q ∈ dims, EqualCounts X' q) (hD' : ∀ D ∈ X', D ∈ Defined P metric dims) (hD : ∀ D ∈ X, D ∈ Defined P metric dims) :
    ∃ a : Nat → List (Pt ℝ Q) → List (Pt ℝ Q) → Q → ℝ,
      (∀ n, 2 ≤ n → (fit .distance X (e n)).2 = .ok () ∧ ∀ nJobs, 1 ≤ nJobs →
        transformDistance E nJobs X' (fit .distance X (e n)).1 = .ok (distanceResult P.order (X'.map fun D => X.map fun D' => dims.map fun q => a n D D' q))) ∧
      ∀ n, 2 ≤ n → ∀ D ∈ X', ∀ D' ∈ X, ∀ q ∈ dims, ∀ L, L = curveNorm ⊤ (low X q) (high X dims q) (differences (curves metric P D q) (curves metric P D' q)) →
        a n D D' q ≤ L ∧ L ≤ a n D D' q + stepOf (low X q) (high X dims q) n := by
  have hd : dims = observedDims X := dims_unique X _ _ hdims (Gtda.Props.Vectorizers.observedDims_spec X)
  subst hd
  have key := distance_values E hE P metric (Or.inr hm) hP e he X hT X' hX' hE' hD' hD
  refine ⟨_, fun n hn => ⟨(key n hn).1, (key n hn).2.2⟩, ?_⟩
  rintro n hn D hDX D' hDX' q hq _ rfl
  have hle := (key n hn).2.1 q hq
  have main := error_sup _ _ hle (differences (curves metric P D q) (curves metric P D' q)) (differences_tame _ _ _ _ (curves_tame metric P D q _ _) (curves_tame metric P D' q _ _)) (1 + 1) (by norm_num) (by
    intro f hf
    obtain ⟨u, hu, v, hv, rfl⟩ := mem_differences hf
    exact slope_sub (curves_slope metric hm P D (hX'.2.2 D hDX) q u hu) (curves_slope metric hm P D' (hT.1.2.2 D' hDX') q v hv)) n hn
  rw [hinf]
  simp only [ENNReal.div_top, ENNReal.toReal_zero, Real.rpow_zero, mul_one]
  exact ⟨main.1, main.2.trans (by linarith)⟩

/-- **C145**, infinite `p`: amplitudes fall short of their limits by at most half of the distance of neighbouring bins. -/
theorem C145_amplitude_sup (E : Engine ℝ Q) (hE : RealEngine E) (P : Params ℝ) (metric : Metric) (hm : metric = .landscape ∨ metric = .silhouette) (hP : ValidParams .amplitude P metric) (hinf : pOf P = ⊤)
    (e : Nat → Est ℝ Q) (he : ∀ n, (e n).params = withBins P n) (X : List (List (Pt ℝ Q))) (hT : Training X) (dims : List Q) (hdims : DimsOfFirst dims X)
    (X' : List (List (Pt ℝ Q))) (hX' : Valid X') (hE' : ∀ q ∈ dims, EqualCounts X' q) (hD' : ∀ D ∈ X', D ∈ Defined P metric dims) :
    ∃ a : Nat → List (Pt ℝ Q) → Q → ℝ,
      (∀ n, 2 ≤ n → (fit .amplitude X (e n)).2 = .ok () ∧ ∀ nJobs, 1 ≤ nJobs →
        transformAmplitude E nJobs X' (fit .amplitude X (e n)).1 = .ok (amplitudeResult P.order (X'.map fun D => dims.map fun q => a n D q))) ∧
      ∀ n, 2 ≤ n → ∀ D ∈ X', ∀ q ∈ dims, ∀ L, L = curveNorm ⊤ (low X q) (high X dims q) (curves metric P D q) →
        a n D q ≤ L ∧ L ≤ a n D q + stepOf (low X q) (high X dims q) n / 2 := by
  have hd : dims = observedDims X := dims_unique X _ _ hdims (Gtda.Props.Vectorizers.observedDims_spec X)
  subst hd
  have key := amplitude_values E hE P metric (Or.inr hm) hP e he X hT X' hX' hE' hD'
  refine ⟨_, fun n hn => ⟨(key n hn).1, (key n hn).2.2⟩, ?_⟩
  rintro n hn D hDX q hq _ rfl
  have hle := (key n hn).2.1 q hq
  have main := error_sup _ _ hle (curves metric P D q) (curves_tame metric P D q _ _) 1 zero_le_one (curves_slope metric hm P D (hX'.2.2 D hDX) q) n hn
  rw [hinf]
  simp only [ENNReal.div_top, ENNReal.toReal_zero, Real.rpow_zero, mul_one]
  exact ⟨main.1, main.2.trans (by linarith)⟩

/-- Non-vacuity: two Betti curves at 1-distance 1 (`example_limit`), over a range of length 2. With `n` bins the error is at most `16 / (n - 1)`. -/
example (E : Engine ℝ Nat) (hE : RealEngine E) : ∃ a : Nat → List (Pt ℝ Nat) → List (Pt ℝ Nat) → Nat → ℝ,
    (∀ n, 2 ≤ n → transformDistance E 1 exampleX (fit .distance exampleX (new (withBins exampleParams n))).1 =
      .ok (.full [[[some (a n [⟨0, 1, 0⟩] [⟨0, 1, 0⟩] 0)], [some (a n [⟨0, 1, 0⟩] [⟨0, 2, 0⟩] 0)]], [[some (a n [⟨0, 2, 0⟩] [⟨0, 1, 0⟩] 0)], [some (a n [⟨0, 2, 0⟩] [⟨0, 2, 0⟩] 0)]]])) ∧
    ∀ n : Nat, 2 ≤ n → |a n [⟨0, 1, 0⟩] [⟨0, 2, 0⟩] 0 - 1| ≤ 16 / ((n : ℝ) - 1) := by
  have hp : pOf exampleParams = 1 := by simp [pOf, exampleParams]
  obtain ⟨a, h1, h2⟩ := C145_distance E hE exampleParams .betti (Or.inl rfl)
    (by constructor <;> first | (simp [exampleParams]; done) | (intro m _ h; obtain rfl := (Option.some.inj h).symm; simp; done) | (intro m _ h; obtain rfl := (Option.some.inj h).symm; simp; exact fun h => h.le) | (intro m h; obtain rfl := (Option.some.inj h).symm; simp))
    (by rw [hp]; exact ENNReal.one_ne_top) (fun n => new (withBins exampleParams n)) (fun n => rfl) exampleX (by simp [Training, Valid, exampleX, EqualCounts, pointsIn]) [0]
    (by simp [DimsOfFirst, exampleX, eq_comm]) exampleX (by simp [Valid, exampleX]) (by simp [exampleX, EqualCounts, pointsIn]) (by simp [Defined, exampleX]) (by simp [Defined, exampleX])
  refine ⟨a, fun n hn => ?_, fun n hn => ?_⟩
  · rw [(h1 n hn).2 1 le_rfl]
    rfl
  · have hb : births exampleX 0 = {0} := by
      ext x
      simp [births, exampleX, eq_comm]
    have hd : deaths exampleX 0 = {1, 2} := by
      ext x
      simp [deaths, exampleX, eq_comm]
    have hs : sSup ({1, 2} : Set ℝ) = 2 := by
      rw [csSup_pair]
      norm_num
    have hlow : low exampleX 0 = 0 := by rw [low, hb, csInf_singleton]
    have hhigh : high exampleX [0] 0 = 2 := by
      unfold high
      rw [hb, hd, hs, csInf_singleton, if_neg (by norm_num)]
    have := (h2 n hn [⟨0, 1, 0⟩] (by simp [exampleX]) [⟨0, 2, 0⟩] (by simp [exampleX]) 0 (by simp) 1 zero_le_one (by
      intro f hf t _ _
      simp only [differences, curves, List.zipWith_cons_cons, List.zipWith_nil_left, List.mem_singleton] at hf
      subst hf
      simp only [aliveAt, List.countP_cons, List.countP_nil]
      by_cases h0 : 0 ≤ t <;> by_cases h1 : t < 1 <;> by_cases h2 : t < 2 <;> simp [h0, h1, h2]) 0 (Or.inr ⟨rfl, by simp [exampleX]⟩) _ rfl _ rfl).2
    rw [hp, example_limit, hlow, hhigh] at this
    simp only [ENNReal.toReal_one, Real.rpow_one, sub_self, Real.rpow_zero, wobble, curves, stepOf, pointsIn] at this
    refine this.trans (le_of_eq ?_)
    simp
    ring

/-- A Betti curve with a bar shorter than the distance between bins. -/
noncomputable def shortBar (n : Nat) : List (Pt ℝ Nat) := [⟨0, 1, 0⟩, ⟨1 / ((n : ℝ) - 1) / 3, 1 / ((n : ℝ) - 1) / 2, 0⟩]

/-- The metric `betti` with infinite `p`. -/
noncomputable def supParams : Params ℝ := { metric := some .betti, mp := some { p := some none }, order := none }

/-- **C145, Betti curves with infinite `p`: false.** For every number of bins there is a diagram whose Betti curve takes the value 2, while the amplitude found for it is 1: no number of bins is enough for all
diagrams. -/
theorem C145_refuted_betti_sup (E : Engine ℝ Nat) (hE : RealEngine E) (n : Nat) (hn : 2 ≤ n) :
    (fit .amplitude [shortBar n] (new (withBins supParams n))).2 = .ok () ∧
      (∀ nJobs, 1 ≤ nJobs → transformAmplitude E nJobs [shortBar n] (fit .amplitude [shortBar n] (new (withBins supParams n))).1 = .ok (amplitudeResult none [[1]])) ∧
      curveNorm ⊤ (low [shortBar n] 0) (high [shortBar n] [0] 0) (curves .betti supParams (shortBar n) 0) = 2 := by
  have h1 : (0 : ℝ) < (n : ℝ) - 1 := by
    have : (2 : ℝ) ≤ n := by exact_mod_cast hn
    linarith
  have hs0 : 0 < 1 / ((n : ℝ) - 1) := by positivity
  have hs1 : 1 / ((n : ℝ) - 1) ≤ 1 := by
    rw [div_le_one h1]
    have : (2 : ℝ) ≤ n := by exact_mod_cast hn
    linarith
  have hp : pOf supParams = ⊤ := by simp [pOf, supParams, toP]
  have hval : ∀ p ∈ shortBar n, p.b ≤ p.d := by
    intro p hp
    simp only [shortBar, List.mem_cons, List.not_mem_nil, or_false] at hp
    rcases hp with rfl | rfl
    · exact zero_le_one
    · dsimp only; linarith
  have hobs : observedDims [shortBar n] = [0] := dims_unique [shortBar n] _ _ (Gtda.Props.Vectorizers.observedDims_spec _) (by
    refine ⟨by simp, fun q => ?_⟩
    simp [shortBar, eq_comm])
  have hb : low [shortBar n] 0 = 0 := by
    unfold low
    refine IsLeast.csInf_eq ⟨⟨shortBar n, by simp, ⟨0, 1, 0⟩, by simp [shortBar], rfl, rfl⟩, ?_⟩
    rintro x ⟨D, hD, p, hp, -, rfl⟩
    obtain rfl := List.mem_singleton.mp hD
    simp only [shortBar, List.mem_cons, List.not_mem_nil, or_false] at hp
    rcases hp with rfl | rfl
    · exact le_rfl
    · dsimp only; linarith
  have hsup : sSup (deaths [shortBar n] 0) = 1 := by
    refine IsGreatest.csSup_eq ⟨⟨shortBar n, by simp, ⟨0, 1, 0⟩, by simp [shortBar], rfl, rfl⟩, ?_⟩
    rintro x ⟨D, hD, p, hp, -, rfl⟩
    obtain rfl := List.mem_singleton.mp hD
    simp only [shortBar, List.mem_cons, List.not_mem_nil, or_false] at hp
    rcases hp with rfl | rfl
    · exact le_rfl
    · dsimp only; linarith
  have hh : high [shortBar n] [0] 0 = 1 := by
    unfold high
    rw [hsup, show sInf (births [shortBar n] 0) = 0 from hb, if_neg (by norm_num)]
  have key := amplitude_values E hE supParams .betti (Or.inl rfl)
    (by constructor <;> first | (simp [supParams]; done) | (intro m _ h; obtain rfl := (Option.some.inj h).symm; simp; done) | (intro m h; obtain rfl := (Option.some.inj h).symm; simp))
    (fun n => new (withBins supParams n)) (fun n => rfl) [shortBar n] ⟨⟨by simp, by simp, by simpa using hval⟩, by intro D hD; simp at hD; subst hD; exact ⟨by simp [shortBar], by simp [EqualCounts]⟩⟩ [shortBar n]
    ⟨by simp, by simp, by simpa using hval⟩ (by simp [EqualCounts]) (by intro D hD; obtain rfl := List.mem_singleton.mp hD; exact ⟨hval, by simp⟩) n hn
  rw [hobs] at key
  refine ⟨key.1, fun nJobs hJ => ?_, ?_⟩
  · rw [key.2.2 nJobs hJ]
    simp only [List.map_cons, List.map_nil]
    congr 4
    rw [hp, hb, hh]
    simp only [ENNReal.div_top, ENNReal.toReal_zero, Real.rpow_zero, mul_one]
    obtain ⟨m1, m2, m3⟩ := foldl_max ((sampled (curves .betti supParams (shortBar n) 0) (gridOf 0 1 n)).map fun x => |x|) 0
    unfold pNorm
    rw [if_pos rfl]
    have hv : ∀ x ∈ sampled (curves .betti supParams (shortBar n) 0) (gridOf 0 1 n), |x| ≤ 1 := by
      intro x hx
      simp only [sampled, curves, gridOf, List.map_cons, List.map_nil, List.flatten_cons, List.flatten_nil, List.append_nil, List.map_map, List.mem_map, List.mem_range, Function.comp_apply] at hx
      obtain ⟨i, hi, rfl⟩ := hx
      rw [Nat.abs_cast]
      have hno : ¬ (1 / ((n : ℝ) - 1) / 3 ≤ 0 + (1 - 0) / ((n : ℝ) - 1) * i ∧ 0 + (1 - 0) / ((n : ℝ) - 1) * i < 1 / ((n : ℝ) - 1) / 2) := by
        rintro ⟨c1, c2⟩
        rcases Nat.eq_zero_or_pos i with rfl | hi0
        · simp only [Nat.cast_zero, mul_zero, add_zero] at c1
          linarith
        · have : (1 : ℝ) ≤ i := by exact_mod_cast hi0
          have := mul_le_mul_of_nonneg_left this hs0.le
          rw [sub_zero, zero_add] at c2
          linarith
      generalize 0 + (1 - 0) / ((n : ℝ) - 1) * i = t at hno ⊢
      unfold aliveAt shortBar
      rw [List.countP_cons, List.countP_cons, List.countP_nil]
      simp only [true_and, hno, decide_false, Bool.false_eq_true, if_false, zero_add]
      exact Nat.cast_le_one.mpr (by split_ifs <;> omega)
    refine le_antisymm ?_ ?_
    · rcases m3 with h | h
      · rw [h]; exact zero_le_one
      · rw [List.mem_map] at h
        obtain ⟨x, hx, e⟩ := h
        rw [← e]
        exact hv x hx
    · apply m2
      rw [List.mem_map]
      refine ⟨1, ?_, abs_one⟩
      simp only [sampled, curves, gridOf, List.map_cons, List.map_nil, List.flatten_cons, List.flatten_nil, List.append_nil, List.map_map, List.mem_map, List.mem_range, Function.comp_apply]
      refine ⟨0, by omega, ?_⟩
      have hno : ¬ (1 / ((n : ℝ) - 1) / 3 ≤ 0) := by linarith
      unfold aliveAt shortBar
      rw [List.countP_cons, List.countP_cons, List.countP_nil]
      simp only [Nat.cast_zero, mul_zero, add_zero, true_and, hno, false_and, decide_false, Bool.false_eq_true, if_false, zero_add, le_refl, zero_lt_one, decide_true, if_true, Nat.cast_one]
  · rw [hb, hh]
    unfold curveNorm
    rw [if_pos rfl]
    refine IsGreatest.csSup_eq ⟨⟨_, by simp only [curves, List.mem_singleton]; rfl, 1 / ((n : ℝ) - 1) / 3, by linarith, by linarith, ?_⟩, ?_⟩
    · have c1 : (0 : ℝ) ≤ 1 / ((n : ℝ) - 1) / 3 := by linarith
      have c2 : 1 / ((n : ℝ) - 1) / 3 < 1 := by linarith
      have c3 : 1 / ((n : ℝ) - 1) / 3 < 1 / ((n : ℝ) - 1) / 2 := by linarith
      rw [Nat.abs_cast]
      unfold aliveAt shortBar
      rw [List.countP_cons, List.countP_cons, List.countP_nil]
      simp only [true_and, c1, c2, c3, le_refl, and_self, decide_true, if_true]
      norm_num
    · rintro y ⟨f, hf, t, -, -, rfl⟩
      simp only [curves, List.mem_singleton] at hf
      subst hf
      rw [Nat.abs_cast]
      have : aliveAt (shortBar n) 0 t ≤ (shortBar n).length := List.countP_le_length
      exact_mod_cast this

end Gtda.Props.Rates
