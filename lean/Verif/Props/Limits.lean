import Verif.Props.DiagramMetrics
import Verif.Lemmas.RiemannSums
import Verif.Spec.Limits

set_option autoImplicit false

/-!
# C139: distances and amplitudes converge as `n_bins` grows
-/

namespace Gtda.Props.Limits
open Gtda Gtda.Py Gtda.Diagrams Gtda.DiagramMetrics Gtda.Spec.DiagramMetrics Gtda.Spec.Vectorizers Gtda.Spec.Limits Gtda.Props.DiagramMetrics Gtda.Lemmas.RiemannSums
open Gtda.Vectorizers (observedDims)
open Filter Topology MeasureTheory
open scoped ENNReal

variable {Q : Type}

/-! ### Values sampled from curves -/

theorem layer_eq [DecidableEq Q] (D : List (Pt ℝ Q)) (q : Q) (k : Nat) (t : ℝ) : layerAt (pointsIn D q) k t = layer D q k t := by
  unfold layerAt layer tents
  have h1 : (pointsIn D q).map (fiber t) = (pointsIn D q).map fun p => tent p.b p.d t := List.map_congr_left fun p _ => fiber_eq t p
  rw [h1]
  congr 2
  generalize (pointsIn D q).map (fun p => tent p.b p.d t) = l
  have hp : (sortDown l).Perm (l.mergeSort fun x y => decide (y ≤ x)) := (sortDown_perm l).trans (List.mergeSort_perm l _).symm
  have hs : (l.mergeSort fun x y => decide (y ≤ x)).Pairwise (· ≥ ·) := by
    have := List.pairwise_mergeSort (le := fun x y : ℝ => decide (y ≤ x)) (fun a b c h1 h2 => by simp only [decide_eq_true_eq] at *; exact le_trans h2 h1)
      (fun a b => by simp only [Bool.or_eq_true, decide_eq_true_eq]; exact le_total b a) l
    exact this.imp fun h => by simpa using h
  exact hp.eq_of_pairwise (fun a b _ _ h1 h2 => le_antisymm h2 h1) (sortDown_sorted l) hs

/-- The values of functions at `s`, one function after the other. -/
def sampled (F : List (ℝ → ℝ)) (s : List ℝ) : List ℝ := (F.map fun f => s.map f).flatten

theorem curveVec_eq [DecidableEq Q] (metric : Metric) (P : Params ℝ) (hm : metric = .betti ∨ metric = .landscape ∨ metric = .silhouette) (s : List ℝ) (D : List (Pt ℝ Q)) (q : Q) :
    curveVec metric P s (pointsIn D q) = sampled (curves metric P D q) s := by
  rcases hm with rfl | rfl | rfl
  · simp [curveVec, sampled, curves, aliveCount_pointsIn]
  · unfold curveVec layerVec sampled curves
    dsimp only
    rw [List.map_map]
    congr 1
    apply List.map_congr_left
    intro k _
    apply List.map_congr_left
    intro t _
    exact layer_eq D q k t
  · simp only [curveVec, sampled, curves, List.map_cons, List.map_nil, List.flatten_cons, List.flatten_nil, List.append_nil]
    rfl

theorem curves_length [DecidableEq Q] (metric : Metric) (P : Params ℝ) (D D' : List (Pt ℝ Q)) (q : Q) : (curves metric P D q).length = (curves metric P D' q).length := by
  cases metric <;> simp [curves]

theorem zipWith_sampled (F G : List (ℝ → ℝ)) (h : F.length = G.length) (s : List ℝ) : List.zipWith (· - ·) (sampled F s) (sampled G s) = sampled (differences F G) s := by
  induction F generalizing G with
  | nil =>
    cases G with
    | nil => rfl
    | cons g G => simp at h
  | cons f F ih =>
    cases G with
    | nil => simp at h
    | cons g G =>
      have := ih G (by simpa using h)
      unfold sampled differences at *
      simp only [List.map_cons, List.flatten_cons, List.zipWith_cons_cons]
      rw [List.zipWith_append (by simp), this]
      congr 1
      clear this ih h
      induction s with
      | nil => rfl
      | cons x s ih => simp [ih]

theorem tent_tame (a b β δ : ℝ) : Tame a b fun t => tent β δ t := by
  apply Tame.of_lipschitz
  intro x y
  have := fiber_lipschitz (Q := Nat) x y ⟨β, δ, 0⟩
  rw [fiber_eq, fiber_eq] at this
  exact this

theorem curves_tame [DecidableEq Q] (metric : Metric) (P : Params ℝ) (D : List (Pt ℝ Q)) (q : Q) (a b : ℝ) : ∀ f ∈ curves metric P D q, Tame a b f := by
  intro f hf
  cases metric with
  | betti =>
    simp only [curves, List.mem_singleton] at hf
    subst hf
    have e : (fun t => (aliveAt D q t : ℝ)) = fun t => ((D.filter fun p => decide (p.q = q)).map fun p => if p.b ≤ t ∧ t < p.d then (1 : ℝ) else 0).sum := by
      funext t
      unfold aliveAt
      induction D with
      | nil => simp
      | cons p D ih =>
        rw [List.countP_cons, Nat.cast_add, ih, List.filter_cons]
        by_cases hq : p.q = q
        · simp only [hq, true_and, decide_true, if_true, List.map_cons, List.sum_cons]
          rw [add_comm]
          congr 1
          by_cases h : p.b ≤ t ∧ t < p.d <;> simp [h]
        · simp [hq]
    rw [e]
    exact Tame.sum _ _ fun p _ => Tame.indicator a b p.b p.d
  | landscape =>
    simp only [curves, List.mem_map, List.mem_range] at hf
    obtain ⟨k, -, rfl⟩ := hf
    apply Tame.of_lipschitz
    intro x y
    rw [← layer_eq, ← layer_eq]
    exact layerAt_lipschitz _ k x y
  | silhouette =>
    simp only [curves, List.mem_singleton] at hf
    subst hf
    have e : silhouette D q (asVectorizer P).power = fun t => (((pointsIn D q).map fun p => (p.d - p.b) ^ (asVectorizer P).power).sum)⁻¹ *
        ((pointsIn D q).map fun p => (p.d - p.b) ^ (asVectorizer P).power * tent p.b p.d t).sum := by
      funext t
      unfold silhouette
      rw [div_eq_inv_mul]
    rw [e]
    exact (Tame.sum _ _ fun p _ => (tent_tame a b p.b p.d).smul _).smul _
  | bottleneck => simp [curves] at hf
  | wasserstein => simp [curves] at hf
  | heat => simp [curves] at hf
  | image => simp [curves] at hf

theorem differences_tame (a b : ℝ) (F G : List (ℝ → ℝ)) (hF : ∀ f ∈ F, Tame a b f) (hG : ∀ g ∈ G, Tame a b g) : ∀ f ∈ differences F G, Tame a b f := by
  intro f hf
  unfold differences at hf
  induction F generalizing G with
  | nil => simp at hf
  | cons u F ih =>
    cases G with
    | nil => simp at hf
    | cons v G =>
      rw [List.zipWith_cons_cons, List.mem_cons] at hf
      rcases hf with rfl | hf
      · exact (hF u List.mem_cons_self).sub (hG v List.mem_cons_self)
      · exact ih G (fun f h => hF f (List.mem_cons_of_mem _ h)) (fun g h => hG g (List.mem_cons_of_mem _ h)) hf

/-! ### Norms of sampled values -/

theorem foldl_max (l : List ℝ) (c : ℝ) : c ≤ l.foldl max c ∧ (∀ x ∈ l, x ≤ l.foldl max c) ∧ (l.foldl max c = c ∨ l.foldl max c ∈ l) := by
  induction l generalizing c with
  | nil => simp
  | cons y l ih =>
    obtain ⟨h1, h2, h3⟩ := ih (max c y)
    rw [List.foldl_cons]
    refine ⟨le_trans (le_max_left _ _) h1, ?_, ?_⟩
    · intro x hx
      rcases List.mem_cons.mp hx with rfl | hx
      · exact le_trans (le_max_right _ _) h1
      · exact h2 x hx
    · rcases h3 with h | h
      · rw [h]
        rcases max_choice c y with e | e
        · exact Or.inl e
        · exact Or.inr (by rw [e]; exact List.mem_cons_self)
      · exact Or.inr (List.mem_cons_of_mem _ h)

/-- The grid of `n` values between `a` and `b`. -/
noncomputable def gridOf (a b : ℝ) (n : Nat) : List ℝ := (List.range n).map fun (i : Nat) => a + (b - a) / ((n : ℝ) - 1) * i

theorem pNorm_sampled (p : ℝ≥0∞) (hp : 1 ≤ p) (a b : ℝ) (hab : a ≤ b) (F : List (ℝ → ℝ)) (hF : ∀ f ∈ F, Tame a b f) :
    Tendsto (fun n : Nat => pNorm p (sampled F (gridOf a b n)) * ((b - a) / ((n : ℝ) - 1)) ^ (1 / p).toReal) atTop (𝓝 (curveNorm p a b F)) := by
  by_cases ht : p = ⊤
  · subst ht
    have e0 : ((1 : ℝ≥0∞) / ⊤).toReal = 0 := by simp
    unfold curveNorm
    rw [if_pos rfl]
    simp only [e0, Real.rpow_zero, mul_one]
    apply tendsto_max a b hab F hF
    · intro n _
      unfold pNorm
      rw [if_pos rfl]
      exact (foldl_max _ 0).1
    · intro n _ f hf i hi
      unfold pNorm
      rw [if_pos rfl]
      apply (foldl_max _ 0).2.1
      rw [List.mem_map]
      refine ⟨_, ?_, rfl⟩
      unfold sampled gridOf
      rw [List.mem_flatten]
      refine ⟨_, List.mem_map_of_mem hf, ?_⟩
      rw [List.mem_map]
      exact ⟨_, List.mem_map_of_mem (List.mem_range.mpr hi), rfl⟩
    · intro n _
      unfold pNorm
      rw [if_pos rfl]
      rcases (foldl_max ((sampled F (gridOf a b n)).map fun x => |x|) 0).2.2 with h | h
      · exact Or.inl h
      · right
        rw [List.mem_map] at h
        obtain ⟨x, hx, hx'⟩ := h
        unfold sampled gridOf at hx
        rw [List.mem_flatten] at hx
        obtain ⟨l, hl, hx⟩ := hx
        rw [List.mem_map] at hl
        obtain ⟨f, hf, rfl⟩ := hl
        rw [List.mem_map] at hx
        obtain ⟨t, ht, rfl⟩ := hx
        rw [List.mem_map] at ht
        obtain ⟨i, hi, rfl⟩ := ht
        exact ⟨f, hf, i, List.mem_range.mp hi, hx'.symm⟩
  · have hp0 : 1 ≤ p.toReal := by
      rw [← ENNReal.toReal_one]
      exact ENNReal.toReal_mono ht hp
    have ee : ((1 : ℝ≥0∞) / p).toReal = 1 / p.toReal := by rw [ENNReal.toReal_div, ENNReal.toReal_one]
    unfold curveNorm
    rw [if_neg ht, ee]
    have hsum : Tendsto (fun n : Nat => (F.map fun f => (b - a) / ((n : ℝ) - 1) * ∑ i ∈ Finset.range n, |f (a + (b - a) / ((n : ℝ) - 1) * i)| ^ p.toReal).sum) atTop
        (𝓝 (F.map fun f => ∫ t in a..b, |f t| ^ p.toReal).sum) := by
      clear ee
      induction F with
      | nil => simp
      | cons f F ih =>
        simp only [List.map_cons, List.sum_cons]
        exact (tendsto_sum a b hab _ ((hF f List.mem_cons_self).abs_rpow p.toReal hp0)).add (ih fun g hg => hF g (List.mem_cons_of_mem _ hg))
    have hroot := hsum.rpow_const (p := 1 / p.toReal) (Or.inr (by positivity))
    refine hroot.congr' ?_
    filter_upwards [eventually_ge_atTop 2] with n hn
    have h1 : (0 : ℝ) < (n : ℝ) - 1 := by
      have : (2 : ℝ) ≤ n := by exact_mod_cast hn
      linarith
    have h0 : 0 ≤ (b - a) / ((n : ℝ) - 1) := div_nonneg (by linarith) h1.le
    unfold pNorm
    rw [if_neg ht]
    have es : (F.map fun f => (b - a) / ((n : ℝ) - 1) * ∑ i ∈ Finset.range n, |f (a + (b - a) / ((n : ℝ) - 1) * i)| ^ p.toReal).sum =
        ((sampled F (gridOf a b n)).map fun x => |x| ^ p.toReal).sum * ((b - a) / ((n : ℝ) - 1)) := by
      unfold sampled
      clear hsum hroot
      induction F with
      | nil => simp
      | cons f F ih =>
        rw [List.map_cons, List.sum_cons, ih fun g hg => hF g (List.mem_cons_of_mem _ hg), List.map_cons, List.flatten_cons, List.map_append, List.sum_append, add_mul]
        congr 1
        rw [mul_comm]
        congr 1
        unfold gridOf
        rw [List.map_map, List.map_map, Finset.sum_range]
        rw [← List.sum_ofFn]
        congr 1
        apply List.ext_getElem
        · simp
        · intro i h1 h2
          simp
    rw [es, Real.mul_rpow (List.sum_nonneg (by
      intro x hx
      rw [List.mem_map] at hx
      obtain ⟨y, -, rfl⟩ := hx
      positivity)) h0]

/-! ### The grid -/

theorem grid_eq (s : List ℝ) (n : Nat) (lo hi step : ℝ) (hn : 2 ≤ n) (h : EquallySpaced s n lo hi step) : s = gridOf lo hi n ∧ step = (hi - lo) / ((n : ℝ) - 1) := by
  have h1 : (0 : ℝ) < (n : ℝ) - 1 := by
    have : (2 : ℝ) ≤ n := by exact_mod_cast hn
    linarith
  have hs := equallySpaced_last s n lo hi step (by omega) h
  have e : step = (hi - lo) / ((n : ℝ) - 1) := by
    rw [hs, Nat.cast_sub (by omega), Nat.cast_one]
    field_simp
    ring
  refine ⟨?_, e⟩
  apply List.ext_getElem?
  intro i
  by_cases hi' : i < n
  · rw [equallySpaced_get s n lo hi step h i hi']
    unfold gridOf
    rw [List.getElem?_map, List.getElem?_range hi', Option.map_some, e]
    congr 1
    ring
  · rw [List.getElem?_eq_none (by rw [h.1]; omega), List.getElem?_eq_none (by unfold gridOf; simp; omega)]

theorem grid_range (X : List (List (Pt ℝ Q))) (dims : List Q) (q : Q) (n : Nat) (hn : 2 ≤ n) (s : List ℝ) (step : ℝ) (h : Grid X dims q n s step) :
    s = gridOf (low X q) (high X dims q) n ∧ step = (high X dims q - low X q) / ((n : ℝ) - 1) ∧ low X q ≤ high X dims q := by
  obtain ⟨lo, hi, last, h1, h2, h3, h4, h5, h6⟩ := h
  have e1 : low X q = lo := h1.csInf_eq
  have e2 : high X dims q = last := by
    unfold high
    rw [h1.csInf_eq, h2.csSup_eq]
    split_ifs with hc
    · have h7 := h6 hc
      refine IsGreatest.csSup_eq ⟨?_, ?_⟩
      · obtain ⟨q', hq', hg⟩ := h7.1
        exact ⟨q', hq', hg.1⟩
      · rintro y ⟨q', hq', hy⟩
        obtain ⟨q₀, hq₀, hg₀⟩ := h7.1
        have hfin : ∃ g, IsGreatest (deaths X q') g := by
          have hf : (deaths X q').Finite := by
            refine (((X.map fun D => D.map fun p => p.d).flatten).finite_toSet).subset ?_
            rintro x ⟨D, hD, p, hp, -, rfl⟩
            simp only [Set.mem_setOf_eq, List.mem_flatten, List.mem_map]
            exact ⟨_, ⟨D, hD, rfl⟩, List.mem_map.mpr ⟨p, hp, rfl⟩⟩
          obtain ⟨g, hg, hmax⟩ := Set.exists_max_image _ id hf ⟨y, hy⟩
          exact ⟨g, hg, fun x hx => hmax x hx⟩
        obtain ⟨g, hg⟩ := hfin
        exact le_trans (hg.2 hy) (h7.2 ⟨q', hq', hg⟩)
    · exact (h5 hc).symm
  rw [e1, e2]
  obtain ⟨a1, a2⟩ := grid_eq s n lo last step hn h3
  refine ⟨a1, a2, ?_⟩
  have := equallySpaced_last s n lo last step (by omega) h3
  rw [this]
  have := mul_nonneg (Nat.cast_nonneg (α := ℝ) (n - 1)) h4
  linarith

/-! ### Parameters -/

theorem withBins_asVectorizer (P : Params ℝ) (n : Nat) : asVectorizer (withBins P n) = { asVectorizer P with nBins := n } := by
  unfold asVectorizer withBins
  cases P.mp <;> rfl

theorem withBins_pOf (P : Params ℝ) (n : Nat) : pOf (withBins P n) = pOf P := by
  unfold pOf withBins
  cases h : P.mp <;> simp [h]

theorem withBins_curves [DecidableEq Q] (metric : Metric) (P : Params ℝ) (n : Nat) (D : List (Pt ℝ Q)) (q : Q) : curves metric (withBins P n) D q = curves metric P D q := by
  cases metric <;> simp [curves, withBins_asVectorizer]

theorem withBins_defined (metric : Metric) (P : Params ℝ) (n : Nat) (dims : List Q) : Defined (withBins P n) metric dims = Defined P metric dims := by
  unfold Defined
  rw [withBins_asVectorizer]

theorem withBins_valid (c : Cls) (P : Params ℝ) (metric : Metric) (hm : metric ≠ .bottleneck ∧ metric ≠ .wasserstein) (hP : ValidParams c P metric) (n : Nat) (hn : 1 ≤ n) : ValidParams c (withBins P n) metric := by
  have hmp : ∀ m, (withBins P n).mp = some m → m = { P.mp.getD {} with nBins := some n } := fun m h => (Option.some.inj h).symm
  obtain ⟨h1, h2, h3, h4, h5, h6, h7, h8, h9, h10, h11, h12, h13⟩ := hP
  cases hq : P.mp with
  | none =>
    rw [hq] at hmp
    constructor
    · exact h1
    · exact h2
    all_goals (intro m; intros; have := hmp m (by assumption); subst this; simp_all)
  | some m₀ =>
    rw [hq] at hmp
    have hb : ∀ m k, (withBins P n).mp = some m → m.nBins = some k → k = n := fun m k h h' => by
      have := hmp m h
      subst this
      exact (Option.some.inj h').symm
    refine ⟨h1, h2, fun m x h h' => h3 m₀ x hq ?_, fun m x h h' => h4 m₀ x hq ?_, fun m x h h' => h5 m₀ x hq ?_, fun m x h h' => h6 m₀ x hq ?_, fun m h h' => h7 m₀ hq ?_, fun m k h h' => hm,
      fun m k h h' => by rw [hb m k h h']; exact hn, fun m k h h' => h10 m₀ k hq ?_, fun m x h h' => h11 m₀ x hq ?_, fun m x h h' => h12 m₀ x hq ?_, fun m w h h' => h13 m₀ w hq ?_⟩
    all_goals
      have := hmp m h
      subst this
      exact h'

theorem lpNorm_tendsto {α : Type} (p : ℝ≥0∞) (hp : 0 < p) (l : List α) (a : Nat → α → ℝ) (L : α → ℝ) (h : ∀ q ∈ l, Tendsto (fun n => a n q) atTop (𝓝 (L q))) :
    Tendsto (fun n => lpNorm p (l.map (a n))) atTop (𝓝 (lpNorm p (l.map L))) := by
  simp only [← pNorm_eq p hp]
  unfold pNorm
  split_ifs with ht
  · have key : ∀ (c : Nat → ℝ) (c' : ℝ), Tendsto c atTop (𝓝 c') → Tendsto (fun n => ((l.map (a n)).map fun x => |x|).foldl max (c n)) atTop (𝓝 (((l.map L).map fun x => |x|).foldl max c')) := by
      induction l with
      | nil => intro c c' hc; exact hc
      | cons q l ih =>
        intro c c' hc
        simp only [List.map_cons, List.foldl_cons]
        exact ih (fun q' hq' => h q' (List.mem_cons_of_mem _ hq')) _ _ (hc.max (h q List.mem_cons_self).abs)
    exact key (fun _ => 0) 0 tendsto_const_nhds
  · have hp' : 0 < p.toReal := ENNReal.toReal_pos hp.ne' ht
    refine Tendsto.rpow_const ?_ (Or.inr (by positivity))
    induction l with
    | nil => simp
    | cons q l ih =>
      simp only [List.map_cons, List.sum_cons]
      exact ((h q List.mem_cons_self).abs.rpow_const (Or.inr hp'.le)).add (ih fun q' hq' => h q' (List.mem_cons_of_mem _ hq'))

theorem exponent_curve (metric : Metric) (hm : metric = .betti ∨ metric = .landscape ∨ metric = .silhouette) (p : ℝ≥0∞) : exponent metric p = (1 / p).toReal := by
  unfold exponent
  rw [if_neg (by rcases hm with rfl | rfl | rfl <;> decide)]

theorem curve_kind (metric : Metric) (hm : metric = .betti ∨ metric = .landscape ∨ metric = .silhouette) : ∃ kind, vectorizer metric = some kind := by
  rcases hm with rfl | rfl | rfl <;> exact ⟨_, rfl⟩

theorem dims_unique [LinearOrder Q] (X : List (List (Pt ℝ Q))) (dims dims' : List Q) (h : DimsOfFirst dims X) (h' : DimsOfFirst dims' X) : dims = dims' := by
  refine List.Perm.eq_of_pairwise (le := (· < ·)) (fun a b _ _ h1 h2 => absurd h2 (not_lt.mpr h1.le)) h.1 h'.1 ?_
  rw [List.perm_ext_iff_of_nodup (h.1.imp fun h => ne_of_lt h) (h'.1.imp fun h => ne_of_lt h)]
  intro q
  rw [h.2, h'.2]

variable [LinearOrder Q]

/-- What `PairwiseDistance` returns, in terms of the curves. -/
theorem distance_values (E : Engine ℝ Q) (hE : RealEngine E) (P : Params ℝ) (metric : Metric) (hm : metric = .betti ∨ metric = .landscape ∨ metric = .silhouette) (hP : ValidParams .distance P metric)
    (e : Nat → Est ℝ Q) (he : ∀ n, (e n).params = withBins P n) (X : List (List (Pt ℝ Q))) (hT : Training X)
    (X' : List (List (Pt ℝ Q))) (hX' : Valid X') (hE' : ∀ q ∈ observedDims X, EqualCounts X' q) (hD' : ∀ D ∈ X', D ∈ Defined P metric (observedDims X)) (hD : ∀ D ∈ X, D ∈ Defined P metric (observedDims X)) :
    ∀ n, 2 ≤ n → (fit .distance X (e n)).2 = .ok () ∧ ((∀ q ∈ observedDims X, low X q ≤ high X (observedDims X) q) ∧ ∀ nJobs, 1 ≤ nJobs →
      transformDistance E nJobs X' (fit .distance X (e n)).1 = .ok (distanceResult P.order (X'.map fun D => X.map fun D' => (observedDims X).map fun q =>
        pNorm (pOf P) (sampled (differences (curves metric P D q) (curves metric P D' q)) (gridOf (low X q) (high X (observedDims X) q) n)) *
          ((high X (observedDims X) q - low X q) / ((n : ℝ) - 1)) ^ (1 / pOf P).toReal))) := by
  obtain ⟨kind, hk⟩ := curve_kind metric hm
  have hm' : metric ≠ .bottleneck ∧ metric ≠ .wasserstein := by rcases hm with rfl | rfl | rfl <;> decide
  intro n hn
  have hPn : ValidParams .distance (e n).params metric := by rw [he]; exact withBins_valid _ P metric hm' hP n (by omega)
  have hbn : (asVectorizer (e n).params).nBins = n := by rw [he, withBins_asVectorizer]
  obtain ⟨h1, -, vec, len, cell, -, h3, -, h5⟩ := distance_eq E hE (e n) metric kind hPn hk (by omega) X hT (Gtda.Vectorizers.new (asVectorizer (e n).params)) rfl
  have hg : ∀ q ∈ observedDims X, (∀ D, vec q (pointsIn D q) = sampled (curves metric P D q) (gridOf (low X q) (high X (observedDims X) q) n)) ∧
      cell q = (high X (observedDims X) q - low X q) / ((n : ℝ) - 1) ∧ low X q ≤ high X (observedDims X) q := by
    intro q hq
    obtain ⟨s, b1, b2⟩ := h3 hm q hq
    rw [hbn] at b1
    obtain ⟨c1, c2, c3⟩ := grid_range X _ q n hn s _ b1
    refine ⟨fun D => ?_, c2, c3⟩
    rw [b2, curveVec_eq metric _ hm, he, withBins_curves, c1]
  refine ⟨h1, fun q hq => (hg q hq).2.2, fun nJobs hJ => ?_⟩
  rw [h5 nJobs hJ X' hX' hE' (by rw [he, withBins_defined]; exact hD') (by rw [he, withBins_defined]; exact hD), he, withBins_pOf]
  congr 2
  apply List.map_congr_left
  intro D _
  apply List.map_congr_left
  intro D' _
  apply List.map_congr_left
  intro q hq
  rw [(hg q hq).1, (hg q hq).1, (hg q hq).2.1, exponent_curve metric hm]
  unfold minkowski
  rw [zipWith_sampled _ _ (curves_length metric P D D' q)]

/-- What `Amplitude` returns, in terms of the curves. -/
theorem amplitude_values (E : Engine ℝ Q) (hE : RealEngine E) (P : Params ℝ) (metric : Metric) (hm : metric = .betti ∨ metric = .landscape ∨ metric = .silhouette) (hP : ValidParams .amplitude P metric)
    (e : Nat → Est ℝ Q) (he : ∀ n, (e n).params = withBins P n) (X : List (List (Pt ℝ Q))) (hT : Training X)
    (X' : List (List (Pt ℝ Q))) (hX' : Valid X') (hE' : ∀ q ∈ observedDims X, EqualCounts X' q) (hD' : ∀ D ∈ X', D ∈ Defined P metric (observedDims X)) :
    ∀ n, 2 ≤ n → (fit .amplitude X (e n)).2 = .ok () ∧ ((∀ q ∈ observedDims X, low X q ≤ high X (observedDims X) q) ∧ ∀ nJobs, 1 ≤ nJobs →
      transformAmplitude E nJobs X' (fit .amplitude X (e n)).1 = .ok (amplitudeResult P.order (X'.map fun D => (observedDims X).map fun q =>
        pNorm (pOf P) (sampled (curves metric P D q) (gridOf (low X q) (high X (observedDims X) q) n)) *
          ((high X (observedDims X) q - low X q) / ((n : ℝ) - 1)) ^ (1 / pOf P).toReal))) := by
  obtain ⟨kind, hk⟩ := curve_kind metric hm
  have hm' : metric ≠ .bottleneck ∧ metric ≠ .wasserstein := by rcases hm with rfl | rfl | rfl <;> decide
  have hp1 := pOf_one_le _ _ _ hP
  intro n hn
  have hPn : ValidParams .amplitude (e n).params metric := by rw [he]; exact withBins_valid _ P metric hm' hP n (by omega)
  have hbn : (asVectorizer (e n).params).nBins = n := by rw [he, withBins_asVectorizer]
  obtain ⟨h1, -, vec, cell, -, h3, -, h5⟩ := amplitude_eq E hE (e n) metric kind hPn hk (by omega) X hT (Gtda.Vectorizers.new (asVectorizer (e n).params)) rfl
  have hg : ∀ q ∈ observedDims X, (∀ D, vec q (pointsIn D q) = sampled (curves metric P D q) (gridOf (low X q) (high X (observedDims X) q) n)) ∧
      cell q = (high X (observedDims X) q - low X q) / ((n : ℝ) - 1) ∧ low X q ≤ high X (observedDims X) q := by
    intro q hq
    obtain ⟨s, b1, b2⟩ := h3 hm q hq
    rw [hbn] at b1
    obtain ⟨c1, c2, c3⟩ := grid_range X _ q n hn s _ b1
    refine ⟨fun D => ?_, c2, c3⟩
    rw [b2, curveVec_eq metric _ hm, he, withBins_curves, c1]
  refine ⟨h1, fun q hq => (hg q hq).2.2, fun nJobs hJ => ?_⟩
  rw [h5 nJobs hJ X' hX' hE' (by rw [he, withBins_defined]; exact hD'), he, withBins_pOf]
  congr 2
  apply List.map_congr_left
  intro D _
  apply List.map_congr_left
  intro q hq
  rw [(hg q hq).1, (hg q hq).2.1, exponent_curve metric hm, pNorm_eq _ (lt_of_lt_of_le one_pos hp1)]

/-- **C139**, distances: as `n_bins` grows, the distances computed by `PairwiseDistance` for the metrics `betti`, `landscape` and `silhouette` converge, in each homology dimension, to the `p`-norm (an integral, or
a supremum if `p` is infinite) of the difference of the curves of the two diagrams over the range of the training collection. With `order`, the returned norms over the dimensions converge to the norm of
these limits. -/
theorem C139_distance (E : Engine ℝ Q) (hE : RealEngine E) (P : Params ℝ) (metric : Metric) (hm : metric = .betti ∨ metric = .landscape ∨ metric = .silhouette) (hP : ValidParams .distance P metric)
    (e : Nat → Est ℝ Q) (he : ∀ n, (e n).params = withBins P n) (X : List (List (Pt ℝ Q))) (hT : Training X) (dims : List Q) (hdims : DimsOfFirst dims X)
    (X' : List (List (Pt ℝ Q))) (hX' : Valid X') (hE' : ∀ q ∈ dims, EqualCounts X' q) (hD' : ∀ D ∈ X', D ∈ Defined P metric dims) (hD : ∀ D ∈ X, D ∈ Defined P metric dims) :
    ∃ a : Nat → List (Pt ℝ Q) → List (Pt ℝ Q) → Q → ℝ,
      (∀ n, 2 ≤ n → (fit .distance X (e n)).2 = .ok () ∧ ∀ nJobs, 1 ≤ nJobs →
        transformDistance E nJobs X' (fit .distance X (e n)).1 = .ok (distanceResult P.order (X'.map fun D => X.map fun D' => dims.map fun q => a n D D' q))) ∧
      (∀ D D', ∀ q ∈ dims, Tendsto (fun n => a n D D' q) atTop (𝓝 (curveNorm (pOf P) (low X q) (high X dims q) (differences (curves metric P D q) (curves metric P D' q))))) ∧
      ∀ o, P.order = some o → ∀ D D', Tendsto (fun n => lpNorm (toP o) (dims.map fun q => a n D D' q)) atTop
        (𝓝 (lpNorm (toP o) (dims.map fun q => curveNorm (pOf P) (low X q) (high X dims q) (differences (curves metric P D q) (curves metric P D' q))))) := by
  have hd : dims = observedDims X := dims_unique X _ _ hdims (Gtda.Props.Vectorizers.observedDims_spec X)
  subst hd
  have hp1 := pOf_one_le _ _ _ hP
  have key := distance_values E hE P metric hm hP e he X hT X' hX' hE' hD' hD
  have hlim : ∀ D D', ∀ q ∈ observedDims X, Tendsto (fun n : Nat => pNorm (pOf P) (sampled (differences (curves metric P D q) (curves metric P D' q)) (gridOf (low X q) (high X (observedDims X) q) n)) *
          ((high X (observedDims X) q - low X q) / ((n : ℝ) - 1)) ^ (1 / pOf P).toReal) atTop
      (𝓝 (curveNorm (pOf P) (low X q) (high X (observedDims X) q) (differences (curves metric P D q) (curves metric P D' q)))) := by
    intro D D' q hq
    exact pNorm_sampled (pOf P) hp1 _ _ ((key 2 (by omega)).2.1 q hq) _ (differences_tame _ _ _ _ (curves_tame metric P D q _ _) (curves_tame metric P D' q _ _))
  refine ⟨_, fun n hn => ⟨(key n hn).1, (key n hn).2.2⟩, hlim, fun o ho D D' => ?_⟩
  exact lpNorm_tendsto (toP o) (order_pos _ _ _ hP o ho) (observedDims X) _ _ fun q hq => hlim D D' q hq

/-- **C139**, amplitudes: likewise, the limits are the `p`-norms of the curves. -/
theorem C139_amplitude (E : Engine ℝ Q) (hE : RealEngine E) (P : Params ℝ) (metric : Metric) (hm : metric = .betti ∨ metric = .landscape ∨ metric = .silhouette) (hP : ValidParams .amplitude P metric)
    (e : Nat → Est ℝ Q) (he : ∀ n, (e n).params = withBins P n) (X : List (List (Pt ℝ Q))) (hT : Training X) (dims : List Q) (hdims : DimsOfFirst dims X)
    (X' : List (List (Pt ℝ Q))) (hX' : Valid X') (hE' : ∀ q ∈ dims, EqualCounts X' q) (hD' : ∀ D ∈ X', D ∈ Defined P metric dims) :
    ∃ a : Nat → List (Pt ℝ Q) → Q → ℝ,
      (∀ n, 2 ≤ n → (fit .amplitude X (e n)).2 = .ok () ∧ ∀ nJobs, 1 ≤ nJobs →
        transformAmplitude E nJobs X' (fit .amplitude X (e n)).1 = .ok (amplitudeResult P.order (X'.map fun D => dims.map fun q => a n D q))) ∧
      (∀ D, ∀ q ∈ dims, Tendsto (fun n => a n D q) atTop (𝓝 (curveNorm (pOf P) (low X q) (high X dims q) (curves metric P D q)))) ∧
      ∀ o, P.order = some o → ∀ D, Tendsto (fun n => lpNorm (toP o) (dims.map fun q => a n D q)) atTop
        (𝓝 (lpNorm (toP o) (dims.map fun q => curveNorm (pOf P) (low X q) (high X dims q) (curves metric P D q)))) := by
  have hd : dims = observedDims X := dims_unique X _ _ hdims (Gtda.Props.Vectorizers.observedDims_spec X)
  subst hd
  have hp1 := pOf_one_le _ _ _ hP
  have key := amplitude_values E hE P metric hm hP e he X hT X' hX' hE' hD'
  have hlim : ∀ D, ∀ q ∈ observedDims X, Tendsto (fun n : Nat => pNorm (pOf P) (sampled (curves metric P D q) (gridOf (low X q) (high X (observedDims X) q) n)) *
          ((high X (observedDims X) q - low X q) / ((n : ℝ) - 1)) ^ (1 / pOf P).toReal) atTop
      (𝓝 (curveNorm (pOf P) (low X q) (high X (observedDims X) q) (curves metric P D q))) := by
    intro D q hq
    exact pNorm_sampled (pOf P) hp1 _ _ ((key 2 (by omega)).2.1 q hq) _ (curves_tame metric P D q _ _)
  refine ⟨_, fun n hn => ⟨(key n hn).1, (key n hn).2.2⟩, hlim, fun o ho D => ?_⟩
  exact lpNorm_tendsto (toP o) (order_pos _ _ _ hP o ho) (observedDims X) _ _ fun q hq => hlim D q hq

/-! ### The real line -/

theorem tent_outside (β δ t : ℝ) (h : t ≤ β ∨ δ ≤ t) : tent β δ t = 0 := by
  unfold tent
  apply max_eq_left
  rcases h with h | h
  · exact le_trans (min_le_left _ _) (by linarith)
  · exact le_trans (min_le_right _ _) (by linarith)

omit [LinearOrder Q] in
theorem in_range (X : List (List (Pt ℝ Q))) (dims : List Q) (q : Q) (hq : q ∈ dims) (D : List (Pt ℝ Q)) (hD : D ∈ X) (p : Pt ℝ Q) (hp : p ∈ D) (hpq : p.q = q) : low X q ≤ p.b ∧ p.d ≤ high X dims q := by
  have hfin : ∀ (g : Pt ℝ Q → ℝ) (S : Set ℝ), (∀ x ∈ S, ∃ D ∈ X, ∃ p ∈ D, x = g p) → S.Finite := by
    intro g S hS
    refine (((X.map fun D => D.map g).flatten).finite_toSet).subset ?_
    intro x hx
    obtain ⟨D, hD, p, hp, rfl⟩ := hS x hx
    simp only [Set.mem_setOf_eq, List.mem_flatten, List.mem_map]
    exact ⟨_, ⟨D, hD, rfl⟩, List.mem_map.mpr ⟨p, hp, rfl⟩⟩
  have h1 : (births X q).Finite := hfin (fun p => p.b) _ (by rintro x ⟨D, hD, p, hp, -, rfl⟩; exact ⟨D, hD, p, hp, rfl⟩)
  have h2 : (deaths X q).Finite := hfin (fun p => p.d) _ (by rintro x ⟨D, hD, p, hp, -, rfl⟩; exact ⟨D, hD, p, hp, rfl⟩)
  have h3 : ({y | ∃ q ∈ dims, y ∈ deaths X q} : Set ℝ).Finite := hfin (fun p => p.d) _ (by rintro x ⟨q, -, D, hD, p, hp, -, rfl⟩; exact ⟨D, hD, p, hp, rfl⟩)
  have m2 : p.d ∈ deaths X q := ⟨D, hD, p, hp, hpq, rfl⟩
  refine ⟨csInf_le h1.bddBelow ⟨D, hD, p, hp, hpq, rfl⟩, ?_⟩
  unfold high
  split_ifs
  · exact le_csSup h3.bddAbove ⟨q, hq, m2⟩
  · exact le_csSup h2.bddAbove m2

omit [LinearOrder Q] in
theorem curves_outside [DecidableEq Q] (metric : Metric) (P : Params ℝ) (D : List (Pt ℝ Q)) (q : Q) (lo hi : ℝ) (h : ∀ p ∈ D, p.q = q → lo ≤ p.b ∧ p.d ≤ hi) (t : ℝ) (ht : t < lo ∨ hi < t) :
    ∀ f ∈ curves metric P D q, f t = 0 := by
  have hz : ∀ p ∈ pointsIn D q, tent p.b p.d t = 0 := by
    intro p hp
    unfold pointsIn at hp
    rw [List.mem_filter, decide_eq_true_eq] at hp
    have := h p hp.1 hp.2
    exact tent_outside _ _ _ (by rcases ht with ht | ht; exacts [Or.inl (by linarith), Or.inr (by linarith)])
  intro f hf
  cases metric with
  | betti =>
    simp only [curves, List.mem_singleton] at hf
    subst hf
    dsimp only
    rw [Nat.cast_eq_zero]
    unfold aliveAt
    rw [List.countP_eq_zero]
    intro p hp
    simp only [decide_eq_true_eq, not_and, not_lt]
    intro hpq hb
    have := h p hp hpq
    rcases ht with ht | ht <;> linarith
  | landscape =>
    simp only [curves, List.mem_map, List.mem_range] at hf
    obtain ⟨k, -, rfl⟩ := hf
    unfold layer
    cases hv : ((tents D q t).mergeSort fun x y => decide (y ≤ x))[k]? with
    | none => rfl
    | some v =>
      have := (List.mergeSort_perm (tents D q t) _).mem_iff.mp (List.mem_of_getElem? hv)
      unfold tents at this
      rw [List.mem_map] at this
      obtain ⟨p, hp, rfl⟩ := this
      exact hz p hp
  | silhouette =>
    simp only [curves, List.mem_singleton] at hf
    subst hf
    unfold silhouette
    rw [List.sum_eq_zero, zero_div]
    intro x hx
    rw [List.mem_map] at hx
    obtain ⟨p, hp, rfl⟩ := hx
    rw [hz p hp, mul_zero]
  | bottleneck => simp [curves] at hf
  | wasserstein => simp [curves] at hf
  | heat => simp [curves] at hf
  | image => simp [curves] at hf

theorem norm_whole (p : ℝ≥0∞) (hp : 0 < p) (lo hi : ℝ) (hlh : lo ≤ hi) (F : List (ℝ → ℝ)) (hF : ∀ f ∈ F, Tame lo hi f) (h0 : ∀ t, t < lo ∨ hi < t → ∀ f ∈ F, f t = 0) : curveNorm p lo hi F = lineNorm p F := by
  unfold curveNorm lineNorm
  split_ifs with ht
  · have hb := bdd_values lo hi F hF
    have hnn : 0 ≤ sSup {y | ∃ f ∈ F, ∃ t, lo ≤ t ∧ t ≤ hi ∧ y = |f t|} := Real.sSup_nonneg (by rintro y ⟨f, hf, t, -, -, rfl⟩; exact abs_nonneg _)
    have hle : ∀ y ∈ {y | ∃ f ∈ F, ∃ t, y = |f t|}, y ≤ sSup {y | ∃ f ∈ F, ∃ t, lo ≤ t ∧ t ≤ hi ∧ y = |f t|} := by
      rintro y ⟨f, hf, t, rfl⟩
      by_cases hin : lo ≤ t ∧ t ≤ hi
      · exact le_csSup hb ⟨f, hf, t, hin.1, hin.2, rfl⟩
      · rw [h0 t (by by_contra hc; push Not at hc; exact hin hc) f hf, abs_zero]
        exact hnn
    apply le_antisymm
    · refine Real.sSup_le ?_ (Real.sSup_nonneg (by rintro y ⟨f, hf, t, rfl⟩; exact abs_nonneg _))
      rintro y ⟨f, hf, t, -, -, rfl⟩
      exact le_csSup ⟨_, hle⟩ ⟨f, hf, t, rfl⟩
    · exact Real.sSup_le hle hnn
  · have hp' : 0 < p.toReal := ENNReal.toReal_pos hp.ne' ht
    congr 2
    apply List.map_congr_left
    intro f hf
    rw [intervalIntegral.integral_of_le hlh, ← integral_Icc_eq_integral_Ioc]
    apply setIntegral_eq_integral_of_forall_compl_eq_zero
    intro t ht
    rw [h0 t (by by_contra hc; push Not at hc; exact ht hc) f hf, abs_zero, Real.zero_rpow hp'.ne']

/-- **C139**, for diagrams of the training collection (as in `fit_transform`): the limits are norms on the whole real line, as in the definitions of the glossary. -/
theorem C139_whole (metric : Metric) (P : Params ℝ) (p : ℝ≥0∞) (hp : 0 < p) (X : List (List (Pt ℝ Q))) (hV : Valid X) (dims : List Q) (hdims : DimsOfFirst dims X) (q : Q) (hq : q ∈ dims)
    (D D' : List (Pt ℝ Q)) (hD : D ∈ X) (hD' : D' ∈ X) :
    curveNorm p (low X q) (high X dims q) (differences (curves metric P D q) (curves metric P D' q)) = lineNorm p (differences (curves metric P D q) (curves metric P D' q)) ∧
    curveNorm p (low X q) (high X dims q) (curves metric P D q) = lineNorm p (curves metric P D q) := by
  have hle : low X q ≤ high X dims q := by
    obtain ⟨D₀, h0, x, hx, hxq⟩ := (hdims.2 q).mp hq
    have hm := List.mem_of_getElem? h0
    obtain ⟨a, b⟩ := in_range X dims q hq D₀ hm x hx hxq
    exact le_trans a (le_trans (hV.2.2 D₀ hm x hx) b)
  have hr : ∀ D ∈ X, ∀ t, t < low X q ∨ high X dims q < t → ∀ f ∈ curves metric P D q, f t = 0 := fun D hD t ht =>
    curves_outside metric P D q _ _ (fun x hx hxq => in_range X dims q hq D hD x hx hxq) t ht
  refine ⟨norm_whole p hp _ _ hle _ (differences_tame _ _ _ _ (curves_tame _ _ _ _ _ _) (curves_tame _ _ _ _ _ _)) ?_, norm_whole p hp _ _ hle _ (curves_tame _ _ _ _ _ _) (hr D hD)⟩
  intro t ht f hf
  unfold differences at hf
  have key : ∀ F G : List (ℝ → ℝ), (∀ f ∈ F, f t = 0) → (∀ g ∈ G, g t = 0) → ∀ f ∈ List.zipWith (fun f g t => f t - g t) F G, f t = 0 := by
    intro F
    induction F with
    | nil => intro G _ _ f hf; simp at hf
    | cons u F ih =>
      intro G hF hG f hf
      cases G with
      | nil => simp at hf
      | cons v G =>
        rw [List.zipWith_cons_cons, List.mem_cons] at hf
        rcases hf with rfl | hf
        · dsimp only
          rw [hF u List.mem_cons_self, hG v List.mem_cons_self, sub_zero]
        · exact ih G (fun f h => hF f (List.mem_cons_of_mem _ h)) (fun g h => hG g (List.mem_cons_of_mem _ h)) f hf
  exact key _ _ (hr D hD t ht) (hr D' hD' t ht) f hf

/-- The metric `betti` with `p = 1`. -/
noncomputable def exampleParams : Params ℝ := { metric := some .betti, mp := some { p := some (some 1) }, order := none }

/-- Two diagrams with one point each. -/
noncomputable def exampleX : List (List (Pt ℝ Nat)) := [[⟨0, 1, 0⟩], [⟨0, 2, 0⟩]]

theorem example_limit : curveNorm 1 (low exampleX 0) (high exampleX [0] 0) (differences (curves .betti exampleParams [⟨0, 1, 0⟩] 0) (curves .betti exampleParams [⟨0, 2, 0⟩] 0)) = 1 := by
  rw [(C139_whole (Q := Nat) .betti exampleParams 1 one_pos exampleX (by simp [Valid, exampleX]) [0] (by simp [DimsOfFirst, exampleX, eq_comm]) 0 (by simp) _ _ (by simp [exampleX]) (by simp [exampleX])).1]
  unfold lineNorm
  rw [if_neg ENNReal.one_ne_top]
  have e : (fun t : ℝ => |((aliveAt ([⟨0, 1, 0⟩] : List (Pt ℝ Nat)) 0 t : ℕ) : ℝ) - ((aliveAt ([⟨0, 2, 0⟩] : List (Pt ℝ Nat)) 0 t : ℕ) : ℝ)| ^ (1 : ℝ≥0∞).toReal) = Set.indicator (Set.Ico (1 : ℝ) 2) 1 := by
    funext t
    simp only [aliveAt, List.countP_cons, List.countP_nil, Set.indicator, Set.mem_Ico, ENNReal.toReal_one, Real.rpow_one, Pi.one_apply]
    by_cases h0 : 0 ≤ t <;> by_cases h1 : t < 1 <;> by_cases h2 : t < 2 <;> by_cases h3 : 1 ≤ t <;> simp [h0, h1, h2, h3] <;> linarith
  simp only [differences, curves, List.zipWith_cons_cons, List.zipWith_nil_left, List.map_cons, List.map_nil, List.sum_cons, List.sum_nil, add_zero]
  rw [e, integral_indicator_one measurableSet_Ico]
  norm_num

example (E : Engine ℝ Nat) (hE : RealEngine E) : ∃ a : Nat → List (Pt ℝ Nat) → List (Pt ℝ Nat) → Nat → ℝ,
    (∀ n, 2 ≤ n → transformDistance E 1 exampleX (fit .distance exampleX (new (withBins exampleParams n))).1 =
      .ok (.full [[[some (a n [⟨0, 1, 0⟩] [⟨0, 1, 0⟩] 0)], [some (a n [⟨0, 1, 0⟩] [⟨0, 2, 0⟩] 0)]], [[some (a n [⟨0, 2, 0⟩] [⟨0, 1, 0⟩] 0)], [some (a n [⟨0, 2, 0⟩] [⟨0, 2, 0⟩] 0)]]])) ∧
    Tendsto (fun n => a n [⟨0, 1, 0⟩] [⟨0, 2, 0⟩] 0) atTop (𝓝 1) := by
  obtain ⟨a, h1, h2, -⟩ := C139_distance E hE exampleParams .betti (Or.inl rfl)
    (by constructor <;> first | (simp [exampleParams]; done) | (intro m _ h; obtain rfl := (Option.some.inj h).symm; simp; done) | (intro m _ h; obtain rfl := (Option.some.inj h).symm; simp; exact fun h => h.le) | (intro m h; obtain rfl := (Option.some.inj h).symm; simp)) (fun n => new (withBins exampleParams n)) (fun n => rfl) exampleX (by simp [Training, Valid, exampleX, EqualCounts, pointsIn]) [0]
    (by simp [DimsOfFirst, exampleX, eq_comm]) exampleX (by simp [Valid, exampleX]) (by simp [exampleX, EqualCounts, pointsIn]) (by simp [Defined, exampleX]) (by simp [Defined, exampleX])
  refine ⟨a, fun n hn => ?_, ?_⟩
  · rw [(h1 n hn).2 1 le_rfl]
    rfl
  · have := h2 [⟨0, 1, 0⟩] [⟨0, 2, 0⟩] 0 (by simp)
    have hp : pOf exampleParams = 1 := by simp [pOf, exampleParams]
    rw [hp, example_limit] at this
    exact this

end Gtda.Props.Limits
