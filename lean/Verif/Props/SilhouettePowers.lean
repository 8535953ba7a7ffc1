import Verif.Spec.SilhouettePowers
import Verif.Props.Silhouette
import Mathlib.Analysis.SpecialFunctions.Pow.Asymptotics
import Mathlib.Analysis.SpecialFunctions.Pow.Continuity
import Mathlib.Topology.Algebra.Field

set_option autoImplicit false
set_option linter.unusedSectionVars false

/-!
# C158: how silhouettes depend on the sampled value and on the power
-/

namespace Gtda.Props.SilhouettePowers
open Gtda.Py Gtda.Diagrams Gtda.Spec.SilhouettePowers Filter Topology

variable {Q : Type} [DecidableEq Q]

theorem tent_lipschitz (b d s s' : ℝ) : |tent b d s - tent b d s'| ≤ |s - s'| := by
  unfold tent
  have h1 := abs_max_sub_max_le_max 0 (min (s - b) (d - s)) 0 (min (s' - b) (d - s'))
  have h2 := abs_min_sub_min_le_max (s - b) (d - s) (s' - b) (d - s')
  rw [sub_self, abs_zero] at h1
  rw [show s - b - (s' - b) = s - s' by ring, show d - s - (d - s') = -(s - s') by ring, abs_neg, max_self] at h2
  exact h1.trans (max_le (abs_nonneg _) h2)

theorem tent_le_half (b d s : ℝ) (h : b ≤ d) : tent b d s ≤ (d - b) / 2 := by
  unfold tent
  refine max_le (by linarith) ?_
  rcases le_total (s - b) (d - s) with h1 | h1
  · rw [min_eq_left h1]; linarith
  · rw [min_eq_right h1]; linarith

theorem weighted_lipschitz (P : List (Pt ℝ Q)) (w : Pt ℝ Q → ℝ) (hw : ∀ p ∈ P, 0 ≤ w p) (s s' : ℝ) :
    |(P.map fun p => w p * tent p.b p.d s).sum - (P.map fun p => w p * tent p.b p.d s').sum| ≤ (P.map w).sum * |s - s'| := by
  induction P with
  | nil => simp
  | cons p P ih =>
    have ih := ih fun p hp => hw p (List.mem_cons_of_mem _ hp)
    simp only [List.map_cons, List.sum_cons]
    have h1 : |w p * tent p.b p.d s - w p * tent p.b p.d s'| ≤ w p * |s - s'| := by
      rw [← mul_sub, abs_mul, abs_of_nonneg (hw p List.mem_cons_self)]
      exact mul_le_mul_of_nonneg_left (tent_lipschitz _ _ _ _) (hw p List.mem_cons_self)
    calc |w p * tent p.b p.d s + (P.map fun p => w p * tent p.b p.d s).sum - (w p * tent p.b p.d s' + (P.map fun p => w p * tent p.b p.d s').sum)|
        = |(w p * tent p.b p.d s - w p * tent p.b p.d s') + ((P.map fun p => w p * tent p.b p.d s).sum - (P.map fun p => w p * tent p.b p.d s').sum)| := by ring_nf
      _ ≤ w p * |s - s'| + (P.map w).sum * |s - s'| := (abs_add_le _ _).trans (add_le_add h1 ih)
      _ = (w p + (P.map w).sum) * |s - s'| := by ring

theorem list_tendsto {ι : Type} (F : Filter ℝ) (P : List ι) (f : ι → ℝ → ℝ) (a : ι → ℝ) (h : ∀ i ∈ P, Tendsto (f i) F (𝓝 (a i))) : Tendsto (fun r => (P.map fun i => f i r).sum) F (𝓝 (P.map a).sum) := by
  induction P with
  | nil => simpa using tendsto_const_nhds
  | cons i P ih =>
    simp only [List.map_cons, List.sum_cons]
    exact (h i List.mem_cons_self).add (ih fun j hj => h j (List.mem_cons_of_mem _ hj))

/-- If weights tend to `1` on the points of `S` and to `0` on the others, weighted averages of tents tend to the average over `S`. -/
theorem ratio_tendsto (F : Filter ℝ) (P : List (Pt ℝ Q)) (S : Pt ℝ Q → Bool) (w : Pt ℝ Q → ℝ → ℝ) (hS : ∃ p ∈ P, S p = true) (h : ∀ p ∈ P, Tendsto (w p) F (𝓝 (if S p = true then 1 else 0))) (s : ℝ) :
    Tendsto (fun r => (P.map fun p => w p r * tent p.b p.d s).sum / (P.map fun p => w p r).sum) F (𝓝 (average (P.filter S) s)) := by
  have h1 := list_tendsto F P (fun p r => w p r * tent p.b p.d s) (fun p => (if S p = true then 1 else 0) * tent p.b p.d s) fun p hp => (h p hp).mul_const _
  have h2 := list_tendsto F P w (fun p => if S p = true then 1 else 0) h
  have e1 : (P.map fun p => (if S p = true then (1 : ℝ) else 0) * tent p.b p.d s).sum = ((P.filter S).map fun p => tent p.b p.d s).sum := by
    clear h h1 h2 hS
    induction P with
    | nil => rfl
    | cons p P ih => by_cases hp : S p = true <;> simp [hp, ← ih]
  have e2 : (P.map fun p => if S p = true then (1 : ℝ) else 0).sum = ((P.filter S).length : ℝ) := by
    clear h h1 h2 hS e1
    induction P with
    | nil => simp
    | cons p P ih =>
      by_cases hp : S p = true
      · simp [hp, ih]; ring
      · simp [hp, ih]
  rw [e1] at h1
  rw [e2] at h2
  have hne : ((P.filter S).length : ℝ) ≠ 0 := by
    obtain ⟨p, hp, hs⟩ := hS
    have : 0 < (P.filter S).length := List.length_pos_of_mem (List.mem_filter.2 ⟨hp, hs⟩)
    positivity
  exact h1.div h2 hne

theorem exists_longest (P : List (Pt ℝ Q)) (h : P ≠ []) : ∃ m ∈ P, ∀ p ∈ P, p.d - p.b ≤ m.d - m.b := by
  induction P with
  | nil => exact absurd rfl h
  | cons p P ih =>
    by_cases hP : P = []
    · subst hP
      exact ⟨p, by simp, by simp⟩
    · obtain ⟨m, hm, hmax⟩ := ih hP
      rcases le_total (m.d - m.b) (p.d - p.b) with hl | hl
      · refine ⟨p, List.mem_cons_self, fun x hx => ?_⟩
        rcases List.mem_cons.1 hx with rfl | hx
        · exact le_rfl
        · exact (hmax x hx).trans hl
      · refine ⟨m, List.mem_cons_of_mem _ hm, fun x hx => ?_⟩
        rcases List.mem_cons.1 hx with rfl | hx
        · exact hl
        · exact hmax x hx

theorem mem_pointsIn {D : List (Pt ℝ Q)} {q : Q} {p : Pt ℝ Q} : p ∈ pointsIn D q ↔ p ∈ D ∧ p.q = q := by
  unfold pointsIn
  simp

open Classical in
theorem large_power (D : List (Pt ℝ Q)) (q : Q) (hv : ∀ p ∈ D, p.b ≤ p.d) (ho : ∃ p ∈ D, p.q = q ∧ p.b ≠ p.d) (s : ℝ) :
    Tendsto (fun r : ℝ => ((pointsIn D q).map fun p => (p.d - p.b) ^ r * tent p.b p.d s).sum / ((pointsIn D q).map fun p => (p.d - p.b) ^ r).sum) atTop (𝓝 (average (longest D q) s)) := by
  obtain ⟨o, ho1, ho2, ho3⟩ := ho
  have hoP : o ∈ pointsIn D q := mem_pointsIn.2 ⟨ho1, ho2⟩
  obtain ⟨m, hm, hmax⟩ := exists_longest (pointsIn D q) (List.ne_nil_of_mem hoP)
  have hM : 0 < m.d - m.b := lt_of_lt_of_le (sub_pos.2 (lt_of_le_of_ne (hv o ho1) ho3)) (hmax o hoP)
  have key := ratio_tendsto atTop (pointsIn D q) (fun p => decide (∀ p' ∈ pointsIn D q, p'.d - p'.b ≤ p.d - p.b)) (fun p r => ((p.d - p.b) / (m.d - m.b)) ^ r) ⟨m, hm, by simpa using hmax⟩ ?_ s
  · refine key.congr fun r => ?_
    have hdiv : ∀ p ∈ pointsIn D q, ((p.d - p.b) / (m.d - m.b)) ^ r = (p.d - p.b) ^ r * ((m.d - m.b) ^ r)⁻¹ := by
      intro p hp
      rw [Real.div_rpow (sub_nonneg.2 (hv p (mem_pointsIn.1 hp).1)) hM.le, div_eq_mul_inv]
    have hc : ((m.d - m.b) ^ r)⁻¹ ≠ 0 := inv_ne_zero (Real.rpow_pos_of_pos hM r).ne'
    have e1 : ((pointsIn D q).map fun p => ((p.d - p.b) / (m.d - m.b)) ^ r * tent p.b p.d s).sum = ((pointsIn D q).map fun p => (p.d - p.b) ^ r * tent p.b p.d s).sum * ((m.d - m.b) ^ r)⁻¹ := by
      rw [← List.sum_map_mul_right]
      congr 1
      exact List.map_congr_left fun p hp => by rw [hdiv p hp]; ring
    have e2 : ((pointsIn D q).map fun p => ((p.d - p.b) / (m.d - m.b)) ^ r).sum = ((pointsIn D q).map fun p => (p.d - p.b) ^ r).sum * ((m.d - m.b) ^ r)⁻¹ := by
      rw [← List.sum_map_mul_right]
      congr 1
      exact List.map_congr_left hdiv
    rw [e1, e2, mul_div_mul_right _ _ hc]
  · intro p hp
    by_cases hl : ∀ p' ∈ pointsIn D q, p'.d - p'.b ≤ p.d - p.b
    · rw [if_pos (by simpa using hl)]
      have : p.d - p.b = m.d - m.b := le_antisymm (hmax p hp) (hl m hm)
      simp only [this, div_self hM.ne', Real.one_rpow]
      exact tendsto_const_nhds
    · rw [if_neg (by simpa using hl)]
      have hlt : p.d - p.b < m.d - m.b := lt_of_not_ge fun e => hl fun p' hp' => (hmax p' hp').trans e
      refine tendsto_rpow_atTop_of_base_lt_one _ ?_ ((div_lt_one hM).2 hlt)
      have : 0 ≤ (p.d - p.b) / (m.d - m.b) := div_nonneg (sub_nonneg.2 (hv p (mem_pointsIn.1 hp).1)) hM.le
      linarith

open Classical in
theorem small_power (D : List (Pt ℝ Q)) (q : Q) (hv : ∀ p ∈ D, p.b ≤ p.d) (ho : ∃ p ∈ D, p.q = q ∧ p.b ≠ p.d) (s : ℝ) :
    Tendsto (fun r : ℝ => ((pointsIn D q).map fun p => (p.d - p.b) ^ r * tent p.b p.d s).sum / ((pointsIn D q).map fun p => (p.d - p.b) ^ r).sum) (𝓝[>] 0) (𝓝 (average (offDiagonal D q) s)) := by
  obtain ⟨o, ho1, ho2, ho3⟩ := ho
  refine ratio_tendsto (𝓝[>] 0) (pointsIn D q) (fun p => decide (p.b < p.d)) (fun p r => (p.d - p.b) ^ r) ⟨o, mem_pointsIn.2 ⟨ho1, ho2⟩, by simpa using lt_of_le_of_ne (hv o ho1) ho3⟩ ?_ s
  intro p hp
  by_cases hl : p.b < p.d
  · rw [if_pos (by simpa using hl)]
    have := (Real.continuousAt_const_rpow (a := p.d - p.b) (b := 0) (sub_pos.2 hl).ne').tendsto
    rw [Real.rpow_zero] at this
    exact this.mono_left nhdsWithin_le_nhds
  · rw [if_neg (by simpa using hl)]
    have e : p.d - p.b = 0 := by have := hv p (mem_pointsIn.1 hp).1; linarith
    refine tendsto_const_nhds.congr' ?_
    filter_upwards [self_mem_nhdsWithin] with r hr
    rw [e, Real.zero_rpow (ne_of_gt hr)]

/-! ### The theorems -/

/-- **C158.** As a function of the sampled value, a silhouette is 1-Lipschitz and nowhere exceeds half the longest lifetime. -/
theorem C158_lipschitz (power : ℝ) (hp : 0 < power) (dims : List Q) (sampling : Q → List ℝ) (nJobs : Nat) (X : List (List (Pt ℝ Q))) (hn : 1 ≤ nJobs) (hd : dims ≠ []) (hX : X ≠ []) (hE : ∀ q ∈ dims, EqualCounts X q)
    (hv : ∀ D ∈ X, ∀ p ∈ D, p.b ≤ p.d) (ho : ∀ q ∈ dims, ∀ D ∈ X, ∃ p ∈ D, p.q = q ∧ p.b ≠ p.d) :
    ∃ R, silhouettePow power dims sampling nJobs X = .ok R ∧ ∀ (i j t t' : Nat) D q s s', X[i]? = some D → dims[j]? = some q → (sampling q)[t]? = some s → (sampling q)[t']? = some s' →
      ∃ v v', entry3 R i j t = some (some v) ∧ entry3 R i j t' = some (some v') ∧ |v - v'| ≤ |s - s'| ∧ ∃ p ∈ D, p.q = q ∧ v ≤ (p.d - p.b) / 2 := by
  obtain ⟨R, hR, h⟩ := C29_weighted_average power hp dims sampling nJobs X hn hd hX hE hv ho
  refine ⟨R, hR, fun i j t t' D q s s' h1 h2 h3 h4 => ?_⟩
  obtain ⟨hpos, v, e, hval, -, p, hpm, hle⟩ := h i j t D q s h1 h2 h3
  obtain ⟨-, v', e', hval', -⟩ := h i j t' D q s' h1 h2 h4
  have hvD := hv D (List.mem_of_getElem? h1)
  refine ⟨v, v', e, e', ?_, p, (mem_pointsIn.1 hpm).1, (mem_pointsIn.1 hpm).2, hle.trans (tent_le_half _ _ _ (hvD p (mem_pointsIn.1 hpm).1))⟩
  rw [hval, hval', ← sub_div, abs_div, abs_of_pos hpos, div_le_iff₀ hpos, mul_comm]
  exact weighted_lipschitz (pointsIn D q) (fun p => (p.d - p.b) ^ power) (fun p hp => Real.rpow_nonneg (sub_nonneg.2 (hvD p (mem_pointsIn.1 hp).1)) _) s s'

/-- **C158.** For large powers, silhouettes are as near as one likes to the average of the tent functions of the points with the longest lifetime. -/
theorem C158_large_power (dims : List Q) (sampling : Q → List ℝ) (nJobs : Nat) (X : List (List (Pt ℝ Q))) (hn : 1 ≤ nJobs) (hd : dims ≠ []) (hX : X ≠ []) (hE : ∀ q ∈ dims, EqualCounts X q)
    (hv : ∀ D ∈ X, ∀ p ∈ D, p.b ≤ p.d) (ho : ∀ q ∈ dims, ∀ D ∈ X, ∃ p ∈ D, p.q = q ∧ p.b ≠ p.d) (i j t : Nat) (D : List (Pt ℝ Q)) (q : Q) (s : ℝ) (h1 : X[i]? = some D) (h2 : dims[j]? = some q) (h3 : (sampling q)[t]? = some s)
    (ε : ℝ) (hε : 0 < ε) :
    ∃ P : ℝ, 0 < P ∧ ∀ power, P ≤ power → ∃ R v, silhouettePow power dims sampling nJobs X = .ok R ∧ entry3 R i j t = some (some v) ∧ |v - average (longest D q) s| < ε := by
  have hlim := large_power D q (hv D (List.mem_of_getElem? h1)) (ho q (List.mem_of_getElem? h2) D (List.mem_of_getElem? h1)) s
  rw [Metric.tendsto_nhds] at hlim
  obtain ⟨P, hP⟩ := eventually_atTop.1 (hlim ε hε)
  refine ⟨max P 1, by positivity, fun power hpow => ?_⟩
  have hp : 0 < power := lt_of_lt_of_le (by positivity) ((le_max_right P 1).trans hpow)
  obtain ⟨R, hR, h⟩ := C29_weighted_average power hp dims sampling nJobs X hn hd hX hE hv ho
  obtain ⟨-, v, e, hval, -⟩ := h i j t D q s h1 h2 h3
  refine ⟨R, v, hR, e, ?_⟩
  have := hP power ((le_max_left P 1).trans hpow)
  rwa [Real.dist_eq, ← hval] at this

/-- **C158.** For small powers, they are as near as one likes to the average of the tent functions of all off-diagonal points. -/
theorem C158_small_power (dims : List Q) (sampling : Q → List ℝ) (nJobs : Nat) (X : List (List (Pt ℝ Q))) (hn : 1 ≤ nJobs) (hd : dims ≠ []) (hX : X ≠ []) (hE : ∀ q ∈ dims, EqualCounts X q)
    (hv : ∀ D ∈ X, ∀ p ∈ D, p.b ≤ p.d) (ho : ∀ q ∈ dims, ∀ D ∈ X, ∃ p ∈ D, p.q = q ∧ p.b ≠ p.d) (i j t : Nat) (D : List (Pt ℝ Q)) (q : Q) (s : ℝ) (h1 : X[i]? = some D) (h2 : dims[j]? = some q) (h3 : (sampling q)[t]? = some s)
    (ε : ℝ) (hε : 0 < ε) :
    ∃ P : ℝ, 0 < P ∧ ∀ power, 0 < power → power < P → ∃ R v, silhouettePow power dims sampling nJobs X = .ok R ∧ entry3 R i j t = some (some v) ∧ |v - average (offDiagonal D q) s| < ε := by
  have hlim := small_power D q (hv D (List.mem_of_getElem? h1)) (ho q (List.mem_of_getElem? h2) D (List.mem_of_getElem? h1)) s
  rw [Metric.tendsto_nhds] at hlim
  obtain ⟨P, hP0, hP⟩ := mem_nhdsGT_iff_exists_Ioo_subset.1 (hlim ε hε)
  refine ⟨P, hP0, fun power hp hpow => ?_⟩
  obtain ⟨R, hR, h⟩ := C29_weighted_average power hp dims sampling nJobs X hn hd hX hE hv ho
  obtain ⟨-, v, e, hval, -⟩ := h i j t D q s h1 h2 h3
  refine ⟨R, v, hR, e, ?_⟩
  have : power ∈ {x | dist _ (average (offDiagonal D q) s) < ε} := hP ⟨hp, hpow⟩
  rw [Set.mem_ofPred_eq, Real.dist_eq, ← hval] at this
  exact this

/-- Non-vacuity: a diagram with points of lifetime 4 and 2; the tents at 2 have values 2 and 1. -/
example : let D : List (Pt ℝ Nat) := [⟨0, 4, 0⟩, ⟨1, 3, 0⟩, ⟨1, 1, 0⟩]
    (∀ p ∈ D, p.b ≤ p.d) ∧ (∃ p ∈ D, p.q = 0 ∧ p.b ≠ p.d) ∧ EqualCounts [D] 0 ∧ average (longest D 0) 2 = 2 ∧ average (offDiagonal D 0) 2 = 3 / 2 := by
  intro D
  have hP : pointsIn D 0 = D := by simp [pointsIn, D]
  have hl : longest D 0 = [⟨0, 4, 0⟩] := by
    unfold longest
    rw [hP]
    simp only [D, List.mem_cons, List.not_mem_nil, or_false, forall_eq_or_imp, forall_eq, List.filter_cons, List.filter_nil]
    norm_num
  have hof : offDiagonal D 0 = [⟨0, 4, 0⟩, ⟨1, 3, 0⟩] := by
    unfold offDiagonal
    rw [hP]
    simp only [D, List.filter_cons, List.filter_nil]
    norm_num
  refine ⟨by simp [D], ⟨⟨0, 4, 0⟩, by simp [D], rfl, by norm_num⟩, ?_, ?_, ?_⟩
  · intro A hA B hB
    rw [List.mem_singleton.1 hA, List.mem_singleton.1 hB]
  · rw [hl]
    norm_num [average, tent]
  · rw [hof]
    norm_num [average, tent]

end Gtda.Props.SilhouettePowers
