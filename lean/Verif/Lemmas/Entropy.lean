import Verif.Model.Features
import Verif.Spec.Entropy
import Mathlib.Algebra.BigOperators.Ring.List
import Mathlib.Algebra.Order.BigOperators.Group.List

set_option autoImplicit false

/-! Lemmas about entropies. -/

namespace Gtda
open Gtda.Diagrams

theorem shannon2_perm {ps qs : List ℝ} (h : ps.Perm qs) : shannon2 ps = shannon2 qs := (h.map _).sum_eq

theorem shannon2_nonneg (ps : List ℝ) (h : ∀ p ∈ ps, 0 ≤ p ∧ p ≤ 1) : 0 ≤ shannon2 ps := by
  apply List.sum_nonneg
  intro x hx
  rw [List.mem_map] at hx
  obtain ⟨p, hp, rfl⟩ := hx
  obtain ⟨h0, h1⟩ := h p hp
  have := Real.logb_nonpos (b := 2) (by norm_num) h0 h1
  nlinarith

theorem le_sum_of_mem (l : List ℝ) (h : ∀ x ∈ l, 0 ≤ x) (x : ℝ) (hx : x ∈ l) : x ≤ l.sum := by
  induction l with
  | nil => simp at hx
  | cons a t ih =>
    rw [List.sum_cons]
    have ht := List.sum_nonneg (l := t) fun y hy => h y (List.mem_cons_of_mem _ hy)
    rcases List.mem_cons.mp hx with rfl | hx
    · linarith
    · have := ih (fun y hy => h y (List.mem_cons_of_mem _ hy)) hx
      have := h a List.mem_cons_self
      linarith

theorem shannon2_le (ps : List ℝ) (h : ∀ p ∈ ps, 0 < p) (hs : ps.sum = 1) : shannon2 ps ≤ Real.logb 2 ps.length := by
  have hne : ps ≠ [] := by rintro rfl; simp at hs
  have hn : (0 : ℝ) < ps.length := by exact_mod_cast List.length_pos_of_ne_nil hne
  -- termwise inequality from `log x ≤ x - 1`
  have key : ∀ p ∈ ps, -(p * Real.log p) - p * Real.log ps.length ≤ 1 / ps.length - p := by
    intro p hp
    have hp0 := h p hp
    have h1 : Real.log (1 / (ps.length * p)) ≤ 1 / (ps.length * p) - 1 := Real.log_le_sub_one_of_pos (by positivity)
    rw [one_div, Real.log_inv, Real.log_mul (ne_of_gt hn) (ne_of_gt hp0)] at h1
    have h2 := mul_le_mul_of_nonneg_left h1 hp0.le
    have h3 : p * ((↑ps.length * p)⁻¹ - 1) = 1 / ps.length - p := by field_simp
    rw [h3] at h2
    linarith
  have hsum : ∀ l : List ℝ, (∀ p ∈ l, -(p * Real.log p) - p * Real.log ps.length ≤ 1 / ps.length - p) →
      (l.map fun p => -(p * Real.log p)).sum - l.sum * Real.log ps.length ≤ l.length / ps.length - l.sum := by
    intro l hl
    induction l with
    | nil => simp
    | cons a t ih =>
      have h1 := ih fun p hp => hl p (List.mem_cons_of_mem _ hp)
      have h2 := hl a List.mem_cons_self
      simp only [List.map_cons, List.sum_cons, List.length_cons, Nat.cast_add, Nat.cast_one]
      rw [add_div]
      linarith
  have := hsum ps key
  rw [hs, div_self (ne_of_gt hn)] at this
  have hlog2 : 0 < Real.log 2 := Real.log_pos (by norm_num)
  have he : shannon2 ps = (ps.map fun p => -(p * Real.log p)).sum / Real.log 2 := by
    unfold shannon2
    rw [div_eq_mul_inv, ← List.sum_map_mul_right]
    congr 1
    apply List.map_congr_left
    intro p _
    unfold Real.logb
    ring
  rw [he]
  unfold Real.logb
  exact div_le_div_of_nonneg_right (by linarith) hlog2.le

theorem sum_map_div (w : List ℝ) (c : ℝ) : (w.map fun x => x / c).sum = w.sum / c := by
  simp only [div_eq_mul_inv]
  rw [List.sum_map_mul_right]
  simp

theorem entr_eq (x : ℝ) (hx : 0 ≤ x) : entr x / Real.log 2 = -(x * Real.logb 2 x) := by
  unfold entr Real.logb
  split_ifs with h
  · ring
  · have : x = 0 := le_antisymm (not_lt.mp h) hx
    simp [this]

/-- Zero entries do not contribute. -/
theorem shannon2_filter (ps : List ℝ) : shannon2 ps = shannon2 (ps.filter fun p => decide (p ≠ 0)) := by
  induction ps with
  | nil => rfl
  | cons a t ih =>
    unfold shannon2 at *
    rw [List.filter_cons]
    split_ifs with h
    · rw [List.map_cons, List.map_cons, List.sum_cons, List.sum_cons, ih]
    · have : a = 0 := by simpa using h
      rw [List.map_cons, List.sum_cons, ih, this]
      simp

theorem sum_filter_ne_zero (w : List ℝ) : (w.filter fun p => decide (p ≠ 0)).sum = w.sum := by
  induction w with
  | nil => rfl
  | cons a t ih =>
    rw [List.filter_cons]
    split_ifs with h
    · rw [List.sum_cons, List.sum_cons, ih]
    · have : a = 0 := by simpa using h
      rw [List.sum_cons, ih, this, zero_add]

theorem scipyEntropy2_eq (w : List ℝ) (h : ∀ x ∈ w, 0 ≤ x) (hs : w.sum ≠ 0) : scipyEntropy2 w = some (shannon2 (w.map fun x => x / w.sum)) := by
  have hne : w ≠ [] := by rintro rfl; simp at hs
  unfold scipyEntropy2
  rw [if_neg hne, if_neg hs]
  congr 1
  have hsum : 0 ≤ w.sum := List.sum_nonneg h
  unfold shannon2
  rw [div_eq_mul_inv, ← List.sum_map_mul_right, List.map_map]
  congr 1
  apply List.map_congr_left
  intro x hx
  rw [← div_eq_mul_inv, entr_eq _ (div_nonneg (h x hx) hsum)]
  rfl

theorem sum_eq_zero_iff (w : List ℝ) (h : ∀ x ∈ w, 0 ≤ x) : w.sum = 0 ↔ ∀ x ∈ w, x = 0 := by
  constructor
  · intro hs x hx
    exact le_antisymm (hs ▸ le_sum_of_mem w h x hx) (h x hx)
  · intro hz
    exact List.sum_eq_zero hz

/-- Bounds for the entropy of positive weights divided by their sum. -/
theorem shannon2_bounds (w : List ℝ) (h : ∀ x ∈ w, 0 < x) (hne : w ≠ []) :
    0 ≤ shannon2 (w.map fun x => x / w.sum) ∧ shannon2 (w.map fun x => x / w.sum) ≤ Real.logb 2 w.length := by
  have hpos : 0 < w.sum := by
    obtain ⟨a, t, rfl⟩ := List.exists_cons_of_ne_nil hne
    have h1 := h a List.mem_cons_self
    have h2 := List.sum_nonneg (l := t) fun y hy => (h y (List.mem_cons_of_mem _ hy)).le
    rw [List.sum_cons]
    linarith
  have h' : ∀ p ∈ w.map (fun x => x / w.sum), 0 < p ∧ p ≤ 1 := by
    intro p hp
    rw [List.mem_map] at hp
    obtain ⟨x, hx, rfl⟩ := hp
    exact ⟨div_pos (h x hx) hpos, (div_le_one hpos).mpr (le_sum_of_mem w (fun y hy => (h y hy).le) x hx)⟩
  refine ⟨shannon2_nonneg _ fun p hp => ⟨(h' p hp).1.le, (h' p hp).2⟩, ?_⟩
  have := shannon2_le (w.map fun x => x / w.sum) (fun p hp => (h' p hp).1) (by rw [sum_map_div, div_self (ne_of_gt hpos)])
  simpa using this

end Gtda
