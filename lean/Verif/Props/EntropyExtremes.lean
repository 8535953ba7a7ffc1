import Verif.Props.Features
import Verif.Props.MapperFilters
import Verif.Props.SeriesFeatures

set_option autoImplicit false
set_option linter.unusedSectionVars false

/-!
# C159: when entropies are as small or as large as possible
-/

namespace Gtda.Props.EntropyExtremes
open Gtda Gtda.Props Gtda.Py Gtda.Diagrams Gtda.Series Gtda.Mapper

theorem shannon2_eq_iff (ps : List ℝ) (h : ∀ p ∈ ps, 0 < p) (hs : ps.sum = 1) : shannon2 ps = Real.logb 2 ps.length ↔ ∀ p ∈ ps, p = 1 / ps.length := by
  have hne : ps ≠ [] := by rintro rfl; simp at hs
  have hn : (0 : ℝ) < ps.length := by exact_mod_cast List.length_pos_of_ne_nil hne
  have hlog2 : 0 < Real.log 2 := Real.log_pos (by norm_num)
  generalize hN : (ps.length : ℝ) = n at hn ⊢
  have hg : ∀ p, 0 < p → 0 ≤ 1 / n - p + p * Real.log p + p * Real.log n ∧ (1 / n - p + p * Real.log p + p * Real.log n = 0 ↔ p = 1 / n) := by
    intro p hp
    have hx : 0 < 1 / (n * p) := by positivity
    have e : 1 / n - p + p * Real.log p + p * Real.log n = p * (1 / (n * p) - 1 - Real.log (1 / (n * p))) := by
      rw [one_div (n * p), Real.log_inv, Real.log_mul hn.ne' hp.ne']
      field_simp
      ring
    rw [e]
    constructor
    · exact mul_nonneg hp.le (by linarith [Real.log_le_sub_one_of_pos hx])
    · rw [mul_eq_zero, or_iff_right hp.ne']
      constructor
      · intro h0
        by_contra hc
        have : 1 / (n * p) ≠ 1 := by
          intro h1
          rw [div_eq_one_iff_eq (by positivity)] at h1
          exact hc (by rw [eq_div_iff hn.ne', mul_comm]; exact h1.symm)
        linarith [Real.log_lt_sub_one_of_pos hx this]
      · rintro rfl
        rw [show 1 / (n * (1 / n)) = 1 by field_simp]
        simp
  have hsum : (ps.map fun p => 1 / n - p + p * Real.log p + p * Real.log n).sum = Real.log n - shannon2 ps * Real.log 2 := by
    have gen : ∀ l : List ℝ, (l.map fun p => 1 / n - p + p * Real.log p + p * Real.log n).sum = l.length / n - l.sum + l.sum * Real.log n - shannon2 l * Real.log 2 := by
      intro l
      induction l with
      | nil => simp [shannon2]
      | cons a l ih =>
        have : shannon2 (a :: l) = -(a * Real.logb 2 a) + shannon2 l := by simp [shannon2]
        rw [List.map_cons, List.sum_cons, ih, this, List.sum_cons, List.length_cons, Real.logb]
        push_cast
        field_simp
        ring
    rw [gen ps, hs, hN, div_self hn.ne']
    ring
  have hz := sum_eq_zero_iff (ps.map fun p => 1 / n - p + p * Real.log p + p * Real.log n) (by
    intro x hx
    obtain ⟨p, hp, rfl⟩ := List.mem_map.1 hx
    exact (hg p (h p hp)).1)
  rw [hsum] at hz
  have e1 : shannon2 ps = Real.logb 2 n ↔ Real.log n - shannon2 ps * Real.log 2 = 0 := by
    rw [Real.logb, eq_div_iff hlog2.ne', sub_eq_zero, eq_comm]
  rw [e1, hz]
  constructor
  · intro H p hp
    exact (hg p (h p hp)).2.1 (H _ (List.mem_map_of_mem hp))
  · intro H x hx
    obtain ⟨p, hp, rfl⟩ := List.mem_map.1 hx
    exact (hg p (h p hp)).2.2 (H p hp)

/-- The same for positive weights which are divided by their sum. -/
theorem weights_eq_iff (w : List ℝ) (h : ∀ x ∈ w, 0 < x) (hne : w ≠ []) : shannon2 (w.map fun x => x / w.sum) = Real.logb 2 w.length ↔ ∀ x ∈ w, ∀ y ∈ w, x = y := by
  have hS : 0 < w.sum := List.sum_pos _ h hne
  have hn : (0 : ℝ) < w.length := by exact_mod_cast List.length_pos_of_ne_nil hne
  have := shannon2_eq_iff (w.map fun x => x / w.sum) (by
    intro p hp
    obtain ⟨x, hx, rfl⟩ := List.mem_map.1 hp
    exact div_pos (h x hx) hS) (by rw [sum_map_div, div_self hS.ne'])
  rw [List.length_map] at this
  rw [this]
  constructor
  · intro H x hx y hy
    have h1 := H _ (List.mem_map_of_mem (f := fun x => x / w.sum) hx)
    have h2 := H _ (List.mem_map_of_mem (f := fun x => x / w.sum) hy)
    rw [← h2] at h1
    exact (div_left_inj' hS.ne').1 h1
  · intro H p hp
    obtain ⟨x, hx, rfl⟩ := List.mem_map.1 hp
    have : w = List.replicate w.length x := List.eq_replicate_iff.2 ⟨rfl, fun y hy => H y hy x hx⟩
    have e : w.sum = w.length * x := by
      conv_lhs => rw [this]
      rw [List.sum_replicate, nsmul_eq_mul]
    have hx0 := h x hx
    rw [e]
    field_simp

/-- Dividing one weight into two raises the entropy. -/
theorem split_lt (A B : List ℝ) (x y : ℝ) (hx : 0 < x) (hy : 0 < y) (hA : ∀ a ∈ A, 0 < a) (hB : ∀ b ∈ B, 0 < b) :
    shannon2 ((A ++ (x + y) :: B).map fun z => z / (A ++ (x + y) :: B).sum) < shannon2 ((A ++ x :: y :: B).map fun z => z / (A ++ x :: y :: B).sum) := by
  have e : (A ++ x :: y :: B).sum = (A ++ (x + y) :: B).sum := by simp [add_assoc]
  rw [e]
  have hS : 0 < (A ++ (x + y) :: B).sum := List.sum_pos _ (by
    intro z hz
    rcases List.mem_append.1 hz with hz | hz
    · exact hA z hz
    · rcases List.mem_cons.1 hz with rfl | hz
      · positivity
      · exact hB z hz) (by simp)
  generalize (A ++ (x + y) :: B).sum = S at hS
  unfold shannon2
  simp only [List.map_append, List.map_cons, List.map_map, List.sum_append, List.sum_cons]
  have hlog : ∀ u v : ℝ, 0 < u → 0 < v → u * Real.logb 2 u < u * Real.logb 2 (u + v) := fun u v hu hv =>
    mul_lt_mul_of_pos_left (Real.logb_lt_logb (by norm_num) hu (by linarith)) hu
  have h1 := hlog (x / S) (y / S) (by positivity) (by positivity)
  have h2 := hlog (y / S) (x / S) (by positivity) (by positivity)
  rw [add_comm (y / S)] at h2
  rw [add_div]
  have : (x / S + y / S) * Real.logb 2 (x / S + y / S) = x / S * Real.logb 2 (x / S + y / S) + y / S * Real.logb 2 (x / S + y / S) := by ring
  linarith

theorem two_pos (w : List ℝ) (h : ∀ x ∈ w, 0 < x) (hl : 2 ≤ w.length) : 0 < shannon2 (w.map fun z => z / w.sum) := by
  match w, hl with
  | x :: y :: B, _ =>
    have hx := h x (by simp)
    have hy := h y (by simp)
    have hB : ∀ b ∈ B, 0 < b := fun b hb => h b (by simp [hb])
    have h1 := split_lt [] B x y hx hy (by simp) hB
    have h2 := (shannon2_bounds ((x + y) :: B) (by
      intro z hz
      rcases List.mem_cons.1 hz with rfl | hz
      · positivity
      · exact hB z hz) (by simp)).1
    exact lt_of_le_of_lt h2 h1

section
variable {Q : Type} [DecidableEq Q]

theorem lifetimesIn_append (A B : List (Pt ℝ Q)) (q : Q) : lifetimesIn (A ++ B) q = lifetimesIn A q ++ lifetimesIn B q := by
  simp [lifetimesIn, offDiag, pointsIn]

theorem lifetimesIn_cons (p : Pt ℝ Q) (B : List (Pt ℝ Q)) (q : Q) (hq : p.q = q) (hp : p.b < p.d) : lifetimesIn (p :: B) q = (p.d - p.b) :: lifetimesIn B q := by
  simp [lifetimesIn, offDiag, pointsIn, hq, hp.ne]

/-- **C159.** The outputs of `PersistenceEntropy` (not normalised), for all numbers of jobs and diagrams with an off-diagonal point: zero exactly for one off-diagonal point; the base-2 logarithm of the number of
off-diagonal points exactly if all of them have the same lifetime; if a point is replaced by two points whose lifetimes add up to its lifetime, the entropy grows. -/
theorem C159_persistence (fill : Option ℝ) (fmax : ℝ) (dims : List Q) (hd : dims ≠ []) :
    ∃ α : Q → List (Pt ℝ Q) → Option EReal, GivesAmplitudes (fun nJobs X => entropyTransform false fill fmax dims nJobs X) dims {D | ∀ p ∈ D, p.b ≤ p.d} α ∧
      ∀ q ∈ dims, ∀ D : List (Pt ℝ Q), (∀ p ∈ D, p.b ≤ p.d) → ¬ TrivialIn D q →
        (α q D = some 0 ↔ (offDiag (pointsIn D q)).length = 1) ∧
        (α q D = some ((Real.logb 2 (offDiag (pointsIn D q)).length : ℝ) : EReal) ↔ ∀ p ∈ offDiag (pointsIn D q), ∀ p' ∈ offDiag (pointsIn D q), p.d - p.b = p'.d - p'.b) ∧
        ∀ (A B : List (Pt ℝ Q)) (p p₁ p₂ : Pt ℝ Q), D = A ++ p :: B → p.q = q → p₁.q = q → p₂.q = q → p₁.b < p₁.d → p₂.b < p₂.d → p.d - p.b = (p₁.d - p₁.b) + (p₂.d - p₂.b) →
          ∃ x y : ℝ, α q D = some (x : EReal) ∧ α q (A ++ p₁ :: p₂ :: B) = some (y : EReal) ∧ x < y := by
  obtain ⟨α, hα, h⟩ := C37_persistence_entropy fill fmax dims hd
  refine ⟨α, hα, fun q hq D hD hne => ?_⟩
  obtain ⟨hval, -, -⟩ := (h q hq D hD).1 hne
  have hpos := lifetimesIn_pos D q hD
  have hoff : offDiag (pointsIn D q) ≠ [] := fun e => hne ((trivialIn_offDiag D q).2 e)
  have hlen : (lifetimesIn D q).length = (offDiag (pointsIn D q)).length := by simp [lifetimesIn]
  have hlne : lifetimesIn D q ≠ [] := by
    intro e
    rw [e] at hlen
    exact hoff (List.length_eq_zero_iff.1 hlen.symm)
  refine ⟨?_, ?_, ?_⟩
  · rw [hval, Option.some.injEq, EReal.coe_eq_zero]
    constructor
    · intro h0
      have h1 : 0 < (offDiag (pointsIn D q)).length := List.length_pos_of_ne_nil hoff
      by_contra hc
      have : 0 < shannon2 (relativeLifetimes D q) := two_pos (lifetimesIn D q) hpos (by omega)
      linarith
    · intro h1
      obtain ⟨x, hx⟩ := List.length_eq_one_iff.1 (hlen.trans h1)
      have hx0 : x ≠ 0 := (hpos x (by rw [hx]; simp)).ne'
      unfold relativeLifetimes
      rw [hx]
      simp [shannon2, hx0]
  · rw [hval, Option.some.injEq, EReal.coe_eq_coe_iff, ← hlen]
    have := weights_eq_iff (lifetimesIn D q) hpos hlne
    unfold relativeLifetimes
    rw [this]
    unfold lifetimesIn
    simp only [List.mem_map, forall_exists_index, and_imp, forall_apply_eq_imp_iff₂]
  · intro A B p p₁ p₂ e hq0 hq1 hq2 h1 h2 hadd
    subst e
    have hp : p.b < p.d := by linarith
    have hvA : ∀ a ∈ A, a.b ≤ a.d := fun a ha => hD a (List.mem_append_left _ ha)
    have hvB : ∀ a ∈ B, a.b ≤ a.d := fun a ha => hD a (List.mem_append_right _ (List.mem_cons_of_mem _ ha))
    have hD' : ∀ a ∈ A ++ p₁ :: p₂ :: B, a.b ≤ a.d := by
      intro a ha
      rcases List.mem_append.1 ha with ha | ha
      · exact hvA a ha
      · rcases List.mem_cons.1 ha with rfl | ha
        · exact h1.le
        · rcases List.mem_cons.1 ha with rfl | ha
          · exact h2.le
          · exact hvB a ha
    have hne' : ¬ TrivialIn (A ++ p₁ :: p₂ :: B) q := fun ht => h1.ne (ht p₁ (by simp) hq1)
    obtain ⟨hval', -, -⟩ := (h q hq _ hD').1 hne'
    refine ⟨_, _, hval, hval', ?_⟩
    unfold relativeLifetimes
    rw [lifetimesIn_append, lifetimesIn_cons p B q hq0 hp, lifetimesIn_append, lifetimesIn_cons p₁ _ q hq1 h1, lifetimesIn_cons p₂ _ q hq2 h2, hadd]
    exact split_lt _ _ _ _ (sub_pos.2 h1) (sub_pos.2 h2) (lifetimesIn_pos A q hvA) (lifetimesIn_pos B q hvB)

end

/-- **C159.** The outputs of `PermutationEntropy`: the base-2 logarithm of the number of rows exactly if no two rows have the same order pattern. -/
theorem C159_permutation {K : Type} [LinearOrder K] (nJobs : Nat) (hn : 1 ≤ nJobs) (X : List (List (List K))) (hne : ∀ x ∈ X, x ≠ []) :
    ∃ (pattern : List K → List Nat) (H : List (List K) → ℝ), (∀ row, OrdersRow row (pattern row)) ∧ permutationEntropyTransform nJobs X = X.map (fun x => [some (H x)]) ∧
      ∀ x ∈ X, H x = Real.logb 2 x.length ↔ (x.map pattern).Nodup := by
  obtain ⟨pattern, hp, ht⟩ := C12_permutation_entropy nJobs hn X hne
  refine ⟨pattern, fun x => shannon2 (frequencies (x.map pattern)), hp, ht, fun x hx => ?_⟩
  show shannon2 (frequencies (x.map pattern)) = _ ↔ _
  have hl : x.map pattern ≠ [] := by simpa using hne x hx
  have hfm := frequencies_mem (x.map pattern) hl
  have hfs := frequencies_sum (x.map pattern) hl
  rw [show (x.length : ℝ) = ((x.map pattern).length : ℝ) by simp]
  generalize x.map pattern = l at *
  have hpos : 0 < l.length := List.length_pos_of_ne_nil hl
  have hfl : (frequencies l).length = l.dedup.length := by simp [frequencies]
  constructor
  · intro he
    by_contra hd
    have hlt : l.dedup.length < l.length := by
      refine lt_of_le_of_ne (List.dedup_sublist l).length_le fun e => hd ?_
      have := (List.dedup_sublist l).eq_of_length e
      rw [← this]
      exact List.nodup_dedup l
    have hd0 : 0 < l.dedup.length := List.length_pos_of_ne_nil (by simpa [List.dedup_eq_nil] using hl)
    have h1 := shannon2_le (frequencies l) (fun p h => (hfm p h).1) hfs
    rw [hfl] at h1
    have h2 : Real.logb 2 (l.dedup.length : ℝ) < Real.logb 2 (l.length : ℝ) := Real.logb_lt_logb (by norm_num) (by exact_mod_cast hd0) (by exact_mod_cast hlt)
    linarith
  · intro hd
    have hdd : l.dedup = l := List.dedup_eq_self.2 hd
    have := (shannon2_eq_iff (frequencies l) (fun p h => (hfm p h).1) hfs).2 (by
      intro p hp
      rw [hfl, hdd]
      unfold frequencies at hp
      obtain ⟨a, ha, rfl⟩ := List.mem_map.1 hp
      rw [hdd] at ha
      rw [List.count_eq_one_of_mem hd ha]
      simp)
    rw [this, hfl, hdd]

/-- **C159.** The outputs of the Mapper filter `Entropy`: the base-2 logarithm of the number of non-zero entries of the row exactly if these have the same absolute value. -/
theorem C159_mapper (X : List (List ℝ)) (hX : ∀ r ∈ X, ∃ x ∈ r, x ≠ 0) :
    ∃ H : List ℝ → ℝ, entropyFilter X = X.map (fun r => [some (H r)]) ∧
      ∀ r ∈ X, H r = Real.logb 2 (r.countP fun x => decide (x ≠ 0)) ↔ ∀ x ∈ r, ∀ y ∈ r, x ≠ 0 → y ≠ 0 → |x| = |y| := by
  obtain ⟨H, hH, h⟩ := C52_entropy X (by rintro r hr rfl; obtain ⟨x, hx, -⟩ := hX _ hr; simp at hx)
  refine ⟨fun r => shannon2 (probabilities r), ?_, fun r hr => ?_⟩
  · rw [hH]
    apply List.map_congr_left
    intro r hr
    rw [((h r hr).2 (hX r hr)).1]
  · obtain ⟨x0, hx0, hne⟩ := hX r hr
    have hfl : shannon2 (probabilities r) = shannon2 (probabilities (r.filter fun x => decide (x ≠ 0))) := by
      rw [shannon2_filter]
      rcases probabilities_filter r with h | h
      · rw [h]
      · exact absurd (h x0 hx0) hne
    have hw := weights_eq_iff ((r.filter fun x => decide (x ≠ 0)).map fun x => |x|) (by
      intro y hy
      obtain ⟨z, hz, rfl⟩ := List.mem_map.1 hy
      have := (List.mem_filter.1 hz).2
      exact abs_pos.2 (by simpa using this)) (by
      intro e
      have : x0 ∈ r.filter fun x => decide (x ≠ 0) := List.mem_filter.2 ⟨hx0, by simpa using hne⟩
      rw [List.map_eq_nil_iff.1 e] at this
      simp at this)
    rw [List.length_map, ← List.countP_eq_length_filter, List.map_map] at hw
    show shannon2 (probabilities r) = _ ↔ _
    rw [hfl]
    unfold probabilities
    refine Iff.trans hw ?_
    simp only [List.mem_map, List.mem_filter, decide_eq_true_eq]
    constructor
    · intro H x hx y hy h1 h2
      exact H _ ⟨x, ⟨hx, h1⟩, rfl⟩ _ ⟨y, ⟨hy, h2⟩, rfl⟩
    · rintro H _ ⟨x, ⟨hx, h1⟩, rfl⟩ _ ⟨y, ⟨hy, h2⟩, rfl⟩
      exact H x hx y hy h1 h2

/-- Non-vacuity: a diagram with two features of the same lifetime and one with a single feature; rows with different patterns; a row with entries of the same absolute value. -/
example : let D : List (Pt ℝ Nat) := [⟨0, 4, 0⟩, ⟨1, 5, 0⟩, ⟨1, 1, 0⟩]
    (∀ p ∈ D, p.b ≤ p.d) ∧ ¬ TrivialIn D 0 ∧ offDiag (pointsIn D 0) = [⟨0, 4, 0⟩, ⟨1, 5, 0⟩] ∧ (∀ r ∈ [[1, -1, (0 : ℝ)]], ∃ x ∈ r, x ≠ 0) ∧
      permutationEntropyTransform 1 [[[(1 : ℚ), 2], [2, 1]]] = [[some 1]] := by
  intro D
  refine ⟨by simp [D], fun h => ?_, ?_, by simp, ?_⟩
  · have := h ⟨0, 4, 0⟩ (by simp [D]) rfl
    norm_num at this
  · norm_num [offDiag, pointsIn, D]
  · obtain ⟨pattern, H, hp, ht, hx⟩ := C159_permutation 1 le_rfl [[[(1 : ℚ), 2], [2, 1]]] (by simp)
    have e := (hx [[1, 2], [2, 1]] (by simp)).2 (by
      have h1 : pattern [(1 : ℚ), 2] = argsort [(1 : ℚ), 2] := C12_pattern_unique _ _ _ (hp _) (argsort_orders _)
      have h2 : pattern [(2 : ℚ), 1] = argsort [(2 : ℚ), 1] := C12_pattern_unique _ _ _ (hp _) (argsort_orders _)
      rw [List.map_cons, List.map_cons, h1, h2, List.map_nil]
      decide +kernel)
    rw [ht, List.map_cons, e]
    simp

end Gtda.Props.EntropyExtremes
