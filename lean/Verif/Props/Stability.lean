import Verif.Props.Matching
import Verif.Props.Features
import Verif.Props.Silhouette
import Mathlib.Analysis.SpecialFunctions.Log.NegMulLog
import Mathlib.Analysis.SpecialFunctions.Pow.Continuity

set_option autoImplicit false
set_option linter.unusedSectionVars false

/-!
# C140: what happens to features of diagrams if the points are moved a little
-/

namespace Gtda.Props
open Gtda.Py Gtda.Parallel Gtda.Diagrams

/-! ### Betti curves -/

section
variable {Q : Type}

/-- The number of points of a grid in a half-open interval. -/
theorem grid_count (lo h : ℝ) (hh : 0 < h) (n : Nat) (a b : ℝ) :
    h * ((List.range n).map fun (i : Nat) => if a ≤ lo + i * h ∧ lo + i * h < b then (1 : ℝ) else 0).sum ≤ |b - a| + h := by
  have key : ∀ n : Nat, (((List.range n).map fun (i : Nat) => if a ≤ lo + i * h ∧ lo + i * h < b then (1 : ℝ) else 0).sum = 0) ∨
      h * ((List.range n).map fun (i : Nat) => if a ≤ lo + i * h ∧ lo + i * h < b then (1 : ℝ) else 0).sum ≤ min (lo + n * h) (b + h) - a := by
    intro n
    induction n with
    | zero => left; simp
    | succ n ih =>
      rw [List.range_succ, List.map_append, List.sum_append]
      simp only [List.map_cons, List.map_nil, List.sum_cons, List.sum_nil, add_zero]
      generalize ((List.range n).map fun (i : Nat) => if a ≤ lo + i * h ∧ lo + i * h < b then (1 : ℝ) else 0).sum = S at *
      have e : (((n + 1 : Nat) : ℝ)) * h = n * h + h := by push_cast; ring
      by_cases hc : a ≤ lo + n * h ∧ lo + n * h < b
      · right
        rw [if_pos hc, mul_add, mul_one, e, min_eq_left (by linarith [hc.2])]
        rcases ih with h0 | h1
        · rw [h0, mul_zero]
          linarith [hc.1]
        · have := min_le_left (lo + n * h) (b + h)
          linarith
      · rw [if_neg hc, add_zero]
        rcases ih with h0 | h1
        · exact .inl h0
        · right
          rw [e]
          refine le_trans h1 ?_
          have : min (lo + n * h) (b + h) ≤ min (lo + (n * h + h)) (b + h) := min_le_min (by linarith) le_rfl
          linarith
  rcases key n with h0 | h1
  · rw [h0, mul_zero]
    positivity
  · have := min_le_right (lo + n * h) (b + h)
    have := le_abs_self (b - a)
    linarith

/-- One if the point is there and alive. -/
noncomputable def here : Option (Pt ℝ Q) → ℝ → ℝ
  | some x, s => if x.b ≤ s ∧ s < x.d then 1 else 0
  | none, _ => 0

theorem here_sub (x y : Option (Pt ℝ Q)) (lo h : ℝ) (hh : 0 < h) (n : Nat) :
    h * ((List.range n).map fun (i : Nat) => |here x (lo + i * h) - here y (lo + i * h)|).sum ≤ 2 * gap x y + 2 * h := by
  have half : ∀ z : Pt ℝ Q, h * ((List.range n).map fun (i : Nat) => |here (some z) (lo + i * h)|).sum ≤ 2 * (|z.d - z.b| / 2) + 2 * h := by
    intro z
    have e : ((List.range n).map fun (i : Nat) => |here (some z) (lo + i * h)|) = (List.range n).map fun (i : Nat) => if z.b ≤ lo + i * h ∧ lo + i * h < z.d then (1 : ℝ) else 0 := by
      apply List.map_congr_left
      intro i _
      simp only [here]
      split_ifs <;> simp [*]
    rw [e]
    have := grid_count lo h hh n z.b z.d
    linarith
  cases x with
  | none =>
    cases y with
    | none => simp [here, gap]; positivity
    | some y => simpa [here, gap] using half y
  | some x =>
    cases y with
    | none => simpa [here, gap] using half x
    | some y =>
      have hb : |x.b - y.b| ≤ gap (some x) (some y) := le_max_left _ _
      have hd : |x.d - y.d| ≤ gap (some x) (some y) := le_max_right _ _
      have hle : ((List.range n).map fun (i : Nat) => |here (some x) (lo + i * h) - here (some y) (lo + i * h)|).sum ≤
          ((List.range n).map fun (i : Nat) => (if min x.b y.b ≤ lo + i * h ∧ lo + i * h < max x.b y.b then (1 : ℝ) else 0) +
            (if min x.d y.d ≤ lo + i * h ∧ lo + i * h < max x.d y.d then (1 : ℝ) else 0)).sum := by
        apply List.sum_le_sum
        intro i _
        generalize lo + (i : ℝ) * h = s
        unfold here
        by_cases c1 : x.b ≤ s <;> by_cases c2 : s < x.d <;> by_cases c3 : y.b ≤ s <;> by_cases c4 : s < y.d <;>
          simp [c1, c2, c3, c4, not_le.1, not_lt.1] <;> (try split_ifs) <;> (try norm_num) <;> (try positivity) <;> simp_all <;> linarith
      rw [List.sum_map_add] at hle
      have g1 := grid_count lo h hh n (min x.b y.b) (max x.b y.b)
      have g2 := grid_count lo h hh n (min x.d y.d) (max x.d y.d)
      rw [abs_of_nonneg (by linarith [min_le_max (a := x.b) (b := y.b)]), max_sub_min_eq_abs'] at g1
      rw [abs_of_nonneg (by linarith [min_le_max (a := x.d) (b := y.d)]), max_sub_min_eq_abs'] at g2
      have := mul_le_mul_of_nonneg_left hle hh.le
      rw [mul_add] at this
      linarith

theorem alive_matching (D : List (Pt ℝ Q)) (s : ℝ) (M : List (Option (Pt ℝ Q) × Option (Pt ℝ Q))) (f : Option (Pt ℝ Q) × Option (Pt ℝ Q) → Option (Pt ℝ Q)) (h : (M.filterMap f).Perm D) :
    (aliveCount s D : ℝ) = (M.map fun m => here (f m) s).sum := by
  have e : ∀ D : List (Pt ℝ Q), (aliveCount s D : ℝ) = (D.map fun x => here (some x) s).sum := by
    intro D
    induction D with
    | nil => simp [aliveCount]
    | cons x D ih =>
      rw [List.map_cons, List.sum_cons, ← ih]
      unfold aliveCount
      simp only [here]
      rw [List.filter_cons]
      by_cases hc : x.b ≤ s ∧ s < x.d
      · simp [hc, add_comm]
      · rw [if_neg hc, if_neg (by simpa using hc), zero_add]
  rw [e, ← (h.map _).sum_eq]
  clear h
  induction M with
  | nil => rfl
  | cons m M ih =>
    rw [List.filterMap_cons, List.map_cons, List.sum_cons, ← ih]
    cases f m with
    | none => simp [here]
    | some x => simp

/-- Betti curves of matched diagrams. -/
theorem betti_matching (D E : List (Pt ℝ Q)) (M : List (Option (Pt ℝ Q) × Option (Pt ℝ Q))) (hM : IsMatching D E M) (lo h : ℝ) (hh : 0 < h) (n : Nat) :
    h * ((List.range n).map fun (i : Nat) => |(aliveCount (lo + i * h) D : ℝ) - aliveCount (lo + i * h) E|).sum ≤ 2 * (M.map fun m => gap m.1 m.2).sum + 2 * h * M.length := by
  have e : ((List.range n).map fun (i : Nat) => |(aliveCount (lo + i * h) D : ℝ) - aliveCount (lo + i * h) E|).sum ≤
      ((List.range n).map fun (i : Nat) => (M.map fun m => |here m.1 (lo + i * h) - here m.2 (lo + i * h)|).sum).sum := by
    apply List.sum_le_sum
    intro i _
    rw [alive_matching D _ M Prod.fst hM.left, alive_matching E _ M Prod.snd hM.right]
    clear hM
    induction M with
    | nil => simp
    | cons m M ih =>
      simp only [List.map_cons, List.sum_cons]
      have := abs_add_le (here m.1 (lo + i * h) - here m.2 (lo + i * h)) ((M.map fun m => here m.1 (lo + i * h)).sum - (M.map fun m => here m.2 (lo + i * h)).sum)
      have e2 : here m.1 (lo + i * h) + (M.map fun m => here m.1 (lo + i * h)).sum - (here m.2 (lo + i * h) + (M.map fun m => here m.2 (lo + i * h)).sum) =
        here m.1 (lo + i * h) - here m.2 (lo + i * h) + ((M.map fun m => here m.1 (lo + i * h)).sum - (M.map fun m => here m.2 (lo + i * h)).sum) := by ring
      rw [e2]
      linarith
  refine le_trans (mul_le_mul_of_nonneg_left e hh.le) ?_
  clear e hM
  induction M with
  | nil => simp
  | cons m M ih =>
    simp only [List.map_cons, List.sum_cons, List.length_cons]
    rw [List.sum_map_add, mul_add]
    have := here_sub m.1 m.2 lo h hh n
    push_cast
    linarith

theorem alive_offDiag (D : List (Pt ℝ Q)) (s : ℝ) : aliveCount s (offDiag D) = aliveCount s D := by
  unfold aliveCount offDiag
  rw [List.filter_filter]
  congr 1
  apply List.filter_congr
  intro x _
  by_cases h1 : x.b ≤ s <;> by_cases h2 : s < x.d <;> simp [h1, h2]
  exact (lt_of_le_of_lt h1 h2).ne

theorem totalPrice_one (M : List (Option (Pt ℝ Q) × Option (Pt ℝ Q))) : totalPrice 1 M = (M.map fun m => gap m.1 m.2).sum := by
  unfold totalPrice
  rw [← pNorm_eq 1 one_pos]
  unfold pNorm
  rw [if_neg ENNReal.one_ne_top]
  simp only [ENNReal.toReal_one, Real.rpow_one, div_one, List.map_map]
  congr 1
  apply List.map_congr_left
  intro m _
  simp [abs_of_nonneg (gap_nonneg m.1 m.2)]

/-- **C140**, `metric="betti"` with `p=1`: on an equally spaced sampling the distance of two diagrams is at most twice their 1-Wasserstein distance, up to two steps of the sampling for each
off-diagonal point of the two diagrams. -/
theorem C140_betti [DecidableEq Q] (engine : List (Pt ℝ Q) → List (Pt ℝ Q) → ℝ) (hengine : WithinError 0 1 engine)
    (dims : List Q) (hd : dims ≠ []) (n : Q → Nat) (sampling : Q → List ℝ) (lo hi step : Q → ℝ)
    (hs : ∀ q ∈ dims, 0 < step q ∧ EquallySpaced (sampling q) (n q) (lo q) (hi q) (step q))
    (nJobs nJobs' : Nat) (hn : 1 ≤ nJobs) (hn' : 1 ≤ nJobs') (X Y : List (List (Pt ℝ Q))) (hX : X ≠ []) (hY : Y ≠ [])
    (eX : ∀ q ∈ dims, EqualCounts X q) (eY : ∀ q ∈ dims, EqualCounts Y q) :
    ∃ A B, vecPairwise (.betti sampling step) 1 dims nJobs X Y = .ok A ∧ matchingPairwise engine dims nJobs' X Y = .ok B ∧
      ∀ (i j k : Nat) D E q, X[i]? = some D → Y[j]? = some E → dims[k]? = some q →
        ∃ a b, entry3 A i j k = some a ∧ entry3 B i j k = some b ∧
          a ≤ 2 * b + 2 * step q * ((offDiag (pointsIn D q)).length + (offDiag (pointsIn E q)).length) := by
  obtain ⟨A, a1, _, _, a2⟩ := vecPairwise_gives (.betti sampling step) 1 one_pos dims hd
    (fun q D => (sampling q).map fun x => (aliveCount x D : ℝ)) (fun q => (sampling q).length)
    (by intro q _; refine ⟨by simp, fun Y => by simp [VecMetric.vecs, bettiVecs, bettiCurves_eq, Function.comp_def]⟩)
    nJobs X Y hn hX hY eX eY (fun _ _ => Set.mem_univ _) (fun _ _ => Set.mem_univ _)
  obtain ⟨B, b1, _, _, b2⟩ := (C98_exact 1 le_rfl engine hengine dims hd).1 nJobs' X Y hn' hX hY eX eY (by simp) (by simp)
  refine ⟨A, B, a1, b1, ?_⟩
  intro i j k D E q h1 h2 h3
  refine ⟨_, _, a2 i j k D E q h1 h2 h3, b2 i j k D E q h1 h2 h3, ?_⟩
  beta_reduce
  obtain ⟨hpos, hsp⟩ := hs q (List.mem_of_getElem? h3)
  generalize pointsIn D q = D'
  generalize pointsIn E q = E'
  rw [factor_eq]
  unfold minkowski stepPower pNorm
  rw [if_neg ENNReal.one_ne_top]
  simp only [div_one, ENNReal.toReal_one, Real.rpow_one, ← List.map_zipWith, List.zipWith_map, List.zipWith_self, List.map_map]
  have e : sampling q = (List.range (n q)).map fun (i : Nat) => lo q + i * step q := by
    apply List.ext_getElem?
    intro i
    by_cases hi' : i < n q
    · rw [equallySpaced_get _ _ _ _ _ hsp i hi']
      simp [hi']
    · rw [List.getElem?_eq_none (by rw [hsp.1]; omega), List.getElem?_eq_none (by simp; omega)]
  rw [e, List.map_map]
  obtain ⟨M, hM, hv⟩ := matchingDistance_attained 1 one_pos (offDiag D') (offDiag E')
  rw [matchingDistance_offDiag 1 le_rfl, ← totalPrice_proper 1 one_pos] at hv
  have hp := isMatching_proper hM
  have hb := betti_matching _ _ _ hp (lo q) (step q) hpos (n q)
  have hl := (proper_spec M).2.2.1
  rw [hM.left.length_eq, hM.right.length_eq] at hl
  rw [← totalPrice_one, ← hv] at hb
  simp only [alive_offDiag] at hb
  have hl' : (((proper M).length : Nat) : ℝ) ≤ (offDiag D').length + (offDiag E').length := by exact_mod_cast hl
  have := mul_le_mul_of_nonneg_left hl' (by linarith : 0 ≤ 2 * step q)
  rw [mul_comm]
  refine le_trans ?_ (le_trans hb (by linarith))
  simp [Function.comp_def]

theorem Moved.mono {ε ε' : ℝ} {D D' : List (Pt ℝ Q)} (h : Moved ε D D') (hle : ε ≤ ε') : Moved ε' D D' := by
  unfold Moved at *
  exact h.imp fun _ _ h => ⟨h.1.trans hle, h.2.1.trans hle, h.2.2⟩

/-- Sums over the points of a diagram change little. -/
theorem sum_close [DecidableEq Q] (g : ℝ × ℝ → ℝ) (hg : Continuous g) (D : List (Pt ℝ Q)) (q : Q) :
    ∀ η : ℝ, 0 < η → ∃ δ : ℝ, 0 < δ ∧ ∀ D', Moved δ D D' →
      |((pointsIn D' q).map fun x => g (x.b, x.d)).sum - ((pointsIn D q).map fun x => g (x.b, x.d)).sum| < η := by
  induction D with
  | nil =>
    intro η hη
    refine ⟨1, one_pos, ?_⟩
    intro D' h
    cases h
    simpa [pointsIn] using hη
  | cons x D ih =>
    intro η hη
    obtain ⟨δ₁, h1, c1⟩ := ih (η / 2) (by linarith)
    obtain ⟨δ₂, h2, c2⟩ := Metric.continuousAt_iff.mp (hg.continuousAt (x := (x.b, x.d))) (η / 2) (by linarith)
    refine ⟨min δ₁ (δ₂ / 2), lt_min h1 (by linarith), ?_⟩
    intro D' h
    cases h with
    | @cons _ y _ E hxy ht =>
      have hs := c1 E (Moved.mono ht (min_le_left _ _))
      obtain ⟨e1, e2, e3⟩ := hxy
      have hδ := min_le_right δ₁ (δ₂ / 2)
      have hy := c2 (x := (y.b, y.d)) (by
        rw [Prod.dist_eq, Real.dist_eq, Real.dist_eq, abs_sub_comm, abs_sub_comm y.d]
        exact max_lt (by linarith) (by linarith))
      rw [Real.dist_eq] at hy
      unfold pointsIn at hs ⊢
      by_cases hq : x.q = q
      · have hq' : y.q = q := e3 ▸ hq
        rw [List.filter_cons_of_pos (by simpa using hq'), List.filter_cons_of_pos (by simpa using hq), List.map_cons, List.map_cons, List.sum_cons, List.sum_cons]
        rw [abs_lt] at *
        constructor <;> linarith [hs.1, hs.2, hy.1, hy.2]
      · have hq' : ¬ y.q = q := e3 ▸ hq
        rw [List.filter_cons_of_neg (by simpa using hq'), List.filter_cons_of_neg (by simpa using hq)]
        linarith

/-- So do continuous functions of two sums. -/
theorem two_sums_close [DecidableEq Q] (g g' : ℝ × ℝ → ℝ) (hg : Continuous g) (hg' : Continuous g') (F : ℝ × ℝ → ℝ) (D : List (Pt ℝ Q)) (q : Q)
    (hF : ContinuousAt F (((pointsIn D q).map fun x => g (x.b, x.d)).sum, ((pointsIn D q).map fun x => g' (x.b, x.d)).sum)) (η : ℝ) (hη : 0 < η) :
    ∃ δ : ℝ, 0 < δ ∧ ∀ D', Moved δ D D' →
      |F (((pointsIn D' q).map fun x => g (x.b, x.d)).sum, ((pointsIn D' q).map fun x => g' (x.b, x.d)).sum) -
        F (((pointsIn D q).map fun x => g (x.b, x.d)).sum, ((pointsIn D q).map fun x => g' (x.b, x.d)).sum)| < η := by
  obtain ⟨θ, h1, c1⟩ := Metric.continuousAt_iff.mp hF η hη
  obtain ⟨δ₁, d1, e1⟩ := sum_close g hg D q θ h1
  obtain ⟨δ₂, d2, e2⟩ := sum_close g' hg' D q θ h1
  refine ⟨min δ₁ δ₂, lt_min d1 d2, ?_⟩
  intro D' h
  have := c1 (x := (((pointsIn D' q).map fun x => g (x.b, x.d)).sum, ((pointsIn D' q).map fun x => g' (x.b, x.d)).sum)) (by
    rw [Prod.dist_eq, Real.dist_eq, Real.dist_eq]
    exact max_lt (e1 D' (h.mono (min_le_left _ _))) (e2 D' (h.mono (min_le_right _ _))))
  rwa [Real.dist_eq] at this

/-- One bound for finitely many things. -/
theorem common_bound {α : Type} (P : ℝ → α → Prop) (hP : ∀ δ δ' x, δ' ≤ δ → P δ x → P δ' x) (l : List α) (h : ∀ x ∈ l, ∃ δ : ℝ, 0 < δ ∧ P δ x) :
    ∃ δ : ℝ, 0 < δ ∧ ∀ x ∈ l, P δ x := by
  induction l with
  | nil => exact ⟨1, one_pos, by simp⟩
  | cons a l ih =>
    obtain ⟨δ₁, h1, c1⟩ := ih fun x hx => h x (List.mem_cons_of_mem _ hx)
    obtain ⟨δ₂, h2, c2⟩ := h a List.mem_cons_self
    refine ⟨min δ₁ δ₂, lt_min h1 h2, ?_⟩
    intro x hx
    rcases List.mem_cons.mp hx with rfl | hx
    · exact hP _ _ _ (min_le_right _ _) c2
    · exact hP _ _ _ (min_le_left _ _) (c1 x hx)

variable [DecidableEq Q]

theorem moved_length {ε : ℝ} {D D' : List (Pt ℝ Q)} (h : Moved ε D D') (q : Q) : (pointsIn D' q).length = (pointsIn D q).length := by
  unfold Moved at h
  induction h with
  | nil => rfl
  | cons hxy _ ih =>
    unfold pointsIn at *
    simp only [List.filter_cons, hxy.2.2]
    split_ifs <;> simp [ih]

theorem equalCounts_moved {ε : ℝ} {X X' : List (List (Pt ℝ Q))} (h : List.Forall₂ (Moved ε) X X') (q : Q) (hE : EqualCounts X q) : EqualCounts X' q := by
  have key : ∀ D' ∈ X', ∃ D ∈ X, Moved ε D D' := by
    intro D' hD'
    obtain ⟨i, hi, rfl⟩ := List.mem_iff_getElem.mp hD'
    have hi' : i < X.length := h.length_eq ▸ hi
    exact ⟨X[i], List.getElem_mem hi', (List.forall₂_iff_get.mp h).2 i hi' hi⟩
  intro D₁ h1 D₂ h2
  obtain ⟨E₁, g1, m1⟩ := key D₁ h1
  obtain ⟨E₂, g2, m2⟩ := key D₂ h2
  rw [moved_length m1, moved_length m2]
  exact hE E₁ g1 E₂ g2

theorem shannon_sums (D : List (Pt ℝ Q)) (q : Q) (hv : ∀ p ∈ D, p.b ≤ p.d) (hne : ¬ TrivialIn D q) :
    shannon2 (relativeLifetimes D q) = (((pointsIn D q).map fun x => Real.negMulLog (x.d - x.b)).sum / ((pointsIn D q).map fun x => x.d - x.b).sum +
      Real.log ((pointsIn D q).map fun x => x.d - x.b).sum) / Real.log 2 ∧ 0 < ((pointsIn D q).map fun x => x.d - x.b).sum := by
  have hpos := lifetimesIn_pos D q hv
  have hl : lifetimesIn D q ≠ [] := fun h => hne ((lifetimesIn_ne_nil D q).mp h)
  have hsum : 0 < (lifetimesIn D q).sum := List.sum_pos _ hpos hl
  rw [lifetimes_sum]
  refine ⟨?_, hsum⟩
  have e : ((pointsIn D q).map fun x => Real.negMulLog (x.d - x.b)).sum = ((lifetimesIn D q).map Real.negMulLog).sum := by
    unfold lifetimesIn offDiag
    rw [List.map_map, sum_filter_zero (pointsIn D q) (fun x => Real.negMulLog (x.d - x.b)) (fun p => decide (p.b ≠ p.d))]
    · rfl
    · intro x _ hx
      have : x.b = x.d := by simpa using hx
      rw [this, sub_self, Real.negMulLog_zero]
  rw [e]
  unfold relativeLifetimes shannon2
  generalize hL : (lifetimesIn D q).sum = L at *
  generalize lifetimesIn D q = l at *
  have key : ∀ l : List ℝ, (∀ x ∈ l, 0 < x) → ((l.map fun x => x / L).map fun p => -(p * Real.logb 2 p)).sum = ((l.map Real.negMulLog).sum / L + l.sum / L * Real.log L) / Real.log 2 := by
    intro l
    induction l with
    | nil => simp
    | cons x l ih =>
      intro h
      have hx := h x List.mem_cons_self
      simp only [List.map_cons, List.sum_cons]
      rw [ih fun y hy => h y (List.mem_cons_of_mem _ hy), Real.logb, Real.log_div hx.ne' hsum.ne']
      unfold Real.negMulLog
      ring
  rw [key l hpos, hL, div_self hsum.ne', one_mul]

/-- **C140**, `PersistenceEntropy`: let every diagram have an off-diagonal point in every dimension. For every tolerance there is a bound, such that whenever the births and deaths are changed by at most that bound,
the entropies change by at most the tolerance. -/
theorem C140_entropy (fill : Option ℝ) (fmax : ℝ) (dims : List Q) (hd : dims ≠ []) (X : List (List (Pt ℝ Q))) (hX : X ≠ []) (hE : ∀ q ∈ dims, EqualCounts X q)
    (hv : ∀ D ∈ X, ∀ p ∈ D, p.b ≤ p.d) (ho : ∀ q ∈ dims, ∀ D ∈ X, ∃ p ∈ D, p.q = q ∧ p.b ≠ p.d) (tolerance : ℝ) (ht : 0 < tolerance) :
    ∃ bound : ℝ, 0 < bound ∧ ∀ (nJobs nJobs' : Nat) X', 1 ≤ nJobs → 1 ≤ nJobs' → List.Forall₂ (Moved bound) X X' → (∀ D ∈ X', ∀ p ∈ D, p.b ≤ p.d) →
      ∃ A A', entropyTransform false fill fmax dims nJobs X = .ok A ∧ entropyTransform false fill fmax dims nJobs' X' = .ok A' ∧
        ∀ i k, i < X.length → k < dims.length →
          ∃ a a' : ℝ, entry2 A i k = some (some (a : EReal)) ∧ entry2 A' i k = some (some (a' : EReal)) ∧ |a - a'| ≤ tolerance := by
  obtain ⟨α, hα, hval⟩ := C37_persistence_entropy fill fmax dims hd
  have hnt : ∀ q ∈ dims, ∀ D ∈ X, ¬ TrivialIn D q := by
    intro q hq D hD h
    obtain ⟨p, hp, h1, h2⟩ := ho q hq D hD
    exact h2 (h p hp h1)
  have one : ∀ z ∈ X ×ˢ dims, ∃ δ : ℝ, 0 < δ ∧ ∀ D', Moved δ z.1 D' → (∀ p ∈ D', p.b ≤ p.d) → ¬ TrivialIn D' z.2 ∧ |shannon2 (relativeLifetimes z.1 z.2) - shannon2 (relativeLifetimes D' z.2)| ≤ tolerance := by
    rintro ⟨D, q⟩ hz
    obtain ⟨hD, hq⟩ := List.pair_mem_product.mp hz
    obtain ⟨e1, hpos⟩ := shannon_sums D q (hv D hD) (hnt q hq D hD)
    have c1 : Continuous fun x : ℝ × ℝ => x.2 - x.1 := by fun_prop
    have c2 : Continuous fun x : ℝ × ℝ => Real.negMulLog (x.2 - x.1) := Real.continuous_negMulLog.comp c1
    obtain ⟨δ₁, d1, h1⟩ := sum_close (fun x : ℝ × ℝ => x.2 - x.1) c1 D q _ hpos
    obtain ⟨δ₂, d2, h2⟩ := two_sums_close (fun x : ℝ × ℝ => Real.negMulLog (x.2 - x.1)) (fun x : ℝ × ℝ => x.2 - x.1) c2 c1 (fun z => (z.1 / z.2 + Real.log z.2) / Real.log 2) D q (by
      apply ContinuousAt.div_const
      apply ContinuousAt.add
      · exact continuousAt_fst.div continuousAt_snd hpos.ne'
      · exact continuousAt_snd.log hpos.ne') tolerance ht
    refine ⟨min δ₁ δ₂, lt_min d1 d2, ?_⟩
    intro D' hm hv'
    have h1 := h1 D' (hm.mono (min_le_left _ _))
    have h2 := h2 D' (hm.mono (min_le_right _ _))
    have hn' : ¬ TrivialIn D' q := by
      intro h
      have : ((pointsIn D' q).map fun x => x.d - x.b).sum = 0 := by
        rw [lifetimes_sum, (lifetimesIn_ne_nil D' q).mpr h, List.sum_nil]
      rw [this, abs_lt] at h1
      linarith [h1.1]
    refine ⟨hn', ?_⟩
    rw [e1, (shannon_sums D' q hv' hn').1, abs_sub_comm]
    exact h2.le
  obtain ⟨δ, hδ, hall⟩ := common_bound (fun δ (z : List (Pt ℝ Q) × Q) => ∀ D', Moved δ z.1 D' → (∀ p ∈ D', p.b ≤ p.d) →
    ¬ TrivialIn D' z.2 ∧ |shannon2 (relativeLifetimes z.1 z.2) - shannon2 (relativeLifetimes D' z.2)| ≤ tolerance)
    (fun δ δ' z hle h D' hm => h D' (hm.mono hle)) (X ×ˢ dims) one
  refine ⟨δ, hδ, ?_⟩
  intro nJobs nJobs' X' hn hn' hm hv'
  have hE' : ∀ q ∈ dims, EqualCounts X' q := fun q hq => equalCounts_moved hm q (hE q hq)
  have hlen := hm.length_eq
  have hX' : X' ≠ [] := by
    rintro rfl
    exact hX (List.length_eq_zero_iff.mp hlen)
  obtain ⟨A, a1, _, _, a2⟩ := hα nJobs X hn hX hE hv
  obtain ⟨A', b1, _, _, b2⟩ := hα nJobs' X' hn' hX' hE' hv'
  refine ⟨A, A', a1, b1, ?_⟩
  intro i k hi hk
  have hi' : i < X'.length := hlen ▸ hi
  have hq := List.getElem_mem hk
  have hD := List.getElem_mem hi
  obtain ⟨g1, g2⟩ := hall (X[i], dims[k]) (List.pair_mem_product.mpr ⟨hD, hq⟩) X'[i] (by exact List.forall₂_iff_get.mp hm |>.2 i hi hi') (hv' _ (List.getElem_mem hi'))
  refine ⟨_, _, ?_, ?_, g2⟩
  · rw [a2 i k _ _ (List.getElem?_eq_getElem hi) (List.getElem?_eq_getElem hk), ((hval _ hq _ (hv _ hD)).1 (hnt _ hq _ hD)).1]
  · rw [b2 i k _ _ (List.getElem?_eq_getElem hi') (List.getElem?_eq_getElem hk), ((hval _ hq _ (hv' _ (List.getElem_mem hi'))).1 g1).1]

/-- **C140**, `Silhouette` with a positive power: let every diagram have an off-diagonal point in every dimension. For every tolerance there is a bound, such that whenever the births and deaths are changed by at most
that bound, the values of the silhouettes change by at most the tolerance. -/
theorem C140_silhouette (power : ℝ) (hp : 0 < power) (dims : List Q) (hd : dims ≠ []) (sampling : Q → List ℝ) (X : List (List (Pt ℝ Q))) (hX : X ≠ []) (hE : ∀ q ∈ dims, EqualCounts X q)
    (hv : ∀ D ∈ X, ∀ p ∈ D, p.b ≤ p.d) (ho : ∀ q ∈ dims, ∀ D ∈ X, ∃ p ∈ D, p.q = q ∧ p.b ≠ p.d) (tolerance : ℝ) (ht : 0 < tolerance) :
    ∃ bound : ℝ, 0 < bound ∧ ∀ (nJobs nJobs' : Nat) X', 1 ≤ nJobs → 1 ≤ nJobs' → List.Forall₂ (Moved bound) X X' → (∀ D ∈ X', ∀ p ∈ D, p.b ≤ p.d) →
      ∃ A A', silhouettePow power dims sampling nJobs X = .ok A ∧ silhouettePow power dims sampling nJobs' X' = .ok A' ∧
        ∀ (i k t : Nat) q s, i < X.length → dims[k]? = some q → (sampling q)[t]? = some s →
          ∃ a a' : ℝ, entry3 A i k t = some (some a) ∧ entry3 A' i k t = some (some a') ∧ |a - a'| ≤ tolerance := by
  have one : ∀ z ∈ X ×ˢ dims, ∃ δ : ℝ, 0 < δ ∧ ∀ D', Moved δ z.1 D' → (∃ p ∈ D', p.q = z.2 ∧ p.b ≠ p.d) ∧
      ∀ s ∈ sampling z.2, |((pointsIn z.1 z.2).map fun p => (p.d - p.b) ^ power * tent p.b p.d s).sum / ((pointsIn z.1 z.2).map fun p => (p.d - p.b) ^ power).sum -
        ((pointsIn D' z.2).map fun p => (p.d - p.b) ^ power * tent p.b p.d s).sum / ((pointsIn D' z.2).map fun p => (p.d - p.b) ^ power).sum| ≤ tolerance := by
    rintro ⟨D, q⟩ hz
    obtain ⟨hD, hq⟩ := List.pair_mem_product.mp hz
    dsimp only
    have hpos : 0 < ((pointsIn D q).map fun p => (p.d - p.b) ^ power).sum := by
      obtain ⟨p, h1, h2, h3⟩ := ho q hq D hD
      exact weights_pos (powLike_rpow power hp) (pointsIn D q) (fun p hp => hv D hD p ((mem_pointsIn D q p).mp hp).1) ⟨p, (mem_pointsIn D q p).mpr ⟨h1, h2⟩, h3⟩
    have c1 : Continuous fun x : ℝ × ℝ => (x.2 - x.1) ^ power := (continuous_snd.sub continuous_fst).rpow_const fun _ => Or.inr hp.le
    obtain ⟨δ₁, d1, h1⟩ := sum_close (fun x : ℝ × ℝ => (x.2 - x.1) ^ power) c1 D q _ hpos
    obtain ⟨δ₂, d2, h2⟩ := common_bound (fun δ s => ∀ D', Moved δ D D' →
        |((pointsIn D q).map fun p => (p.d - p.b) ^ power * tent p.b p.d s).sum / ((pointsIn D q).map fun p => (p.d - p.b) ^ power).sum -
        ((pointsIn D' q).map fun p => (p.d - p.b) ^ power * tent p.b p.d s).sum / ((pointsIn D' q).map fun p => (p.d - p.b) ^ power).sum| ≤ tolerance)
      (fun δ δ' s hle h D' hm => h D' (hm.mono hle)) (sampling q) (by
        intro s _
        have c2 : Continuous fun x : ℝ × ℝ => (x.2 - x.1) ^ power * tent x.1 x.2 s := by
          apply c1.mul
          unfold tent
          fun_prop
        obtain ⟨δ, hδ, h⟩ := two_sums_close _ _ c2 c1 (fun z => z.1 / z.2) D q (continuousAt_fst.div continuousAt_snd hpos.ne') tolerance ht
        refine ⟨δ, hδ, ?_⟩
        intro D' hm
        rw [abs_sub_comm]
        exact (h D' hm).le)
    refine ⟨min δ₁ δ₂, lt_min d1 d2, ?_⟩
    intro D' hm
    refine ⟨?_, fun s hs => h2 s hs D' (hm.mono (min_le_right _ _))⟩
    by_contra hno
    have h1 := h1 D' (hm.mono (min_le_left _ _))
    have : ((pointsIn D' q).map fun x => (x.d - x.b) ^ power).sum = 0 := by
      rw [List.map_congr_left (g := fun _ => (0 : ℝ))]
      · simp
      · intro x hx
        obtain ⟨g1, g2⟩ := (mem_pointsIn D' q x).mp hx
        by_cases e : x.b = x.d
        · rw [e, sub_self, Real.zero_rpow hp.ne']
        · exact absurd ⟨x, g1, g2, e⟩ hno
    dsimp only at h1
    rw [this, abs_lt] at h1
    linarith [h1.1]
  obtain ⟨δ, hδ, hall⟩ := common_bound _ (fun δ δ' z hle h D' hm => h D' (hm.mono hle)) (X ×ˢ dims) one
  refine ⟨δ, hδ, ?_⟩
  intro nJobs nJobs' X' hn hn' hm hv'
  have hE' : ∀ q ∈ dims, EqualCounts X' q := fun q hq => equalCounts_moved hm q (hE q hq)
  have hlen := hm.length_eq
  have hX' : X' ≠ [] := by
    rintro rfl
    exact hX (List.length_eq_zero_iff.mp hlen)
  have near : ∀ i (hi : i < X.length) (hi' : i < X'.length), Moved δ X[i] X'[i] := fun i hi hi' => (List.forall₂_iff_get.mp hm).2 i hi hi'
  have ho' : ∀ q ∈ dims, ∀ D ∈ X', ∃ p ∈ D, p.q = q ∧ p.b ≠ p.d := by
    intro q hq D' hD'
    obtain ⟨i, hi, rfl⟩ := List.mem_iff_getElem.mp hD'
    have hi' : i < X.length := hlen ▸ hi
    exact (hall (X[i], q) (List.pair_mem_product.mpr ⟨List.getElem_mem hi', hq⟩) X'[i] (near i hi' hi)).1
  obtain ⟨A, a1, a2⟩ := C29_weighted_average power hp dims sampling nJobs X hn hd hX hE hv ho
  obtain ⟨A', b1, b2⟩ := C29_weighted_average power hp dims sampling nJobs' X' hn' hd hX' hE' hv' ho'
  refine ⟨A, A', a1, b1, ?_⟩
  intro i k t q s hi hk hs
  have hi' : i < X'.length := hlen ▸ hi
  have hq := List.mem_of_getElem? hk
  obtain ⟨_, v, v1, v2, _⟩ := a2 i k t _ q s (List.getElem?_eq_getElem hi) hk hs
  obtain ⟨_, w, w1, w2, _⟩ := b2 i k t _ q s (List.getElem?_eq_getElem hi') hk hs
  refine ⟨v, w, v1, w1, ?_⟩
  rw [v2, w2]
  exact (hall (X[i], q) (List.pair_mem_product.mpr ⟨List.getElem_mem hi, hq⟩) X'[i] (near i hi hi')).2 s (List.mem_of_getElem? hs)

/-- **C140**, `Amplitude` with `metric="bottleneck"`: if births and deaths change by at most `ε`, the amplitudes change by at most `ε`. -/
theorem C140_amplitude (dims : List Q) (hd : dims ≠ []) (ε : ℝ) (nJobs nJobs' : Nat) (hn : 1 ≤ nJobs) (hn' : 1 ≤ nJobs') (X X' : List (List (Pt ℝ Q))) (hX : X ≠ [])
    (hE : ∀ q ∈ dims, EqualCounts X q) (hv : ∀ D ∈ X, ∀ p ∈ D, p.b ≤ p.d) (hv' : ∀ D ∈ X', ∀ p ∈ D, p.b ≤ p.d) (ho : ∀ q ∈ dims, ∀ D ∈ X, ∃ p ∈ D, p.q = q)
    (hm : List.Forall₂ (Moved ε) X X') :
    ∃ A A', parallelAmplitude (fun _ => bottleneckAmplitudes) dims nJobs X = .ok A ∧ parallelAmplitude (fun _ => bottleneckAmplitudes) dims nJobs' X' = .ok A' ∧
      ∀ i k, i < X.length → k < dims.length → ∃ a a' : ℝ, entry2 A i k = some a ∧ entry2 A' i k = some a' ∧ |a - a'| ≤ ε := by
  obtain ⟨α, hα, hval⟩ := C36_bottleneck (K := ℝ) dims hd
  have hE' : ∀ q ∈ dims, EqualCounts X' q := fun q hq => equalCounts_moved hm q (hE q hq)
  have hlen := hm.length_eq
  have hX' : X' ≠ [] := by
    rintro rfl
    exact hX (List.length_eq_zero_iff.mp hlen)
  have near : ∀ i (hi : i < X.length) (hi' : i < X'.length), Moved ε X[i] X'[i] := fun i hi hi' => (List.forall₂_iff_get.mp hm).2 i hi hi'
  have right : ∀ D D' : List (Pt ℝ Q), Moved ε D D' → ∀ x ∈ D, ∃ y ∈ D', y.q = x.q ∧ (x.d - x.b) - (y.d - y.b) ≤ 2 * ε := by
    intro D D' h x hx
    obtain ⟨i, hi, rfl⟩ := List.mem_iff_getElem.mp hx
    have hi' : i < D'.length := h.length_eq ▸ hi
    obtain ⟨h1, h2, h3⟩ := (List.forall₂_iff_get.mp h).2 i hi hi'
    refine ⟨D'[i], List.getElem_mem hi', h3.symm, ?_⟩
    simp only [List.get_eq_getElem] at h1 h2
    have := (abs_le.mp h1).1
    have := (abs_le.mp h2).2
    linarith
  have left : ∀ D D' : List (Pt ℝ Q), Moved ε D D' → Moved ε D' D := by
    intro D D' h
    unfold Moved at *
    refine h.flip.imp ?_
    rintro x y ⟨h1, h2, h3⟩
    exact ⟨by rwa [abs_sub_comm], by rwa [abs_sub_comm], h3.symm⟩
  have ho' : ∀ q ∈ dims, ∀ D ∈ X', ∃ p ∈ D, p.q = q := by
    intro q hq D' hD'
    obtain ⟨i, hi, rfl⟩ := List.mem_iff_getElem.mp hD'
    have hi' : i < X.length := hlen ▸ hi
    obtain ⟨p, h1, h2⟩ := ho q hq X[i] (List.getElem_mem hi')
    obtain ⟨y, h3, h4, _⟩ := right _ _ (near i hi' hi) p h1
    exact ⟨y, h3, h4.trans h2⟩
  obtain ⟨A, a1, _, _, a2⟩ := hα nJobs X hn hX hE (fun D hD q hq => ho q hq D hD)
  obtain ⟨A', b1, _, _, b2⟩ := hα nJobs' X' hn' hX' hE' (fun D hD q hq => ho' q hq D hD)
  refine ⟨A, A', a1, b1, ?_⟩
  intro i k hi hk
  have hi' : i < X'.length := hlen ▸ hi
  refine ⟨_, _, a2 i k _ _ (List.getElem?_eq_getElem hi) (List.getElem?_eq_getElem hk), b2 i k _ _ (List.getElem?_eq_getElem hi') (List.getElem?_eq_getElem hk), ?_⟩
  have hq := List.getElem_mem hk
  have hD := List.getElem_mem hi
  have hD' := List.getElem_mem hi'
  have g1 := (hval _ hq _ (ho _ hq _ hD)).1 (hv _ hD)
  have g2 := (hval _ hq _ (ho' _ hq _ hD')).1 (hv' _ hD')
  have half : ∀ (D D' : List (Pt ℝ Q)) (q : Q) (a b : ℝ), Moved ε D D' → IsGreatest {x | ∃ p ∈ D, p.q = q ∧ x = p.d - p.b} (2 * a) → IsGreatest {x | ∃ p ∈ D', p.q = q ∧ x = p.d - p.b} (2 * b) → a - b ≤ ε := by
    intro D D' q a b hm h1 h2
    obtain ⟨p, p1, p2, p3⟩ := h1.1
    obtain ⟨y, y1, y2, y3⟩ := right D D' hm p p1
    have := h2.2 ⟨y, y1, y2.trans p2, rfl⟩
    linarith
  rw [abs_le]
  have u1 := half _ _ _ _ _ (near i hi hi') g1 g2
  have u2 := half _ _ _ _ _ (left _ _ (near i hi hi')) g2 g1
  constructor <;> linarith

end

/-! ### What jumps -/

/-- **C140** is false of `metric="betti"` without the term for the sampling, for every order `p`: a point moved as little as one likes across a point of the sampling changes the distance of the Betti curves by one. -/
theorem C140_refuted_betti (p : ENNReal) (hp : 0 < p) (ε : ℝ) (hε : 0 < ε) :
    Moved ε [(⟨0, 1, 0⟩ : Pt ℝ Nat)] [⟨ε, 1, 0⟩] ∧
      ∃ A, vecPairwise (.betti (fun _ => [0, 1]) (fun _ => 1)) p [0] 1 [[(⟨0, 1, 0⟩ : Pt ℝ Nat)]] [[⟨ε, 1, 0⟩]] = .ok A ∧ entry3 A 0 0 0 = some 1 := by
  refine ⟨.cons (by simp [abs_of_pos hε, hε.le]) .nil, ?_⟩
  obtain ⟨A, a1, _, _, a2⟩ := vecPairwise_gives (Q := Nat) (.betti (fun _ => [0, 1]) (fun _ => 1)) p hp [0] (by simp)
    (fun q D => [(0 : ℝ), 1].map fun x => (aliveCount x D : ℝ)) (fun q => 2)
    (by intro q _; refine ⟨by simp, fun Y => by simp [VecMetric.vecs, bettiVecs, bettiCurves_eq, Function.comp_def]⟩)
    1 [[(⟨0, 1, 0⟩ : Pt ℝ Nat)]] [[⟨ε, 1, 0⟩]] le_rfl (by simp) (by simp) (by intro q _ D hD D' hD'; simp_all) (by intro q _ D hD D' hD'; simp_all) (fun _ _ => Set.mem_univ _) (fun _ _ => Set.mem_univ _)
  refine ⟨A, a1, ?_⟩
  rw [a2 0 0 0 _ _ 0 rfl rfl rfl]
  beta_reduce
  have e1 : aliveCount (0 : ℝ) (pointsIn [(⟨0, 1, 0⟩ : Pt ℝ Nat)] 0) = 1 := by simp [aliveCount, pointsIn]
  have e2 : aliveCount (1 : ℝ) (pointsIn [(⟨0, 1, 0⟩ : Pt ℝ Nat)] 0) = 0 := by simp [aliveCount, pointsIn]
  have e3 : aliveCount (0 : ℝ) (pointsIn [(⟨ε, 1, 0⟩ : Pt ℝ Nat)] 0) = 0 := by simp [aliveCount, pointsIn, not_le.mpr hε]
  have e4 : aliveCount (1 : ℝ) (pointsIn [(⟨ε, 1, 0⟩ : Pt ℝ Nat)] 0) = 0 := by simp [aliveCount, pointsIn]
  rw [factor_eq]
  simp only [List.map_cons, List.map_nil, e1, e2, e3, e4, minkowski, stepPower, Real.one_rpow, mul_one, pNorm]
  split_ifs with h
  · simp
  · have : p.toReal ≠ 0 := (ENNReal.toReal_pos hp.ne' h).ne'
    simp [this]

/-- **C140** is false of `NumberOfPoints`: a diagonal point moved as little as one likes is counted. -/
theorem C140_refuted_number (ε : ℝ) (hε : 0 < ε) :
    Moved ε [(⟨0, 0, 0⟩ : Pt ℝ Nat)] [⟨0, ε, 0⟩] ∧
      ∃ A A', numberPointsTransform [0] 1 [[(⟨0, 0, 0⟩ : Pt ℝ Nat)]] = .ok A ∧ numberPointsTransform [0] 1 [[(⟨0, ε, 0⟩ : Pt ℝ Nat)]] = .ok A' ∧ entry2 A 0 0 = some 0 ∧ entry2 A' 0 0 = some 1 := by
  refine ⟨.cons (by simp [abs_of_pos hε, hε.le]) .nil, ?_⟩
  have h := (C38_number_of_points (K := ℝ) (Q := Nat) [0] (by simp)).1
  obtain ⟨A, a1, _, _, a2⟩ := h 1 [[(⟨0, 0, 0⟩ : Pt ℝ Nat)]] le_rfl (by simp) (by intro q _ D hD D' hD'; simp_all) (fun _ _ => Set.mem_univ _)
  obtain ⟨A', b1, _, _, b2⟩ := h 1 [[(⟨0, ε, 0⟩ : Pt ℝ Nat)]] le_rfl (by simp) (by intro q _ D hD D' hD'; simp_all) (fun _ _ => Set.mem_univ _)
  refine ⟨A, A', a1, b1, ?_, ?_⟩
  · rw [a2 0 0 _ 0 rfl rfl]
    simp
  · rw [b2 0 0 _ 0 rfl rfl]
    simp [hε.ne]

/-- **C140** is false of `PersistenceEntropy` if a diagram has only diagonal points: with `nan_fill_value=-1` a diagonal point moved as little as one likes changes the entropy from -1 to 0. -/
theorem C140_refuted_entropy (fmax ε : ℝ) (hε : 0 < ε) :
    Moved ε [(⟨0, 0, 0⟩ : Pt ℝ Nat)] [⟨0, ε, 0⟩] ∧
      ∃ A A', entropyTransform false (some (-1)) fmax [0] 1 [[(⟨0, 0, 0⟩ : Pt ℝ Nat)]] = .ok A ∧ entropyTransform false (some (-1)) fmax [0] 1 [[(⟨0, ε, 0⟩ : Pt ℝ Nat)]] = .ok A' ∧
        entry2 A 0 0 = some (some ((-1 : ℝ) : EReal)) ∧ entry2 A' 0 0 = some (some ((0 : ℝ) : EReal)) := by
  refine ⟨.cons (by simp [abs_of_pos hε, hε.le]) .nil, ?_⟩
  obtain ⟨α, h, hval⟩ := C37_persistence_entropy (Q := Nat) (some (-1)) fmax [0] (by simp)
  obtain ⟨A, a1, _, _, a2⟩ := h 1 [[(⟨0, 0, 0⟩ : Pt ℝ Nat)]] le_rfl (by simp) (by intro q _ D hD D' hD'; simp_all) (by simp)
  obtain ⟨A', b1, _, _, b2⟩ := h 1 [[(⟨0, ε, 0⟩ : Pt ℝ Nat)]] le_rfl (by simp) (by intro q _ D hD D' hD'; simp_all) (by simpa using hε.le)
  refine ⟨A, A', a1, b1, ?_, ?_⟩
  · rw [a2 0 0 _ 0 rfl rfl, (hval 0 (by simp) _ (by simp)).2.1 (by simp [TrivialIn]) (by simp)]
    rfl
  · rw [b2 0 0 _ 0 rfl rfl, ((hval 0 (by simp) _ (by simpa using hε.le)).1 (by simp [TrivialIn, hε.ne])).1]
    have : shannon2 (relativeLifetimes [(⟨0, ε, 0⟩ : Pt ℝ Nat)] 0) = 0 := by
      simp [relativeLifetimes, lifetimesIn, offDiag, pointsIn, hε.ne, hε.ne', shannon2]
    rw [this]

/-! ### Concrete cases -/

/-- Two diagrams with two points each and a point moved by a quarter. -/
example : ∃ A B, vecPairwise (.betti (fun _ => [0, 1 / 2, 1]) (fun _ => 1 / 2)) 1 [0] 1 [[(⟨0, 1, 0⟩ : Pt ℝ Nat)]] [[⟨1 / 4, 1, 0⟩]] = .ok A ∧
    matchingPairwise (matchingDistance 1) [0] 2 [[(⟨0, 1, 0⟩ : Pt ℝ Nat)]] [[⟨1 / 4, 1, 0⟩]] = .ok B ∧
    ∀ (i j k : Nat) D E q, [[(⟨0, 1, 0⟩ : Pt ℝ Nat)]][i]? = some D → [[(⟨1 / 4, 1, 0⟩ : Pt ℝ Nat)]][j]? = some E → [0][k]? = some q →
      ∃ a b, entry3 A i j k = some a ∧ entry3 B i j k = some b ∧ a ≤ 2 * b + 2 * (1 / 2) * ((offDiag (pointsIn D q)).length + (offDiag (pointsIn E q)).length) :=
  C140_betti (matchingDistance 1) (fun D E _ _ => by simp) [0] (by simp) (fun _ => 3) (fun _ => [0, 1 / 2, 1]) (fun _ => 0) (fun _ => 1) (fun _ => 1 / 2)
    (by
      intro q _
      refine ⟨by norm_num, rfl, rfl, rfl, ?_⟩
      intro i x y h1 h2
      match i, h1, h2 with
      | 0, h1, h2 => simp at h1 h2; rw [← h1, ← h2]; norm_num
      | 1, h1, h2 => simp at h1 h2; rw [← h1, ← h2]; norm_num
      | i + 2, h1, h2 => simp at h2)
    1 2 le_rfl (by norm_num) _ _ (by simp) (by simp) (by intro q _ D hD D' hD'; simp_all) (by intro q _ D hD D' hD'; simp_all)

/-- The hypotheses of `C140_entropy` and `C140_silhouette` hold for a diagram with two points, and there are collections as near to it as one likes. -/
example (bound : ℝ) (h : 0 < bound) : (∀ D ∈ [[(⟨0, 1, 0⟩ : Pt ℝ Nat), ⟨1, 3, 0⟩]], ∀ p ∈ D, p.b ≤ p.d) ∧ (∀ q ∈ [0], ∀ D ∈ [[(⟨0, 1, 0⟩ : Pt ℝ Nat), ⟨1, 3, 0⟩]], ∃ p ∈ D, p.q = q ∧ p.b ≠ p.d) ∧
    List.Forall₂ (Moved bound) [[(⟨0, 1, 0⟩ : Pt ℝ Nat), ⟨1, 3, 0⟩]] [[⟨0, 1 + bound, 0⟩, ⟨1, 3, 0⟩]] := by
  refine ⟨by simp, by simp, .cons (.cons (by simp [abs_of_pos h, h.le]) (.cons (by simp [h.le]) .nil)) .nil⟩

end Gtda.Props
