import Verif.Props.DiagramMetrics
import Verif.Props.FeatureObject
import Verif.Lemmas.Matching

set_option autoImplicit false
set_option linter.unusedSectionVars false

/-!
# C147: how different features of the same diagrams are related
-/

namespace Gtda.Props.Agreement
open Gtda.Py Gtda.Diagrams Gtda.Spec.Vectorizers

/-! ### Grids are determined by the training data -/

section
variable {K Q : Type} [Field K] [LinearOrder K] [IsStrictOrderedRing K] [LinearOrder Q]

theorem dims_unique {d d' : List Q} {X : List (List (Pt K Q))} (h : DimsOfFirst d X) (h' : DimsOfFirst d' X) : d = d' := by
  have hp : d.Perm d' := (List.perm_ext_iff_of_nodup (h.1.imp fun h => ne_of_lt h) (h'.1.imp fun h => ne_of_lt h)).mpr fun q => (h.2 q).trans (h'.2 q).symm
  exact hp.eq_of_pairwise (fun a b _ _ h1 h2 => absurd (h1.trans h2) (lt_irrefl _)) h.1 h'.1

theorem spaced_get {s : List K} {n : Nat} {lo last step : K} (h : EquallySpaced s n lo last step) (i : Nat) (hi : i < n) : s[i]? = some (lo + i * step) := by
  induction i with
  | zero => rw [h.2.1]; simp
  | succ i ih =>
    have h1 := ih (by omega)
    have h2 : i + 1 < s.length := by rw [h.1]; exact hi
    rw [List.getElem?_eq_getElem h2]
    have := h.2.2.2 i _ _ h1 (List.getElem?_eq_getElem h2)
    congr 1
    push_cast
    linarith

theorem grid_unique {X : List (List (Pt K Q))} {dims : List Q} {q : Q} {n : Nat} (hn : 2 ≤ n) {s s' : List K} {step step' : K} (h : Grid X dims q n s step) (h' : Grid X dims q n s' step') :
    s = s' ∧ step = step' := by
  obtain ⟨lo, hi, last, a1, a2, a3, -, a5, a6⟩ := h
  obtain ⟨lo', hi', last', b1, b2, b3, -, b5, b6⟩ := h'
  obtain rfl := a1.unique b1
  obtain rfl := a2.unique b2
  have hl : last = last' := by
    by_cases e : lo = hi
    · exact (a6 e).unique (b6 e)
    · rw [a5 e, b5 e]
  subst hl
  have e1 := spaced_get a3 (n - 1) (by omega)
  have e2 := spaced_get b3 (n - 1) (by omega)
  rw [a3.2.2.1, Option.some.injEq] at e1
  rw [b3.2.2.1, Option.some.injEq] at e2
  have hpos : (0 : K) < ((n - 1 : Nat) : K) := by
    rw [Nat.cast_pos]
    omega
  have hs : step = step' := by
    apply mul_left_cancel₀ (ne_of_gt hpos)
    linarith
  subst hs
  refine ⟨?_, rfl⟩
  apply List.ext_getElem?
  intro i
  by_cases hi : i < n
  · rw [spaced_get a3 i hi, spaced_get b3 i hi]
  · rw [List.getElem?_eq_none (by rw [a3.1]; omega), List.getElem?_eq_none (by rw [b3.1]; omega)]

end

/-! ### Tent functions -/

section
variable {K Q : Type} [Field K] [LinearOrder K] [IsStrictOrderedRing K] [DecidableEq Q]

theorem tent_pos {b d x : K} : 0 < tent b d x ↔ b < x ∧ x < d := by
  unfold tent
  rw [lt_max_iff, lt_min_iff, sub_pos, sub_pos]
  simp

theorem tent_nonneg (b d x : K) : 0 ≤ tent b d x := le_max_left _ _

theorem tent_le (b d x : K) (h : b ≤ d) : 2 * tent b d x ≤ d - b := by
  unfold tent
  rcases le_total (0 : K) (min (x - b) (d - x)) with h0 | h0
  · rw [max_eq_right h0]
    have h1 := min_le_left (x - b) (d - x)
    have h2 := min_le_right (x - b) (d - x)
    linarith
  · rw [max_eq_left h0]
    linarith

theorem tents_pos_count (D : List (Pt K Q)) (q : Q) (x : K) :
    (tents D q x).countP (fun y => decide (0 < y)) = D.countP fun p => decide (p.q = q ∧ p.b < x ∧ x < p.d) := by
  unfold tents pointsIn
  rw [List.countP_map, List.countP_filter]
  apply List.countP_congr
  intro p _
  simp only [Function.comp_apply, Bool.and_eq_true, decide_eq_true_eq, tent_pos]
  tauto

theorem tents_nonneg (D : List (Pt K Q)) (q : Q) (x : K) : ∀ y ∈ tents D q x, 0 ≤ y := by
  intro y hy
  unfold tents at hy
  rw [List.mem_map] at hy
  obtain ⟨p, -, rfl⟩ := hy
  exact tent_nonneg _ _ _

theorem nth_pos {l : List K} {k : Nat} {v : K} (hl : ∀ y ∈ l, 0 ≤ y) (h : IsNthLargest l k v) : 0 < v ↔ k < l.countP fun y => decide (0 < y) := by
  constructor
  · intro hv
    refine lt_of_lt_of_le h.2.2 (List.countP_mono_left ?_)
    intro y _ hy
    rw [decide_eq_true_eq] at hy ⊢
    exact hv.trans_le hy
  · intro hk
    by_contra hv
    have e : v = 0 := le_antisymm (not_lt.mp hv) (hl v h.1)
    subst e
    exact absurd h.2.1 (not_le.mpr hk)

/-- The value of a layer of a landscape is positive if and only if enough intervals contain the sampled value in their interior. -/
theorem layer_pos (D : List (Pt K Q)) (q : Q) (x : K) (k : Nat) (v : K) (h1 : k < (pointsIn D q).length → IsNthLargest (tents D q x) k v) (h2 : (pointsIn D q).length ≤ k → v = 0) :
    0 ≤ v ∧ (0 < v ↔ k < D.countP fun p => decide (p.q = q ∧ p.b < x ∧ x < p.d)) := by
  rw [← tents_pos_count]
  by_cases hk : k < (pointsIn D q).length
  · exact ⟨tents_nonneg D q x v (h1 hk).1, nth_pos (tents_nonneg D q x) (h1 hk)⟩
  · rw [h2 (not_lt.mp hk)]
    refine ⟨le_rfl, ?_⟩
    have h3 : (tents D q x).countP (fun y => decide (0 < y)) ≤ (pointsIn D q).length := by
      refine List.countP_le_length.trans ?_
      simp [tents]
    constructor
    · intro h
      exact absurd h (lt_irrefl _)
    · intro h
      omega

/-- Intervals which contain `x`, by whether they begin there. -/
theorem alive_split (D : List (Pt K Q)) (q : Q) (x : K) :
    aliveAt D q x = (D.countP fun p => decide (p.q = q ∧ p.b < x ∧ x < p.d)) + D.countP fun p => decide (p.q = q ∧ p.b = x ∧ x < p.d) := by
  unfold aliveAt
  induction D with
  | nil => rfl
  | cons p D ih =>
    simp only [List.countP_cons, ih, decide_eq_true_eq]
    by_cases hq : p.q = q
    · by_cases hd : x < p.d
      · rcases lt_trichotomy p.b x with h | h | h
        · simp [hq, hd, h, h.le, h.ne]; omega
        · simp [hq, hd, h]; omega
        · simp [hq, hd, not_le.mpr h, not_lt.mpr h.le, h.ne']
      · simp [hd]
    · simp [hq]

theorem alive_le (D : List (Pt K Q)) (q : Q) (x : K) : aliveAt D q x ≤ D.countP fun p => decide (p.q = q ∧ p.b ≠ p.d) := by
  unfold aliveAt
  apply List.countP_mono_left
  intro p _ h
  simp only [decide_eq_true_eq] at h ⊢
  exact ⟨h.1, ne_of_lt (h.2.1.trans_lt h.2.2)⟩

/-- The first layer is the largest tent function. -/
theorem first_layer (D : List (Pt K Q)) (q : Q) (x v : K) (h : IsNthLargest (tents D q x) 0 v) :
    (∃ p ∈ pointsIn D q, v = tent p.b p.d x) ∧ ∀ p ∈ pointsIn D q, tent p.b p.d x ≤ v := by
  constructor
  · have := h.1
    unfold tents at this
    rw [List.mem_map] at this
    obtain ⟨p, hp, e⟩ := this
    exact ⟨p, hp, e.symm⟩
  · intro p hp
    by_contra hc
    have := (List.countP_eq_zero.mp (Nat.le_zero.mp h.2.1)) (tent p.b p.d x) (by unfold tents; exact List.mem_map_of_mem hp)
    simp only [decide_eq_true_eq] at this
    exact this (not_le.mp hc)

/-- Averages with non-negative weights. -/
theorem average_le {α : Type} (l : List α) (w f : α → K) (v : K) (hw : ∀ a ∈ l, 0 ≤ w a) (hf : ∀ a ∈ l, f a ≤ v) :
    (l.map fun a => w a * f a).sum ≤ v * (l.map w).sum := by
  induction l with
  | nil => simp
  | cons a l ih =>
    simp only [List.map_cons, List.sum_cons]
    have h1 := ih (fun b hb => hw b (List.mem_cons_of_mem _ hb)) (fun b hb => hf b (List.mem_cons_of_mem _ hb))
    have h2 := mul_le_mul_of_nonneg_left (hf a List.mem_cons_self) (hw a List.mem_cons_self)
    linarith [mul_add v (w a) (l.map w).sum, mul_comm v (w a)]

end

section

/-- The norm of finite order as a sum. -/
theorem lpNorm_finite (p : ENNReal) (hp : 0 < p) (ht : p ≠ ⊤) (v : List ℝ) : lpNorm p v = ((v.map fun x => |x| ^ p.toReal).sum) ^ (1 / p.toReal) := by
  rw [← pNorm_eq p hp]
  unfold pNorm
  rw [if_neg ht]

theorem sum_pow_nonneg (v : List ℝ) (r : ℝ) : 0 ≤ (v.map fun x => |x| ^ r).sum := by
  apply List.sum_nonneg
  intro y hy
  rw [List.mem_map] at hy
  obtain ⟨x, -, rfl⟩ := hy
  positivity

theorem lpNorm_pow (p : ENNReal) (hp : 0 < p) (ht : p ≠ ⊤) (v : List ℝ) : lpNorm p v ^ p.toReal = (v.map fun x => |x| ^ p.toReal).sum := by
  have hpos : 0 < p.toReal := ENNReal.toReal_pos (ne_of_gt hp) ht
  rw [lpNorm_finite p hp ht, ← Real.rpow_mul (sum_pow_nonneg _ _), one_div, inv_mul_cancel₀ (ne_of_gt hpos), Real.rpow_one]

/-- The norm of order `p` is at most the largest entry times the number of non-zero entries to the power `1 / p`. -/
theorem lpNorm_le_count (p : ENNReal) (hp : 0 < p) (ht : p ≠ ⊤) (v : List ℝ) (b : ℝ) (hb : 0 ≤ b) (h : ∀ x ∈ v, |x| ≤ b) :
    lpNorm p v ≤ ((v.countP fun x => decide (x ≠ 0) : Nat) : ℝ) ^ (1 / p.toReal) * b := by
  have hpos : 0 < p.toReal := ENNReal.toReal_pos (ne_of_gt hp) ht
  have key : ∀ v : List ℝ, (∀ x ∈ v, |x| ≤ b) → (v.map fun x => |x| ^ p.toReal).sum ≤ ((v.countP fun x => decide (x ≠ 0) : Nat) : ℝ) * b ^ p.toReal := by
    intro v h
    induction v with
    | nil => simp
    | cons x v ih =>
      have h1 := ih fun y hy => h y (List.mem_cons_of_mem _ hy)
      rw [List.map_cons, List.sum_cons, List.countP_cons]
      by_cases hx : x = 0
      · subst hx
        simpa [Real.zero_rpow (ne_of_gt hpos)] using h1
      · have h2 := Real.rpow_le_rpow (abs_nonneg x) (h x List.mem_cons_self) hpos.le
        simp only [hx, ne_eq, not_false_eq_true, decide_true, if_true]
        push_cast
        simp only [ne_eq] at h1
        linarith
  rw [lpNorm_finite p hp ht]
  calc _ ≤ (((v.countP fun x => decide (x ≠ 0) : Nat) : ℝ) * b ^ p.toReal) ^ (1 / p.toReal) := Real.rpow_le_rpow (sum_pow_nonneg _ _) (key v h) (by positivity)
    _ = _ := by
      rw [Real.mul_rpow (Nat.cast_nonneg _) (Real.rpow_nonneg hb _), ← Real.rpow_mul hb, mul_one_div_cancel (ne_of_gt hpos), Real.rpow_one]

/-- The norm of order `p` decreases if `p` grows. -/
theorem lpNorm_antitone (p p' : ENNReal) (hp : 0 < p) (hpp : p ≤ p') (ht : p' ≠ ⊤) (v : List ℝ) : lpNorm p' v ≤ lpNorm p v := by
  have ht0 : p ≠ ⊤ := ne_top_of_le_ne_top ht hpp
  have hp' : 0 < p' := hp.trans_le hpp
  have hpos : 0 < p.toReal := ENNReal.toReal_pos (ne_of_gt hp) ht0
  have hpos' : 0 < p'.toReal := ENNReal.toReal_pos (ne_of_gt hp') ht
  have hle : p.toReal ≤ p'.toReal := (ENNReal.toReal_le_toReal ht0 ht).mpr hpp
  have hN := lpNorm_nonneg p v
  have key : (v.map fun x => |x| ^ p'.toReal).sum ≤ (v.map fun x => |x| ^ p.toReal).sum * lpNorm p v ^ (p'.toReal - p.toReal) := by
    rw [← List.sum_map_mul_right]
    apply List.sum_le_sum
    intro x hx
    rcases eq_or_lt_of_le (abs_nonneg x) with h0 | h0
    · rw [← h0, Real.zero_rpow (ne_of_gt hpos'), Real.zero_rpow (ne_of_gt hpos), zero_mul]
    · have e : |x| ^ p'.toReal = |x| ^ p.toReal * |x| ^ (p'.toReal - p.toReal) := by
        rw [← Real.rpow_add h0]
        congr 1
        ring
      rw [e]
      exact mul_le_mul_of_nonneg_left (Real.rpow_le_rpow h0.le (mem_le_lpNorm p hp v x hx) (by linarith)) (Real.rpow_nonneg h0.le _)
  rw [← lpNorm_pow p hp ht0] at key
  rcases eq_or_lt_of_le hN with h0 | h0
  · rw [← h0, Real.zero_rpow (ne_of_gt hpos), zero_mul, ← lpNorm_pow p' hp' ht] at key
    have h1 : lpNorm p' v ^ p'.toReal = 0 := le_antisymm key (Real.rpow_nonneg (lpNorm_nonneg _ _) _)
    rw [Real.rpow_eq_zero (lpNorm_nonneg _ _) (ne_of_gt hpos')] at h1
    rw [h1, ← h0]
  · rw [← Real.rpow_add h0, ← lpNorm_pow p' hp' ht, add_sub_cancel] at key
    exact (Real.rpow_le_rpow_iff (lpNorm_nonneg _ _) hN hpos').mp key

/-- The norm of infinite order is at most `b` if all entries are. -/
theorem lpNorm_top_le (v : List ℝ) (b : ℝ) (hb : 0 ≤ b) (h : ∀ x ∈ v, |x| ≤ b) : lpNorm ⊤ v ≤ b := by
  rw [← pNorm_eq ⊤ (by simp)]
  unfold pNorm
  rw [if_pos rfl, foldl_max_iSup]
  refine ⟨hb, ?_⟩
  intro y hy
  rw [List.mem_map] at hy
  obtain ⟨x, hx, rfl⟩ := hy
  exact h x hx

end

end Gtda.Props.Agreement

namespace Gtda.Props
open Gtda.Py Gtda.Parallel Gtda.Diagrams Gtda.Spec.Vectorizers Gtda.Props.Agreement

section
open Gtda.Vectorizers
variable {K Q : Type} [Field K] [LinearOrder K] [IsStrictOrderedRing K] [FloorRing K] [LinearOrder Q]

/-- **C147**, Betti curves and landscapes: fitted on the same collection, with the same number of bins, `BettiCurve` and `PersistenceLandscape` sample the same values, and layer `k + 1` of the landscape is
positive at a sampled value if and only if the Betti curve there, not counting the intervals that begin exactly there, is larger than `k`. -/
theorem C147_betti_landscape (E : Engine K) (eB eL : Est K Q) (X : List (List (Pt K Q))) (hb : 2 ≤ eB.params.nBins) (hs : eL.params.nBins = eB.params.nBins) (hl : 1 ≤ eL.params.nLayers) (hT : Training X)
    (dims : List Q) (hd : DimsOfFirst dims X) (X' : List (List (Pt K Q))) (hX' : Valid X') (hE : ∀ q ∈ dims, EqualCounts X' q) (nJobs nJobs' : Nat) (hn : 1 ≤ nJobs) (hn' : 1 ≤ nJobs') :
    ∃ (s : Q → List K) (B : List (List (List Nat))) (L : List (List (List K))), (∀ q ∈ dims, ∃ step, Grid X dims q eB.params.nBins (s q) step) ∧ transform E .betti nJobs X' (fit .betti X eB).1 = .ok (.counts B) ∧
      transform E .landscape nJobs' X' (fit .landscape X eL).1 = .ok (.layers L) ∧
      ∀ (i j k t : Nat) D q x, X'[i]? = some D → dims[j]? = some q → k < eL.params.nLayers → (s q)[t]? = some x →
        ∃ c v, entry3 B i j t = some c ∧ entry3 L i (j * eL.params.nLayers + k) t = some v ∧ 0 ≤ v ∧
          (0 < v ↔ k + (D.countP fun p => decide (p.q = q ∧ p.b = x ∧ x < p.d)) < c) := by
  obtain ⟨-, d1, s1, h1, g1, r1⟩ := C113_betti E eB X hb hT
  obtain ⟨-, d2, s2, h2, g2, r2⟩ := C113_landscape E eL X (by rw [hs]; exact hb) hl hT
  obtain rfl := dims_unique hd h1
  obtain rfl := dims_unique hd h2
  obtain ⟨B, b1, -, b3⟩ := r1 nJobs hn X' hX' hE
  obtain ⟨L, l1, -, -, l4⟩ := r2 nJobs' hn' X' hX' hE
  refine ⟨s1, B, L, g1, b1, l1, ?_⟩
  intro i j k t D q x hi hj hk ht
  have hq := List.mem_of_getElem? hj
  obtain ⟨st1, G1⟩ := g1 q hq
  obtain ⟨st2, G2⟩ := g2 q hq
  rw [hs] at G2
  have es := (grid_unique hb G1 G2).1
  obtain ⟨v, v1, v2, v3⟩ := l4 i j k t D q x hi hj hk (by rw [← es]; exact ht)
  obtain ⟨w1, w2⟩ := layer_pos D q x k v v2 v3
  refine ⟨_, v, b3 i j t D q x hi hj ht, v1, w1, w2.trans ?_⟩
  rw [alive_split]
  omega

omit [FloorRing K] in
/-- The largest values of a list of non-negative numbers add up to the sum of the list, if there are as many of them as there are positive numbers. -/
theorem Agreement.sum_nth (l : List K) (n : Nat) (v : Nat → K) (h : ∀ k, k < n → (k < l.length → IsNthLargest l k (v k)) ∧ (l.length ≤ k → v k = 0)) (h0 : ∀ x ∈ l, 0 ≤ x)
    (hn : l.countP (fun x => decide (0 < x)) ≤ n) : ((List.range n).map v).sum = l.sum := by
  have hval : ∀ k, k < n → v k = ((sortDown l)[k]?).getD 0 := by
    intro k hk
    by_cases hkl : k < l.length
    · have e := List.getElem?_eq_getElem (l := sortDown l) (i := k) (by rw [sortDown_length]; exact hkl)
      have h1 := (h k hk).1 hkl
      have h2 := nth_isNth l k _ e
      have hf : List.Forall₂ (fun x x' : K => x ≤ x' + 0) l l := List.forall₂_same.2 fun x _ => by simp
      have a1 := isNth_le hf h1 h2
      have a2 := isNth_le hf h2 h1
      rw [e]
      simp only [Option.getD_some]
      linarith
    · rw [(h k hk).2 (not_lt.1 hkl), List.getElem?_eq_none (by rw [sortDown_length]; omega)]
      rfl
  have hmap : (List.range n).map v = (List.range n).map fun k => ((sortDown l)[k]?).getD 0 := List.map_congr_left fun k hk => hval k (List.mem_range.1 hk)
  rw [hmap, ← (sortDown_perm l).sum_eq]
  have hS : ∀ (S : List K) (n : Nat), (∀ (k : Nat) x, S[k]? = some x → n ≤ k → x = 0) → ((List.range n).map fun k => (S[k]?).getD 0).sum = S.sum := by
    intro S
    induction S with
    | nil => intro n _; simp
    | cons a S ih =>
      intro n hz
      cases n with
      | zero =>
        have ha := hz 0 a rfl (le_refl _)
        have hs := ih 0 fun k x hk _ => hz (k + 1) x hk (by omega)
        simp only [List.range_zero, List.map_nil, List.sum_nil] at hs ⊢
        rw [List.sum_cons, ha, ← hs, add_zero]
      | succ n =>
        rw [List.range_succ_eq_map, List.map_cons, List.map_map, List.sum_cons, List.sum_cons, ← ih n fun k x hk hnk => hz (k + 1) x hk (by omega)]
        rfl
  apply hS
  intro k x hk hnk
  have hx : x ∈ l := (sortDown_perm l).mem_iff.1 (List.mem_of_getElem? hk)
  rcases (h0 x hx).eq_or_lt with e | hpos
  · exact e.symm
  · exfalso
    have h1 := (nth_isNth l k x hk).2.2
    have h2 : l.countP (fun y => decide (x ≤ y)) ≤ l.countP fun y => decide (0 < y) := by
      apply List.countP_mono_left
      intro y _ hy
      rw [decide_eq_true_eq] at hy ⊢
      exact lt_of_lt_of_le hpos hy
    omega

/-- **C147**, all layers: with at least as many layers as `NumberOfPoints`, the layers of `PersistenceLandscape` add up, at every bin, to the sum of the tent functions of the diagram. -/
theorem C147_layer_sum (E : Engine K) (e : Est K Q) (X : List (List (Pt K Q))) (hb : 2 ≤ e.params.nBins) (hl : 1 ≤ e.params.nLayers) (hT : Training X)
    (dims : List Q) (hd : DimsOfFirst dims X) (X' : List (List (Pt K Q))) (hX' : Valid X') (hE : ∀ q ∈ dims, EqualCounts X' q) (nJobs : Nat) (hn : 1 ≤ nJobs) :
    ∃ (s : Q → List K) (L : List (List (List K))) (N : List (List Nat)), (∀ q ∈ dims, ∃ step, Grid X dims q e.params.nBins (s q) step) ∧ transform E .landscape nJobs X' (fit .landscape X e).1 = .ok (.layers L) ∧
      FeatureObject.transform FeatureObject.pointsCls (FeatureObject.run FeatureObject.pointsCls ⟨(), none⟩ [.fit X]) nJobs X' = .ok N ∧
      ∀ (i j : Nat) D q, X'[i]? = some D → dims[j]? = some q → ∃ n, entry2 N i j = some n ∧
        (n ≤ e.params.nLayers → ∀ (t : Nat) x, (s q)[t]? = some x → ∃ v : Nat → K, (∀ k, k < e.params.nLayers → entry3 L i (j * e.params.nLayers + k) t = some (v k)) ∧
          ((List.range e.params.nLayers).map v).sum = (tents D q x).sum) := by
  obtain ⟨-, d2, s, h2, g2, r2⟩ := C113_landscape E e X hb hl hT
  obtain rfl := dims_unique hd h2
  obtain ⟨L, l1, -, -, l4⟩ := r2 nJobs hn X' hX' hE
  have hp := C124_points (K := K) (Q := Q) [.fit X] nJobs hn X'
  have ha : (Spec.FeatureObject.after (P := Unit) (fun _ X => Valid X) ((), none) [.fit X]).2 = some ((), X) := by
    simp only [Spec.FeatureObject.after]
    rw [if_pos hT.1]
  rw [ha] at hp
  obtain ⟨d3, h3, r3⟩ := hp
  obtain rfl := dims_unique hd h3
  have h0 : ∃ D, X[0]? = some D ∧ D ≠ [] := by
    have hne : 0 < X.length := List.length_pos_of_ne_nil hT.1.1
    exact ⟨X[0], List.getElem?_eq_getElem hne, (hT.2 _ (List.getElem?_eq_getElem hne)).1⟩
  obtain ⟨N, n1, -, -, n4⟩ := r3 h0 hX' hE
  refine ⟨s, L, N, g2, l1, n1, ?_⟩
  intro i j D q hi hj
  refine ⟨_, n4 i j D q hi hj, ?_⟩
  intro hle t x ht
  have hv : ∀ k, ∃ v : K, k < e.params.nLayers → entry3 L i (j * e.params.nLayers + k) t = some v ∧ (k < (pointsIn D q).length → IsNthLargest (tents D q x) k v) ∧ ((pointsIn D q).length ≤ k → v = 0) := by
    intro k
    by_cases hk : k < e.params.nLayers
    · obtain ⟨v, hv⟩ := l4 i j k t D q x hi hj hk ht
      exact ⟨v, fun _ => hv⟩
    · exact ⟨0, fun h => absurd h hk⟩
  choose v hv using hv
  refine ⟨v, fun k hk => (hv k hk).1, ?_⟩
  have hlen : (tents D q x).length = (pointsIn D q).length := by simp [tents]
  apply Agreement.sum_nth
  · intro k hk
    rw [hlen]
    exact (hv k hk).2
  · intro y hy
    unfold tents at hy
    obtain ⟨p, -, rfl⟩ := List.mem_map.1 hy
    exact tent_nonneg _ _ _
  · rw [tents_pos_count]
    refine le_trans (List.countP_mono_left ?_) hle
    intro p _ hp
    rw [decide_eq_true_eq] at hp ⊢
    exact ⟨hp.1, ne_of_lt (lt_trans hp.2.1 hp.2.2)⟩

/-- **C147**, numbers of points: `NumberOfPoints` bounds the Betti curve, and is a bound on the number of layers of the landscape that are not zero. -/
theorem C147_number_of_points (E : Engine K) (eB eL : Est K Q) (X : List (List (Pt K Q))) (hb : 2 ≤ eB.params.nBins) (hb' : 2 ≤ eL.params.nBins) (hl : 1 ≤ eL.params.nLayers) (hT : Training X)
    (dims : List Q) (hd : DimsOfFirst dims X) (X' : List (List (Pt K Q))) (hX' : Valid X') (hE : ∀ q ∈ dims, EqualCounts X' q) (nJobs : Nat) (hn : 1 ≤ nJobs) :
    ∃ B L N, transform E .betti nJobs X' (fit .betti X eB).1 = .ok (.counts B) ∧ transform E .landscape nJobs X' (fit .landscape X eL).1 = .ok (.layers L) ∧
      FeatureObject.transform FeatureObject.pointsCls (FeatureObject.run FeatureObject.pointsCls ⟨(), none⟩ [.fit X]) nJobs X' = .ok N ∧
      ∀ (i j : Nat), i < X'.length → j < dims.length → ∃ n, entry2 N i j = some n ∧
        (∀ t, t < eB.params.nBins → ∃ c, entry3 B i j t = some c ∧ c ≤ n) ∧
        ∀ k t, k < eL.params.nLayers → t < eL.params.nBins → n ≤ k → entry3 L i (j * eL.params.nLayers + k) t = some 0 := by
  obtain ⟨-, d1, s1, h1, g1, r1⟩ := C113_betti E eB X hb hT
  obtain ⟨-, d2, s2, h2, g2, r2⟩ := C113_landscape E eL X hb' hl hT
  obtain rfl := dims_unique hd h1
  obtain rfl := dims_unique hd h2
  obtain ⟨B, b1, -, b3⟩ := r1 nJobs hn X' hX' hE
  obtain ⟨L, l1, -, -, l4⟩ := r2 nJobs hn X' hX' hE
  have hp := C124_points (K := K) (Q := Q) [.fit X] nJobs hn X'
  have ha : (Spec.FeatureObject.after (P := Unit) (fun _ X => Valid X) ((), none) [.fit X]).2 = some ((), X) := by
    simp only [Spec.FeatureObject.after]
    rw [if_pos hT.1]
  rw [ha] at hp
  obtain ⟨d3, h3, r3⟩ := hp
  obtain rfl := dims_unique hd h3
  have h0 : ∃ D, X[0]? = some D ∧ D ≠ [] := by
    have hne : 0 < X.length := List.length_pos_of_ne_nil hT.1.1
    exact ⟨X[0], List.getElem?_eq_getElem hne, (hT.2 _ (List.getElem?_eq_getElem hne)).1⟩
  obtain ⟨N, n1, -, -, n4⟩ := r3 h0 hX' hE
  refine ⟨B, L, N, b1, l1, n1, ?_⟩
  intro i j hi hj
  have ei := List.getElem?_eq_getElem hi
  have ej := List.getElem?_eq_getElem hj
  have hq := List.mem_of_getElem? ej
  refine ⟨_, n4 i j _ _ ei ej, ?_, ?_⟩
  · intro t ht
    obtain ⟨st, G⟩ := g1 _ hq
    have hlen := grid_length G
    have et := List.getElem?_eq_getElem (l := s1 dims[j]) (i := t) (by rw [hlen]; exact ht)
    exact ⟨_, b3 i j t _ _ _ ei ej et, alive_le _ _ _⟩
  · intro k t hk ht hnk
    obtain ⟨st, G⟩ := g2 _ hq
    have hlen := grid_length G
    have et := List.getElem?_eq_getElem (l := s2 dims[j]) (i := t) (by rw [hlen]; exact ht)
    obtain ⟨v, v1, v2, v3⟩ := l4 i j k t _ _ _ ei ej hk et
    obtain ⟨w1, w2⟩ := layer_pos _ _ _ k v v2 v3
    rw [v1]
    congr 1
    refine le_antisymm (not_lt.mp fun hv => ?_) w1
    have := alive_le X'[i] dims[j] ((s2 dims[j])[t]'(by rw [hlen]; exact ht))
    have h4 := w2.mp hv
    rw [alive_split] at this
    omega

end

section
open Gtda.Vectorizers
variable {Q : Type} [LinearOrder Q]

/-- **C147**, silhouettes and landscapes: with the same number of bins, the silhouette is between zero and the first layer of the landscape, and zero exactly where that is zero. -/
theorem C147_silhouette_landscape (E : Engine ℝ) (hpow : ∀ x p : ℝ, E.pow x p = x ^ p) (eS eL : Est ℝ Q) (X : List (List (Pt ℝ Q))) (hb : 2 ≤ eS.params.nBins) (hp : 0 < eS.params.power)
    (hs : eL.params.nBins = eS.params.nBins) (hl : 1 ≤ eL.params.nLayers) (hT : Training X) (dims : List Q) (hd : DimsOfFirst dims X) (X' : List (List (Pt ℝ Q))) (hX' : Valid X')
    (hE : ∀ q ∈ dims, EqualCounts X' q) (ho : ∀ q ∈ dims, ∀ D ∈ X', ∃ p ∈ D, p.q = q ∧ p.b ≠ p.d) (nJobs nJobs' : Nat) (hn : 1 ≤ nJobs) (hn' : 1 ≤ nJobs') :
    ∃ S L, transform E .silhouette nJobs X' (fit .silhouette X eS).1 = .ok (.curves S) ∧ transform E .landscape nJobs' X' (fit .landscape X eL).1 = .ok (.layers L) ∧
      ∀ (i j t : Nat), i < X'.length → j < dims.length → t < eS.params.nBins →
        ∃ w v, entry3 S i j t = some (some w) ∧ entry3 L i (j * eL.params.nLayers) t = some v ∧ 0 ≤ w ∧ w ≤ v ∧ (w = 0 ↔ v = 0) := by
  obtain ⟨-, d1, s1, h1, g1, r1⟩ := C113_silhouette E hpow eS X hb hp hT
  obtain ⟨-, d2, s2, h2, g2, r2⟩ := C113_landscape E eL X (by rw [hs]; exact hb) hl hT
  obtain rfl := dims_unique hd h1
  obtain rfl := dims_unique hd h2
  obtain ⟨S, b1, b3⟩ := r1 nJobs hn X' hX' hE ho
  obtain ⟨L, l1, -, -, l4⟩ := r2 nJobs' hn' X' hX' hE
  refine ⟨S, L, b1, l1, ?_⟩
  intro i j t hi hj ht
  have ei := List.getElem?_eq_getElem hi
  have ej := List.getElem?_eq_getElem hj
  have hq := List.mem_of_getElem? ej
  obtain ⟨st1, G1⟩ := g1 _ hq
  obtain ⟨st2, G2⟩ := g2 _ hq
  rw [hs] at G2
  have es := (grid_unique hb G1 G2).1
  have hlen := grid_length G1
  have et := List.getElem?_eq_getElem (l := s1 dims[j]) (i := t) (by rw [hlen]; exact ht)
  generalize (s1 dims[j])[t]'(by rw [hlen]; exact ht) = x at et
  obtain ⟨v, v1, v2, -⟩ := l4 i j 0 t _ _ x ei ej hl (by rw [← es]; exact et)
  obtain ⟨hw, w, w1, w2⟩ := b3 i j t _ _ x ei ej et
  have hle : ∀ p ∈ pointsIn X'[i] dims[j], p.b ≤ p.d := fun p hp => hX'.2.2 _ (List.mem_of_getElem? ei) p (List.mem_of_mem_filter hp)
  have hwt : ∀ p ∈ pointsIn X'[i] dims[j], 0 ≤ (p.d - p.b) ^ eS.params.power := fun p hp => Real.rpow_nonneg (sub_nonneg.mpr (hle p hp)) _
  obtain ⟨p0, hp0, hq0, -⟩ := ho _ hq _ (List.mem_of_getElem? ei)
  have hmem : p0 ∈ pointsIn X'[i] dims[j] := List.mem_filter.mpr ⟨hp0, by simpa using hq0⟩
  obtain ⟨⟨p, hpm, hpv⟩, hmax⟩ := first_layer _ _ _ _ (v2 (List.length_pos_of_mem hmem))
  have hnn : ∀ y ∈ (pointsIn X'[i] dims[j]).map fun p => (p.d - p.b) ^ eS.params.power * tent p.b p.d x, 0 ≤ y := by
    intro y hy
    rw [List.mem_map] at hy
    obtain ⟨r, hr, rfl⟩ := hy
    exact mul_nonneg (hwt r hr) (tent_nonneg _ _ _)
  have hw0 : 0 ≤ w := by
    rw [w2]
    exact div_nonneg (List.sum_nonneg hnn) hw.le
  have hwv : w ≤ v := by
    rw [w2, div_le_iff₀ hw]
    exact average_le _ _ _ _ hwt hmax
  refine ⟨w, v, w1, v1, hw0, hwv, ?_, ?_⟩
  · intro h
    rw [w2, div_eq_zero_iff, or_iff_left (ne_of_gt hw)] at h
    by_contra hv
    have hv0 : 0 < v := lt_of_le_of_ne (hpv ▸ tent_nonneg _ _ _) (Ne.symm hv)
    have hpos : 0 < (p.d - p.b) ^ eS.params.power * tent p.b p.d x := by
      rw [hpv, tent_pos] at hv0
      apply mul_pos
      · apply Real.rpow_pos_of_pos
        linarith [hv0.1, hv0.2]
      · rw [tent_pos]
        exact hv0
    have := List.single_le_sum hnn _ (List.mem_map_of_mem (f := fun p => (p.d - p.b) ^ eS.params.power * tent p.b p.d x) hpm)
    linarith
  · intro h
    rw [h] at hwv
    exact le_antisymm hwv hw0

end

section
open Gtda.DiagramMetrics Gtda.Spec.DiagramMetrics Gtda.Props.DiagramMetrics
open Gtda.Props.Vectorizers (observedDims_spec)
variable {Q : Type} [LinearOrder Q]

/-- `p` is finite for the metric `wasserstein`. -/
theorem Agreement.p_finite (c : Cls) (P : Params ℝ) (h : ValidParams c P .wasserstein) : pOf P ≠ ⊤ := by
  unfold pOf
  cases hm : P.mp with
  | none => simp
  | some m =>
    dsimp only
    rcases hp : m.p with _ | _ | x
    · simp
    · exact absurd rfl (h.p_inf m hm hp)
    · exact ENNReal.ofReal_ne_top

theorem Agreement.first_nonempty {K : Type} [LE K] {X : List (List (Pt K Q))} (hT : Training X) : ∃ D, X[0]? = some D ∧ D ≠ [] := by
  have hne : 0 < X.length := List.length_pos_of_ne_nil hT.1.1
  exact ⟨X[0], List.getElem?_eq_getElem hne, (hT.2 _ (List.getElem?_eq_getElem hne)).1⟩

/-- The output of `NumberOfPoints` fitted on a training collection. -/
theorem Agreement.points_eq {K : Type} [Field K] [LinearOrder K] [IsStrictOrderedRing K] (X : List (List (Pt K Q))) (hT : Training X) (dims : List Q) (hd : DimsOfFirst dims X) (X' : List (List (Pt K Q)))
    (hX' : Valid X') (hE : ∀ q ∈ dims, EqualCounts X' q) (nJobs : Nat) (hn : 1 ≤ nJobs) :
    ∃ N, FeatureObject.transform FeatureObject.pointsCls (FeatureObject.run FeatureObject.pointsCls ⟨(), none⟩ [.fit X]) nJobs X' = .ok N ∧
      ∀ (i k : Nat) D q, X'[i]? = some D → dims[k]? = some q → entry2 N i k = some (D.countP fun p => decide (p.q = q ∧ p.b ≠ p.d)) := by
  have hp := C124_points (K := K) (Q := Q) [.fit X] nJobs hn X'
  have ha : (Spec.FeatureObject.after (P := Unit) (fun _ X => Valid X) ((), none) [.fit X]).2 = some ((), X) := by
    simp only [Spec.FeatureObject.after]
    rw [if_pos hT.1]
  rw [ha] at hp
  obtain ⟨d3, h3, r3⟩ := hp
  obtain rfl := dims_unique hd h3
  obtain ⟨N, n1, -, -, n4⟩ := r3 (Agreement.first_nonempty hT) hX' hE
  exact ⟨N, n1, n4⟩

/-- **C147**, amplitudes of diagrams: the `wasserstein` amplitude is at least the `bottleneck` amplitude, and at most that times the `1 / p`-th power of `NumberOfPoints`. -/
theorem C147_wasserstein_bottleneck (E : Engine ℝ Q) (hE : RealEngine E) (eW eB : Est ℝ Q) (hW : ValidParams .amplitude eW.params .wasserstein) (hB : ValidParams .amplitude eB.params .bottleneck)
    (hoW : eW.params.order = none) (hoB : eB.params.order = none) (X : List (List (Pt ℝ Q))) (hT : Training X) (dims : List Q) (hd : DimsOfFirst dims X) (X' : List (List (Pt ℝ Q))) (hX' : Valid X')
    (hC : ∀ q ∈ dims, EqualCounts X' q) (hx : ∀ D ∈ X', ∀ q ∈ dims, ∃ x ∈ D, x.q = q) (nJobs : Nat) (hn : 1 ≤ nJobs) :
    ∃ (A B : List (List ℝ)) (N : List (List Nat)), transformAmplitude E nJobs X' (fit .amplitude X eW).1 = .ok (A.map fun r => r.map some) ∧
      transformAmplitude E nJobs X' (fit .amplitude X eB).1 = .ok (B.map fun r => r.map some) ∧
      FeatureObject.transform FeatureObject.pointsCls (FeatureObject.run FeatureObject.pointsCls ⟨(), none⟩ [.fit X]) nJobs X' = .ok N ∧
      ∀ (i j : Nat), i < X'.length → j < dims.length → ∃ a b n, entry2 A i j = some a ∧ entry2 B i j = some b ∧ entry2 N i j = some n ∧
        b ≤ a ∧ a ≤ (n : ℝ) ^ (1 / (pOf eW.params).toReal) * b := by
  obtain ⟨-, d1, h1, r1⟩ := C114_wasserstein_amplitude E hE eW hW X hT
  obtain ⟨-, d2, h2, r2⟩ := C114_bottleneck_amplitude E eB hB hoB X hT
  obtain rfl := dims_unique hd h1
  obtain rfl := dims_unique hd h2
  obtain ⟨A, a1, -, a3⟩ := r1 nJobs hn X' hX' hC
  obtain ⟨B, b1, -, b3⟩ := r2 nJobs hn X' hX' hC hx
  obtain ⟨N, n1, n4⟩ := Agreement.points_eq X hT dims hd X' hX' hC nJobs hn
  rw [hoW] at a1
  refine ⟨A, B, N, a1, b1, n1, ?_⟩
  intro i j hi hj
  have ei := List.getElem?_eq_getElem hi
  have ej := List.getElem?_eq_getElem hj
  have hD := List.mem_of_getElem? ei
  obtain ⟨b, b4, b5⟩ := b3 i j _ _ ei ej
  refine ⟨_, b, _, a3 i j _ _ ei ej, b4, n4 i j _ _ ei ej, ?_, ?_⟩
  · obtain ⟨x, hx1, hx2, hx3⟩ := b5.1
    have hp0 : 0 < pOf eW.params := lt_of_lt_of_le one_pos (pOf_one_le _ _ _ hW)
    have := mem_le_lpNorm (pOf eW.params) hp0 ((X'[i].filter fun x => x.q = dims[j]).map fun x => (x.d - x.b) / 2) ((x.d - x.b) / 2)
      (List.mem_map_of_mem (f := fun x : Pt ℝ Q => (x.d - x.b) / 2) (List.mem_filter.mpr ⟨hx1, by simpa using hx2⟩))
    refine le_trans ?_ this
    refine le_trans ?_ (le_abs_self _)
    linarith
  · have hp0 : 0 < pOf eW.params := lt_of_lt_of_le one_pos (pOf_one_le _ _ _ hW)
    have hb0 : 0 ≤ b := by
      obtain ⟨x, hx1, hx2, hx3⟩ := b5.1
      have := hX'.2.2 _ hD x hx1
      linarith
    have := lpNorm_le_count (pOf eW.params) hp0 (Agreement.p_finite _ _ hW) ((X'[i].filter fun x => x.q = dims[j]).map fun x => (x.d - x.b) / 2) b hb0 ?_
    · refine this.trans (le_of_eq ?_)
      congr 3
      rw [List.countP_map, List.countP_filter]
      apply List.countP_congr
      intro x _
      simp only [Function.comp_apply, Bool.and_eq_true, decide_eq_true_eq, ne_eq, div_eq_zero_iff, sub_eq_zero, OfNat.ofNat_ne_zero, or_false]
      rw [and_comm, eq_comm (a := x.d)]
    · intro y hy
      rw [List.mem_map] at hy
      obtain ⟨x, hx1, rfl⟩ := hy
      rw [List.mem_filter, decide_eq_true_eq] at hx1
      have h0 := hX'.2.2 _ hD x hx1.1
      have h1 := b5.2 ⟨x, hx1.1, hx1.2, rfl⟩
      rw [abs_of_nonneg (by linarith)]
      linarith

/-- **C147**, orders of `wasserstein` amplitudes: they decrease if `p` grows. -/
theorem C147_wasserstein_order (E : Engine ℝ Q) (hE : RealEngine E) (e e' : Est ℝ Q) (hP : ValidParams .amplitude e.params .wasserstein) (hP' : ValidParams .amplitude e'.params .wasserstein)
    (hp : pOf e.params ≤ pOf e'.params) (X : List (List (Pt ℝ Q))) (hT : Training X) (dims : List Q) (hd : DimsOfFirst dims X) (X' : List (List (Pt ℝ Q))) (hX' : Valid X')
    (hC : ∀ q ∈ dims, EqualCounts X' q) (nJobs : Nat) (hn : 1 ≤ nJobs) :
    ∃ A A' : List (List ℝ), transformAmplitude E nJobs X' (fit .amplitude X e).1 = .ok (amplitudeResult e.params.order A) ∧
      transformAmplitude E nJobs X' (fit .amplitude X e').1 = .ok (amplitudeResult e'.params.order A') ∧
      ∀ (i j : Nat), i < X'.length → j < dims.length → ∃ a a', entry2 A i j = some a ∧ entry2 A' i j = some a' ∧ a' ≤ a := by
  obtain ⟨-, d1, h1, r1⟩ := C114_wasserstein_amplitude E hE e hP X hT
  obtain ⟨-, d2, h2, r2⟩ := C114_wasserstein_amplitude E hE e' hP' X hT
  obtain rfl := dims_unique hd h1
  obtain rfl := dims_unique hd h2
  obtain ⟨A, a1, -, a3⟩ := r1 nJobs hn X' hX' hC
  obtain ⟨B, b1, -, b3⟩ := r2 nJobs hn X' hX' hC
  refine ⟨A, B, a1, b1, ?_⟩
  intro i j hi hj
  have ei := List.getElem?_eq_getElem hi
  have ej := List.getElem?_eq_getElem hj
  exact ⟨_, _, a3 i j _ _ ei ej, b3 i j _ _ ei ej, lpNorm_antitone _ _ (lt_of_lt_of_le one_pos (pOf_one_le _ _ _ hP)) hp (Agreement.p_finite _ _ hP') _⟩

/-! ### Amplitudes of curves -/

theorem Agreement.layer_le (D : List (Pt ℝ Q)) (k : Nat) (x b : ℝ) (hb : 0 ≤ b) (h : ∀ p ∈ D, tent p.b p.d x ≤ b) : |layerAt D k x| ≤ b := by
  rw [abs_of_nonneg (layerAt_nonneg D k x)]
  by_cases hk : k < D.length
  · have := (layerAt_isNth D k x hk).1
    rw [List.mem_map] at this
    obtain ⟨p, hp, e⟩ := this
    rw [← e, fiber_eq]
    exact h p hp
  · rw [layerAt_beyond D k x (not_lt.mp hk)]
    exact hb

theorem Agreement.weighted_le (r : ℝ) (D : List (Pt ℝ Q)) (hD : ∀ p ∈ D, p.b ≤ p.d) (x : ℝ) : 0 ≤ weightedTents (fun x => x ^ r) D x ∧ weightedTents (fun x => x ^ r) D x ≤ layerAt D 0 x := by
  have hwt : ∀ p ∈ D, 0 ≤ (p.d - p.b) ^ r := fun p hp => Real.rpow_nonneg (sub_nonneg.mpr (hD p hp)) _
  have hw : 0 ≤ (D.map fun p => (p.d - p.b) ^ r).sum := by
    apply List.sum_nonneg
    intro y hy
    rw [List.mem_map] at hy
    obtain ⟨p, hp, rfl⟩ := hy
    exact hwt p hp
  have h0 : 0 ≤ (D.map fun p => (p.d - p.b) ^ r * tent p.b p.d x).sum := by
    apply List.sum_nonneg
    intro y hy
    rw [List.mem_map] at hy
    obtain ⟨p, hp, rfl⟩ := hy
    exact mul_nonneg (hwt p hp) (tent_nonneg _ _ _)
  unfold weightedTents
  refine ⟨div_nonneg h0 hw, ?_⟩
  apply div_le_of_le_mul₀ hw (layerAt_nonneg D 0 x)
  apply average_le _ _ _ _ hwt
  intro p hp
  have hn := layerAt_isNth D 0 x (List.length_pos_of_mem hp)
  by_contra hc
  have := (List.countP_eq_zero.mp (Nat.le_zero.mp hn.2.1)) (tent p.b p.d x) (List.mem_map.mpr ⟨p, hp, fiber_eq x p⟩)
  simp only [decide_eq_true_eq] at this
  exact this (not_le.mp hc)

theorem Agreement.layerVec_nonneg (s : List ℝ) (n : Nat) (D : List (Pt ℝ Q)) : ∀ x ∈ layerVec s n D, 0 ≤ x := by
  intro x hx
  unfold layerVec at hx
  rw [List.mem_flatten] at hx
  obtain ⟨l, hl, hx⟩ := hx
  rw [List.mem_map] at hl
  obtain ⟨k, -, rfl⟩ := hl
  rw [List.mem_map] at hx
  obtain ⟨y, -, rfl⟩ := hx
  exact layerAt_nonneg _ _ _

theorem Agreement.lpNorm_append (p : ENNReal) (hp : 0 < p) (u v w : List ℝ) (h : List.Forall₂ (fun x y => 0 ≤ x ∧ x ≤ y) u v) (hw : ∀ x ∈ w, 0 ≤ x) : lpNorm p u ≤ lpNorm p (v ++ w) := by
  rw [← lpNorm_zeros p hp u w.length]
  apply lpNorm_mono p hp
  apply List.rel_append h
  clear h
  induction w with
  | nil => exact List.Forall₂.nil
  | cons x w ih => exact List.Forall₂.cons ⟨le_rfl, hw x List.mem_cons_self⟩ (ih fun y hy => hw y (List.mem_cons_of_mem _ hy))

theorem Agreement.layerVec_add (s : List ℝ) (n m : Nat) (D : List (Pt ℝ Q)) : ∃ w, layerVec s (n + m) D = layerVec s n D ++ w ∧ ∀ x ∈ w, 0 ≤ x := by
  refine ⟨((List.range m).map fun k => s.map fun x => layerAt D (n + k) x).flatten, ?_, ?_⟩
  · unfold layerVec
    rw [List.range_add, List.map_append, List.flatten_append, List.map_map]
    rfl
  · intro x hx
    rw [List.mem_flatten] at hx
    obtain ⟨l, hl, hx⟩ := hx
    rw [List.mem_map] at hl
    obtain ⟨k, -, rfl⟩ := hl
    rw [List.mem_map] at hx
    obtain ⟨y, -, rfl⟩ := hx
    exact layerAt_nonneg _ _ _

theorem Agreement.layerVec_mono (p : ENNReal) (hp : 0 < p) (s : List ℝ) {n n' : Nat} (h : n ≤ n') (D : List (Pt ℝ Q)) : lpNorm p (layerVec s n D) ≤ lpNorm p (layerVec s n' D) := by
  obtain ⟨m, rfl⟩ := Nat.exists_eq_add_of_le h
  obtain ⟨w, hw, h0⟩ := Agreement.layerVec_add s n m D
  rw [hw]
  exact Agreement.lpNorm_append p hp _ _ _ (List.forall₂_same.mpr fun x hx => ⟨Agreement.layerVec_nonneg s n D x hx, le_rfl⟩) h0

/-- What a fitted `Amplitude` outputs for a metric that samples curves. -/
theorem Agreement.curve_amplitude (E : Engine ℝ Q) (hE : RealEngine E) (e : Est ℝ Q) (metric : Metric) (hm : metric = .betti ∨ metric = .landscape ∨ metric = .silhouette)
    (hP : ValidParams .amplitude e.params metric) (hb : 2 ≤ (asVectorizer e.params).nBins) (X : List (List (Pt ℝ Q))) (hT : Training X) (dims : List Q) (hd : DimsOfFirst dims X)
    (X' : List (List (Pt ℝ Q))) (hX' : Valid X') (hC : ∀ q ∈ dims, EqualCounts X' q) (hD : ∀ D ∈ X', D ∈ Defined e.params metric dims) (nJobs : Nat) (hn : 1 ≤ nJobs) :
    ∃ (A : List (List ℝ)), transformAmplitude E nJobs X' (fit .amplitude X e).1 = .ok (amplitudeResult e.params.order A) ∧
      ∀ (i j : Nat) D q, X'[i]? = some D → dims[j]? = some q → ∀ s step, Grid X dims q (asVectorizer e.params).nBins s step →
        entry2 A i j = some (lpNorm (pOf e.params) (curveVec metric e.params s (pointsIn D q)) * step ^ (1 / pOf e.params).toReal) := by
  obtain ⟨kind, hk⟩ : ∃ kind, vectorizer metric = some kind := by
    rcases hm with rfl | rfl | rfl <;> exact ⟨_, rfl⟩
  obtain ⟨-, -, vec, cell, -, h2, -, h4⟩ := amplitude_eq E hE e metric kind hP hk hb X hT ⟨asVectorizer e.params, none, none, none⟩ rfl
  obtain rfl := dims_unique hd (observedDims_spec X)
  refine ⟨_, h4 nJobs hn X' hX' hC hD, ?_⟩
  intro i j D q hi hj s step hG
  obtain ⟨s', G', hv⟩ := h2 hm q (List.mem_of_getElem? hj)
  obtain ⟨e1, e2⟩ := grid_unique hb hG G'
  have e3 : exponent metric (pOf e.params) = (1 / pOf e.params).toReal := by
    rcases hm with rfl | rfl | rfl <;> rfl
  simp only [entry2, List.getElem?_map, hi, hj, Option.map_some, Option.bind_eq_bind, Option.bind_some, hv, e1, e2, e3]

theorem Agreement.curve_grid (X : List (List (Pt ℝ Q))) (n : Nat) (hn : 2 ≤ n) (hT : Training X) (dims : List Q) (hd : DimsOfFirst dims X) (q : Q) (hq : q ∈ dims) : ∃ s step, Grid X dims q n s step ∧ 0 ≤ step := by
  obtain ⟨-, d, s, h1, h2, -⟩ := C113_betti ⟨fun _ _ I => I, fun x _ => x, 0⟩ ⟨⟨n, 1, 1, 1, none⟩, none, none, none⟩ X hn hT
  obtain rfl := dims_unique hd h1
  obtain ⟨step, h⟩ := h2 q hq
  refine ⟨_, step, h, ?_⟩
  obtain ⟨_, _, _, _, _, _, h, _⟩ := h
  exact h

/-- **C147**, `landscape` and `bottleneck` amplitudes: with infinite `p`, the `landscape` amplitude is at most the `bottleneck` amplitude, whatever the numbers of bins and layers. -/
theorem C147_landscape_bottleneck (E : Engine ℝ Q) (hE : RealEngine E) (eL eB : Est ℝ Q) (hL : ValidParams .amplitude eL.params .landscape) (hB : ValidParams .amplitude eB.params .bottleneck)
    (hp : pOf eL.params = ⊤) (hb : 2 ≤ (asVectorizer eL.params).nBins) (hoL : eL.params.order = none) (hoB : eB.params.order = none) (X : List (List (Pt ℝ Q))) (hT : Training X) (dims : List Q)
    (hd : DimsOfFirst dims X) (X' : List (List (Pt ℝ Q))) (hX' : Valid X') (hC : ∀ q ∈ dims, EqualCounts X' q) (hx : ∀ D ∈ X', ∀ q ∈ dims, ∃ x ∈ D, x.q = q) (nJobs : Nat) (hn : 1 ≤ nJobs) :
    ∃ A B : List (List ℝ), transformAmplitude E nJobs X' (fit .amplitude X eL).1 = .ok (A.map fun r => r.map some) ∧
      transformAmplitude E nJobs X' (fit .amplitude X eB).1 = .ok (B.map fun r => r.map some) ∧
      ∀ (i j : Nat), i < X'.length → j < dims.length → ∃ a b, entry2 A i j = some a ∧ entry2 B i j = some b ∧ 0 ≤ a ∧ a ≤ b := by
  obtain ⟨A, a1, a2⟩ := Agreement.curve_amplitude E hE eL .landscape (Or.inr (Or.inl rfl)) hL hb X hT dims hd X' hX' hC (fun D hD => ⟨hX'.2.2 D hD, fun h => by cases h⟩) nJobs hn
  obtain ⟨-, d2, h2, r2⟩ := C114_bottleneck_amplitude E eB hB hoB X hT
  obtain rfl := dims_unique hd h2
  obtain ⟨B, b1, -, b3⟩ := r2 nJobs hn X' hX' hC hx
  rw [hoL] at a1
  refine ⟨A, B, a1, b1, ?_⟩
  intro i j hi hj
  have ei := List.getElem?_eq_getElem hi
  have ej := List.getElem?_eq_getElem hj
  have hD := List.mem_of_getElem? ei
  obtain ⟨b, b4, b5⟩ := b3 i j _ _ ei ej
  obtain ⟨s, step, G, -⟩ := Agreement.curve_grid X _ hb hT dims hd _ (List.mem_of_getElem? ej)
  have hb0 : 0 ≤ b := by
    obtain ⟨x, hx1, hx2, hx3⟩ := b5.1
    have := hX'.2.2 _ hD x hx1
    linarith
  have e1 : (1 / pOf eL.params).toReal = 0 := by rw [hp]; simp
  refine ⟨_, b, a2 i j _ _ ei ej s step G, b4, ?_, ?_⟩
  · rw [e1, Real.rpow_zero, mul_one]
    exact lpNorm_nonneg _ _
  · rw [e1, Real.rpow_zero, mul_one, hp]
    apply lpNorm_top_le _ _ hb0
    intro x hx
    simp only [curveVec, layerVec, List.mem_flatten, List.mem_map] at hx
    obtain ⟨_, ⟨k, -, rfl⟩, hx⟩ := hx
    rw [List.mem_map] at hx
    obtain ⟨y, -, rfl⟩ := hx
    apply Agreement.layer_le _ _ _ _ hb0
    intro p hp
    unfold pointsIn at hp
    rw [List.mem_filter, decide_eq_true_eq] at hp
    have h1 := tent_le p.b p.d y (hX'.2.2 _ hD p hp.1)
    have h2 := b5.2 ⟨p, hp.1, hp.2, rfl⟩
    linarith

/-- A value between the ends of a grid is at most half a step from one of its values. -/
theorem Agreement.nearest (s : List ℝ) (n : Nat) (lo last step : ℝ) (hn : 1 ≤ n) (h0 : 0 ≤ step) (h : EquallySpaced s n lo last step) (x : ℝ) (h1 : lo ≤ x) (h2 : x ≤ last) : ∃ y ∈ s, |y - x| ≤ step / 2 := by
  have hl := equallySpaced_last s n lo last step hn h
  rcases h0.eq_or_lt with h0 | h0
  · refine ⟨lo, List.mem_of_getElem? h.2.1, ?_⟩
    rw [← h0, mul_zero, add_zero] at hl
    rw [← h0, show lo - x = 0 by linarith]
    simp
  · have hq : 0 ≤ (x - lo) / step + 1 / 2 := add_nonneg (div_nonneg (by linarith) h0.le) (by norm_num)
    have f1 := Nat.floor_le hq
    have f2 := Nat.lt_floor_add_one ((x - lo) / step + 1 / 2)
    have hx : (x - lo) / step ≤ ((n - 1 : Nat) : ℝ) := by rw [div_le_iff₀ h0]; linarith
    have hk : ⌊(x - lo) / step + 1 / 2⌋₊ < n := by
      have : (⌊(x - lo) / step + 1 / 2⌋₊ : ℝ) < ((n - 1 : Nat) : ℝ) + 1 := by linarith
      have : ⌊(x - lo) / step + 1 / 2⌋₊ < (n - 1) + 1 := by exact_mod_cast this
      omega
    refine ⟨_, List.mem_of_getElem? (equallySpaced_get s n lo last step h _ hk), ?_⟩
    generalize (⌊(x - lo) / step + 1 / 2⌋₊ : ℝ) = k at *
    have e : lo + k * step - x = (k - (x - lo) / step) * step := by
      field_simp
      ring
    rw [e, abs_mul, abs_of_pos h0, show step / 2 = 1 / 2 * step by ring]
    apply mul_le_mul_of_nonneg_right _ h0.le
    rw [abs_le]
    constructor <;> linarith

/-- **C147**, `landscape` and `bottleneck` amplitudes: for diagrams within the range of the training data (for instance the training data) the `landscape` amplitude with infinite `p` is at least the `bottleneck` amplitude
minus half the distance of neighbouring bins. -/
theorem C147_landscape_peak (E : Engine ℝ Q) (hE : RealEngine E) (eL eB : Est ℝ Q) (hL : ValidParams .amplitude eL.params .landscape) (hB : ValidParams .amplitude eB.params .bottleneck)
    (hp : pOf eL.params = ⊤) (hb : 2 ≤ (asVectorizer eL.params).nBins) (hoL : eL.params.order = none) (hoB : eB.params.order = none) (X : List (List (Pt ℝ Q))) (hT : Training X) (dims : List Q)
    (hd : DimsOfFirst dims X) (X' : List (List (Pt ℝ Q))) (hX' : Valid X') (hC : ∀ q ∈ dims, EqualCounts X' q) (hx : ∀ D ∈ X', ∀ q ∈ dims, ∃ x ∈ D, x.q = q)
    (hr : ∀ D ∈ X', ∀ p ∈ D, p.q ∈ dims → (∃ u ∈ births X p.q, u ≤ p.b) ∧ ∃ v ∈ deaths X p.q, p.d ≤ v) (nJobs : Nat) (hn : 1 ≤ nJobs) :
    ∃ A B : List (List ℝ), transformAmplitude E nJobs X' (fit .amplitude X eL).1 = .ok (A.map fun r => r.map some) ∧
      transformAmplitude E nJobs X' (fit .amplitude X eB).1 = .ok (B.map fun r => r.map some) ∧
      ∀ (i j : Nat), i < X'.length → ∀ q, dims[j]? = some q → ∃ a b s step, entry2 A i j = some a ∧ entry2 B i j = some b ∧ Grid X dims q (asVectorizer eL.params).nBins s step ∧
        b - step / 2 ≤ a ∧ a ≤ b := by
  obtain ⟨A, a1, a2⟩ := Agreement.curve_amplitude E hE eL .landscape (Or.inr (Or.inl rfl)) hL hb X hT dims hd X' hX' hC (fun D hD => ⟨hX'.2.2 D hD, fun h => by cases h⟩) nJobs hn
  obtain ⟨-, d2, h2, r2⟩ := C114_bottleneck_amplitude E eB hB hoB X hT
  obtain rfl := dims_unique hd h2
  obtain ⟨B, b1, -, b3⟩ := r2 nJobs hn X' hX' hC hx
  obtain ⟨A', B', c1, c2, c3⟩ := C147_landscape_bottleneck E hE eL eB hL hB hp hb hoL hoB X hT dims hd X' hX' hC hx nJobs hn
  rw [hoL] at a1
  have hinj : ∀ A A' : List (List ℝ), A.map (fun r => r.map some) = A'.map (fun r => r.map some) → A = A' := by
    intro A A' h
    exact List.map_injective_iff.2 (List.map_injective_iff.2 (Option.some_injective _)) h
  have hA : A' = A := by
    rw [c1] at a1
    simp only [amplitudeResult, Except.ok.injEq] at a1
    exact hinj _ _ a1
  have hBB : B' = B := by
    rw [c2] at b1
    simp only [Except.ok.injEq] at b1
    exact hinj _ _ b1
  subst hA hBB
  refine ⟨A', B', c1, c2, ?_⟩
  intro i j hi q hq
  have ei := List.getElem?_eq_getElem hi
  have hD := List.mem_of_getElem? ei
  have hqd := List.mem_of_getElem? hq
  obtain ⟨a, b, e1, e2, e3, e4⟩ := c3 i j hi (List.getElem?_eq_some_iff.1 hq).1
  obtain ⟨s, step, G, h0⟩ := Agreement.curve_grid X _ hb hT dims hd _ hqd
  refine ⟨a, b, s, step, e1, e2, G, ?_, e4⟩
  obtain ⟨b', b4, b5⟩ := b3 i j _ _ ei hq
  rw [e2] at b4
  simp only [Option.some.injEq] at b4
  subst b4
  have ha := a2 i j _ _ ei hq s step G
  rw [e1] at ha
  simp only [Option.some.injEq] at ha
  have e5 : (1 / pOf eL.params).toReal = 0 := by rw [hp]; simp
  rw [e5, Real.rpow_zero, mul_one] at ha
  -- the longest feature
  obtain ⟨p, p1, p2, p3⟩ := b5.1
  obtain ⟨⟨u, u1, u2⟩, v, v1, v2⟩ := hr _ hD p p1 (by rw [p2]; exact hqd)
  rw [p2] at u1 v1
  have hpv := hX'.2.2 _ hD p p1
  obtain ⟨lo, hi', last, g1, g2, g3, g4, g5, g6⟩ := G
  have hlo := g1.2 u1
  have hhi := g2.2 v1
  by_cases hlh : lo = hi'
  · have : p.d = p.b := by
      rw [← hlh] at hhi
      linarith
    linarith
  obtain ⟨y, hy, hyx⟩ := Agreement.nearest s _ lo last step (by omega) g4 g3 ((p.b + p.d) / 2) (by linarith) (by rw [g5 hlh]; linarith)
  have hl : 1 ≤ (asVectorizer eL.params).nLayers := by
    unfold asVectorizer
    cases hm : eL.params.mp with
    | none => simp
    | some m =>
      dsimp only
      cases hl : m.nLayers with
      | none => simp
      | some n => exact (hL.layers m n hm hl).2
  have hpp : p ∈ pointsIn X'[i] q := List.mem_filter.2 ⟨p1, by simpa using p2⟩
  have hmem : layerAt (pointsIn X'[i] q) 0 y ∈ curveVec .landscape eL.params s (pointsIn X'[i] q) := by
    simp only [curveVec, layerVec, List.mem_flatten, List.mem_map]
    exact ⟨_, ⟨0, List.mem_range.2 (by omega), rfl⟩, List.mem_map.2 ⟨y, hy, rfl⟩⟩
  have hle := mem_le_lpNorm (pOf eL.params) (by rw [hp]; simp) _ _ hmem
  rw [← ha] at hle
  have hfib : fiber y p ≤ layerAt (pointsIn X'[i] q) 0 y := by
    have := (layerAt_isNth (pointsIn X'[i] q) 0 y (List.length_pos_of_mem hpp)).2.1
    by_contra hc
    have : 0 < ((pointsIn X'[i] q).map (fiber y)).countP fun x => decide (layerAt (pointsIn X'[i] q) 0 y < x) := by
      rw [List.countP_pos_iff]
      exact ⟨_, List.mem_map.2 ⟨p, hpp, rfl⟩, by simpa using not_le.1 hc⟩
    omega
  have hf : (p.d - p.b) / 2 - step / 2 ≤ fiber y p := by
    unfold fiber
    refine le_trans ?_ (le_max_left _ _)
    rw [show (p.d + p.b) / 2 = (p.b + p.d) / 2 by ring]
    linarith
  have := le_abs_self (layerAt (pointsIn X'[i] q) 0 y)
  linarith

/-- **C147**, `silhouette` and `landscape` amplitudes: with the same `p` and number of bins the `silhouette` amplitude, for any power, is at most the `landscape` amplitude, for any number of layers. -/
theorem C147_silhouette_amplitude (E : Engine ℝ Q) (hE : RealEngine E) (eS eL : Est ℝ Q) (hS : ValidParams .amplitude eS.params .silhouette) (hL : ValidParams .amplitude eL.params .landscape)
    (hp : pOf eS.params = pOf eL.params) (hb : 2 ≤ (asVectorizer eS.params).nBins) (hbb : (asVectorizer eL.params).nBins = (asVectorizer eS.params).nBins) (X : List (List (Pt ℝ Q))) (hT : Training X)
    (dims : List Q) (hd : DimsOfFirst dims X) (X' : List (List (Pt ℝ Q))) (hX' : Valid X') (hC : ∀ q ∈ dims, EqualCounts X' q) (hD : ∀ D ∈ X', D ∈ Defined eS.params .silhouette dims) (nJobs : Nat)
    (hn : 1 ≤ nJobs) :
    ∃ A B : List (List ℝ), transformAmplitude E nJobs X' (fit .amplitude X eS).1 = .ok (amplitudeResult eS.params.order A) ∧
      transformAmplitude E nJobs X' (fit .amplitude X eL).1 = .ok (amplitudeResult eL.params.order B) ∧
      ∀ (i j : Nat), i < X'.length → j < dims.length → ∃ a b, entry2 A i j = some a ∧ entry2 B i j = some b ∧ 0 ≤ a ∧ a ≤ b := by
  obtain ⟨A, a1, a2⟩ := Agreement.curve_amplitude E hE eS .silhouette (Or.inr (Or.inr rfl)) hS hb X hT dims hd X' hX' hC hD nJobs hn
  obtain ⟨B, b1, b2⟩ := Agreement.curve_amplitude E hE eL .landscape (Or.inr (Or.inl rfl)) hL (by rw [hbb]; exact hb) X hT dims hd X' hX' hC (fun D hD => ⟨hX'.2.2 D hD, fun h => by cases h⟩) nJobs hn
  refine ⟨A, B, a1, b1, ?_⟩
  intro i j hi hj
  have ei := List.getElem?_eq_getElem hi
  have ej := List.getElem?_eq_getElem hj
  obtain ⟨s, step, G, h0⟩ := Agreement.curve_grid X _ hb hT dims hd _ (List.mem_of_getElem? ej)
  have hp0 : 0 < pOf eL.params := lt_of_lt_of_le one_pos (pOf_one_le _ _ _ hL)
  refine ⟨_, _, a2 i j _ _ ei ej s step G, b2 i j _ _ ei ej s step (by rw [hbb]; exact G), mul_nonneg (lpNorm_nonneg _ _) (Real.rpow_nonneg h0 _), ?_⟩
  rw [hp]
  apply mul_le_mul_of_nonneg_right _ (Real.rpow_nonneg h0 _)
  simp only [curveVec]
  have hl : 1 ≤ (asVectorizer eL.params).nLayers := by
    unfold asVectorizer
    cases hm : eL.params.mp with
    | none => simp
    | some m =>
      dsimp only
      cases hl : m.nLayers with
      | none => simp
      | some n => exact (hL.layers m n hm hl).2
  refine le_trans ?_ (Agreement.layerVec_mono _ hp0 s hl _)
  apply lpNorm_mono _ hp0
  have e1 : layerVec s 1 (pointsIn X'[i] dims[j]) = s.map fun x => layerAt (pointsIn X'[i] dims[j]) 0 x := by simp [layerVec]
  rw [e1, List.forall₂_map_left_iff, List.forall₂_map_right_iff, List.forall₂_same]
  intro x _
  exact Agreement.weighted_le _ _ (fun p hp => hX'.2.2 _ (List.mem_of_getElem? ei) p (List.mem_of_mem_filter hp)) x

/-- **C147**, numbers of layers: the `landscape` amplitude grows with the number of layers. -/
theorem C147_layers (E : Engine ℝ Q) (hE : RealEngine E) (e e' : Est ℝ Q) (hP : ValidParams .amplitude e.params .landscape) (hP' : ValidParams .amplitude e'.params .landscape)
    (hp : pOf e.params = pOf e'.params) (hb : 2 ≤ (asVectorizer e.params).nBins) (hbb : (asVectorizer e'.params).nBins = (asVectorizer e.params).nBins)
    (hl : (asVectorizer e.params).nLayers ≤ (asVectorizer e'.params).nLayers) (X : List (List (Pt ℝ Q))) (hT : Training X) (dims : List Q) (hd : DimsOfFirst dims X) (X' : List (List (Pt ℝ Q)))
    (hX' : Valid X') (hC : ∀ q ∈ dims, EqualCounts X' q) (nJobs : Nat) (hn : 1 ≤ nJobs) :
    ∃ A B : List (List ℝ), transformAmplitude E nJobs X' (fit .amplitude X e).1 = .ok (amplitudeResult e.params.order A) ∧
      transformAmplitude E nJobs X' (fit .amplitude X e').1 = .ok (amplitudeResult e'.params.order B) ∧
      ∀ (i j : Nat), i < X'.length → j < dims.length → ∃ a b, entry2 A i j = some a ∧ entry2 B i j = some b ∧ 0 ≤ a ∧ a ≤ b := by
  have hdef : ∀ P : Params ℝ, ∀ D ∈ X', D ∈ Defined P .landscape dims := fun P D hD => ⟨hX'.2.2 D hD, fun h => by cases h⟩
  obtain ⟨A, a1, a2⟩ := Agreement.curve_amplitude E hE e .landscape (Or.inr (Or.inl rfl)) hP hb X hT dims hd X' hX' hC (hdef _) nJobs hn
  obtain ⟨B, b1, b2⟩ := Agreement.curve_amplitude E hE e' .landscape (Or.inr (Or.inl rfl)) hP' (by rw [hbb]; exact hb) X hT dims hd X' hX' hC (hdef _) nJobs hn
  refine ⟨A, B, a1, b1, ?_⟩
  intro i j hi hj
  have ei := List.getElem?_eq_getElem hi
  have ej := List.getElem?_eq_getElem hj
  obtain ⟨s, step, G, h0⟩ := Agreement.curve_grid X _ hb hT dims hd _ (List.mem_of_getElem? ej)
  have hp0 : 0 < pOf e'.params := lt_of_lt_of_le one_pos (pOf_one_le _ _ _ hP')
  refine ⟨_, _, a2 i j _ _ ei ej s step G, b2 i j _ _ ei ej s step (by rw [hbb]; exact G), mul_nonneg (lpNorm_nonneg _ _) (Real.rpow_nonneg h0 _), ?_⟩
  rw [hp]
  apply mul_le_mul_of_nonneg_right _ (Real.rpow_nonneg h0 _)
  exact Agreement.layerVec_mono _ hp0 s hl _

/-- **C147**, `betti` amplitudes and numbers of points: with infinite `p`, the `betti` amplitude is at most the number of points. -/
theorem C147_betti_points (E : Engine ℝ Q) (hE : RealEngine E) (e : Est ℝ Q) (hP : ValidParams .amplitude e.params .betti) (hp : pOf e.params = ⊤) (hb : 2 ≤ (asVectorizer e.params).nBins)
    (ho : e.params.order = none) (X : List (List (Pt ℝ Q))) (hT : Training X) (dims : List Q) (hd : DimsOfFirst dims X) (X' : List (List (Pt ℝ Q))) (hX' : Valid X')
    (hC : ∀ q ∈ dims, EqualCounts X' q) (nJobs : Nat) (hn : 1 ≤ nJobs) :
    ∃ (A : List (List ℝ)) (N : List (List Nat)), transformAmplitude E nJobs X' (fit .amplitude X e).1 = .ok (A.map fun r => r.map some) ∧
      FeatureObject.transform FeatureObject.pointsCls (FeatureObject.run FeatureObject.pointsCls ⟨(), none⟩ [.fit X]) nJobs X' = .ok N ∧
      ∀ (i j : Nat), i < X'.length → j < dims.length → ∃ a n, entry2 A i j = some a ∧ entry2 N i j = some n ∧ 0 ≤ a ∧ a ≤ n := by
  obtain ⟨A, a1, a2⟩ := Agreement.curve_amplitude E hE e .betti (Or.inl rfl) hP hb X hT dims hd X' hX' hC (fun D hD => ⟨hX'.2.2 D hD, fun h => by cases h⟩) nJobs hn
  obtain ⟨N, n1, n4⟩ := Agreement.points_eq X hT dims hd X' hX' hC nJobs hn
  rw [ho] at a1
  refine ⟨A, N, a1, n1, ?_⟩
  intro i j hi hj
  have ei := List.getElem?_eq_getElem hi
  have ej := List.getElem?_eq_getElem hj
  obtain ⟨s, step, G, -⟩ := Agreement.curve_grid X _ hb hT dims hd _ (List.mem_of_getElem? ej)
  have e1 : (1 / pOf e.params).toReal = 0 := by rw [hp]; simp
  refine ⟨_, _, a2 i j _ _ ei ej s step G, n4 i j _ _ ei ej, ?_, ?_⟩
  · rw [e1, Real.rpow_zero, mul_one]
    exact lpNorm_nonneg _ _
  · rw [e1, Real.rpow_zero, mul_one, hp]
    apply lpNorm_top_le _ _ (Nat.cast_nonneg _)
    intro x hx
    simp only [curveVec, List.mem_map] at hx
    obtain ⟨y, -, rfl⟩ := hx
    rw [abs_of_nonneg (Nat.cast_nonneg _), Nat.cast_le, aliveCount_pointsIn]
    exact alive_le _ _ _

/-- **C147**, `order`: relations between amplitudes per dimension carry over to their norms over the dimensions. -/
theorem C147_reduced (o : Option ℝ) (ho : 0 < toP o) (A B : List (List ℝ)) (h : List.Forall₂ (List.Forall₂ fun a b => 0 ≤ a ∧ a ≤ b) A B) :
    List.Forall₂ (List.Forall₂ fun a b => ∃ x y, a = some x ∧ b = some y ∧ 0 ≤ x ∧ x ≤ y) (amplitudeResult (some o) A) (amplitudeResult (some o) B) := by
  unfold amplitudeResult
  rw [List.forall₂_map_left_iff, List.forall₂_map_right_iff]
  refine h.imp ?_
  intro r r' hr
  exact List.Forall₂.cons ⟨_, _, rfl, rfl, lpNorm_nonneg _ _, lpNorm_mono _ ho hr⟩ List.Forall₂.nil

/-! ### Entropy -/

/-- The Shannon entropy of two or more positive numbers with sum 1 is positive. -/
theorem Agreement.shannon_pos (D : List (Pt ℝ Q)) (q : Q) (hD : ∀ p ∈ D, p.b ≤ p.d) (h : 2 ≤ (offDiag (pointsIn D q)).length) : 0 < shannon2 (relativeLifetimes D q) := by
  have hpos : ∀ x ∈ lifetimesIn D q, 0 < x := by
    intro x hx
    unfold lifetimesIn offDiag pointsIn at hx
    rw [List.mem_map] at hx
    obtain ⟨p, hp, rfl⟩ := hx
    rw [List.mem_filter, List.mem_filter, decide_eq_true_eq] at hp
    exact sub_pos.mpr (lt_of_le_of_ne (hD p hp.1.1) (by simpa using hp.2))
  have hlen : (lifetimesIn D q).length = (offDiag (pointsIn D q)).length := by simp [lifetimesIn]
  have hlt : ∀ x ∈ lifetimesIn D q, x < (lifetimesIn D q).sum := by
    intro x hx
    obtain ⟨s, t, e⟩ := List.append_of_mem hx
    rw [e, List.sum_append, List.sum_cons]
    rw [e, List.length_append, List.length_cons] at hlen
    have hs : ∀ y ∈ s, 0 < y := fun y hy => hpos y (by rw [e]; simp [hy])
    have ht : ∀ y ∈ t, 0 < y := fun y hy => hpos y (by rw [e]; simp [hy])
    have h1 : 0 ≤ s.sum := List.sum_nonneg fun y hy => (hs y hy).le
    have h2 : 0 ≤ t.sum := List.sum_nonneg fun y hy => (ht y hy).le
    by_cases hs0 : s = []
    · have ht0 : t ≠ [] := by
        rintro rfl
        rw [hs0] at hlen
        simp at hlen
        omega
      have := List.sum_pos t ht ht0
      linarith
    · have := List.sum_pos s hs hs0
      linarith
  have hne : lifetimesIn D q ≠ [] := by
    intro h0
    rw [h0] at hlen
    simp at hlen
    omega
  have hS : 0 < (lifetimesIn D q).sum := List.sum_pos _ hpos hne
  unfold shannon2
  apply List.sum_pos
  · intro y hy
    unfold relativeLifetimes at hy
    rw [List.map_map, List.mem_map] at hy
    obtain ⟨x, hx, rfl⟩ := hy
    have h1 : 0 < x / (lifetimesIn D q).sum := div_pos (hpos x hx) hS
    have h2 : x / (lifetimesIn D q).sum < 1 := (div_lt_one hS).mpr (hlt x hx)
    simp only [Function.comp_apply]
    have := Real.logb_neg (b := 2) (by norm_num) h1 h2
    have := mul_neg_of_pos_of_neg h1 this
    linarith
  · simpa [relativeLifetimes] using hne

/-- **C147**, entropy and numbers of points: for a diagram with a point off the diagonal, `PersistenceEntropy` with `normalize=False` is between 0 and the binary logarithm of `NumberOfPoints`, and it is 0
if and only if there is one such point. -/
theorem C147_entropy (fmax : ℝ) (fill : Option ℝ) (X : List (List (Pt ℝ Q))) (hT : Training X) (dims : List Q) (hd : DimsOfFirst dims X) (X' : List (List (Pt ℝ Q))) (hX' : Valid X')
    (hC : ∀ q ∈ dims, EqualCounts X' q) (nJobs : Nat) (hn : 1 ≤ nJobs) :
    ∃ (A : List (List (Option EReal))) (N : List (List Nat)),
      FeatureObject.transform (FeatureObject.entropyCls fmax) (FeatureObject.run (FeatureObject.entropyCls fmax) ⟨(false, fill), none⟩ [.fit X]) nJobs X' = .ok A ∧
      FeatureObject.transform FeatureObject.pointsCls (FeatureObject.run FeatureObject.pointsCls ⟨(), none⟩ [.fit X]) nJobs X' = .ok N ∧
      ∀ (i j : Nat), i < X'.length → j < dims.length → ∃ n, entry2 N i j = some n ∧
        (1 ≤ n → ∃ h : ℝ, entry2 A i j = some (some (h : EReal)) ∧ 0 ≤ h ∧ h ≤ Real.logb 2 n ∧ (h = 0 ↔ n = 1)) := by
  obtain ⟨N, n1, n4⟩ := Agreement.points_eq X hT dims hd X' hX' hC nJobs hn
  have hp := C124_entropy fmax (false, fill) [.fit X] nJobs hn X'
  have ha : Spec.FeatureObject.after (P := Bool × Option ℝ) (fun _ X => Valid X) ((false, fill), none) [.fit X] = ((false, fill), some ((false, fill), X)) := by
    simp only [Spec.FeatureObject.after]
    rw [if_pos hT.1]
  rw [ha] at hp
  obtain ⟨d3, h3, r3⟩ := hp
  obtain rfl := dims_unique hd h3
  obtain ⟨A, a1, -, -, a4⟩ := r3 (Agreement.first_nonempty hT) hX' hC
  refine ⟨A, N, a1, n1, ?_⟩
  intro i j hi hj
  have ei := List.getElem?_eq_getElem hi
  have ej := List.getElem?_eq_getElem hj
  have hD := hX'.2.2 _ (List.mem_of_getElem? ei)
  refine ⟨_, n4 i j _ _ ei ej, ?_⟩
  intro h1
  obtain ⟨-, h38, -⟩ := C38_number_of_points (K := ℝ) dims (List.ne_nil_of_length_pos (by omega))
  have hnt : ¬ TrivialIn X'[i] dims[j] := by
    rw [← h38]
    omega
  have hc : X'[i].countP (fun p => decide (p.q = dims[j] ∧ p.b ≠ p.d)) = (offDiag (pointsIn X'[i] dims[j])).length := by
    unfold offDiag pointsIn
    rw [List.filter_filter, ← List.countP_eq_length_filter]
    apply List.countP_congr
    intro p _
    simp only [Bool.and_eq_true, decide_eq_true_eq]
    tauto
  obtain ⟨α, -, hα⟩ := C37_persistence_entropy (Q := Q) none 0 [dims[j]] (by simp)
  obtain ⟨-, b1, b2⟩ := (hα dims[j] (by simp) _ hD).1 hnt
  refine ⟨_, (a4 i j _ _ ei ej).1 hnt rfl, b1, by rw [hc]; exact b2, ?_, ?_⟩
  · intro h0
    by_contra hne
    have := Agreement.shannon_pos X'[i] dims[j] hD (by omega)
    linarith
  · intro h0
    rw [← hc, h0] at b2
    simp only [Nat.cast_one, Real.logb_one] at b2
    exact le_antisymm b2 b1

end

/-! ### What does not hold -/

section
open Gtda.Vectorizers

/-- **C147, layers and Betti curves: false at births.** At the smallest birth of the training data the Betti curve is 1, but the first layer of the landscape is 0, and so is the silhouette. -/
theorem C147_refuted_birth : transform vecE .betti 1 [[⟨0, 2, 0⟩]] (fit .betti [[⟨0, 2, (0 : Nat)⟩]] (new vecP)).1 = .ok (.counts [[[1, 1, 0]]]) ∧
    transform vecE .landscape 1 [[⟨0, 2, 0⟩]] (fit .landscape [[⟨0, 2, (0 : Nat)⟩]] (new vecP)).1 = .ok (.layers [[[0, 1, 0], [0, 0, 0]]]) ∧
    transform vecE .silhouette 1 [[⟨0, 2, 0⟩]] (fit .silhouette [[⟨0, 2, (0 : Nat)⟩]] (new vecP)).1 = .ok (.curves [[[some 0, some 1, some 0]]]) := by decide +kernel

/-- **C147, equality of `landscape` and `bottleneck` amplitudes: false.** The peak of the interval from 0 to 2, in a collection where bins are at 0 and 4, is not seen: all values of the landscape are 0, while half
the longest lifetime is 1. -/
theorem C147_refuted_peak : transform vecE .landscape 1 [[⟨0, 2, 0⟩, ⟨4, 4, 0⟩]] (fit .landscape [[⟨0, 2, (0 : Nat)⟩, ⟨4, 4, 0⟩]] (new ⟨2, 1, 1, 1, none⟩)).1 = .ok (.layers [[[0, 0]]]) ∧
    bottleneckAmplitudes [[(⟨0, 2, 0⟩ : Pt ℚ Nat), ⟨4, 4, 0⟩]] = .ok [1] := by decide +kernel

/-- Non-vacuity: three bins, two layers, two dimensions. The second layer in dimension 0 is positive at no bin although the Betti curve of the second diagram is 2 at the middle bin: one interval begins there. -/
example : Training vecX ∧ transform vecE .betti 1 [[⟨0, 4, 0⟩, ⟨2, 4, 0⟩, ⟨0, 4, 1⟩]] (fit .betti vecX (new vecP)).1 = .ok (.counts [[[1, 2, 0], [1, 1, 0]]]) ∧
    transform vecE .landscape 1 [[⟨0, 4, 0⟩, ⟨2, 4, 0⟩, ⟨0, 4, 1⟩]] (fit .landscape vecX (new vecP)).1 = .ok (.layers [[[0, 2, 0], [0, 0, 0], [0, 2, 0], [0, 0, 0]]]) :=
  ⟨vecX_training, by decide +kernel, by decide +kernel⟩

/-- `C147_layer_sum` for the first diagram in `C147_betti_landscape`: two points, two layers; the tents at the second bin are 2 and 0. -/
example : tents [(⟨0, 4, 0⟩ : Pt ℚ Nat), ⟨2, 4, 0⟩, ⟨0, 4, 1⟩] 0 2 = [2, 0] := by decide +kernel

/-- The training data are within their range, as needed in `C147_landscape_peak`. -/
example (X : List (List (Pt ℝ Nat))) : ∀ D ∈ X, ∀ p ∈ D, (∃ u ∈ births X p.q, u ≤ p.b) ∧ ∃ v ∈ deaths X p.q, p.d ≤ v :=
  fun D hD p hp => ⟨⟨p.b, ⟨D, hD, p, hp, rfl, rfl⟩, le_rfl⟩, ⟨p.d, ⟨D, hD, p, hp, rfl, rfl⟩, le_rfl⟩⟩

example : transform vecE .betti 1 [[⟨0, 4, 0⟩, ⟨1, 4, 0⟩, ⟨0, 4, 1⟩]] (fit .betti vecX (new vecP)).1 = .ok (.counts [[[1, 2, 0], [1, 1, 0]]]) ∧
    transform vecE .landscape 1 [[⟨0, 4, 0⟩, ⟨1, 4, 0⟩, ⟨0, 4, 1⟩]] (fit .landscape vecX (new vecP)).1 = .ok (.layers [[[0, 2, 0], [0, 1, 0], [0, 2, 0], [0, 0, 0]]]) := by decide +kernel

end

section
open Gtda.DiagramMetrics Gtda.Spec.DiagramMetrics

/-- Parameters and diagrams of the example. -/
noncomputable def agreeW : Params ℝ := ⟨some .wasserstein, some { p := some (some 1) }, none⟩
noncomputable def agreeB : Params ℝ := ⟨some .bottleneck, none, none⟩
noncomputable def agreeX : List (List (Pt ℝ Nat)) := [[⟨0, 2, 0⟩, ⟨0, 4, 0⟩]]

/-- Non-vacuity of the theorems on amplitudes: two intervals of lengths 2 and 4, with 1-norm 3 and largest half lifetime 2, so `2 ≤ 3 ≤ 2 * 2`. -/
example (E : Engine ℝ Nat) (hE : RealEngine E) : ∃ A B : List (List ℝ),
    transformAmplitude E 1 agreeX (fit .amplitude agreeX (new agreeW)).1 = .ok (A.map fun r => r.map some) ∧
    transformAmplitude E 1 agreeX (fit .amplitude agreeX (new agreeB)).1 = .ok (B.map fun r => r.map some) ∧
    ∃ a b, entry2 A 0 0 = some a ∧ entry2 B 0 0 = some b ∧ b ≤ a ∧ a ≤ 2 * b := by
  obtain ⟨A, B, N, h1, h2, h3, h4⟩ := C147_wasserstein_bottleneck E hE (new agreeW) (new agreeB)
    (by constructor <;> first | (simp [new, agreeW]; done) | (intro m _ h; obtain rfl := (Option.some.inj h).symm; simp; done) | (intro m _ h; obtain rfl := (Option.some.inj h).symm; simp; exact fun h => h.le) | (intro m h; obtain rfl := (Option.some.inj h).symm; simp))
    (by constructor <;> simp [new, agreeB]) rfl rfl agreeX (by simp [agreeX, Training, Valid, EqualCounts, pointsIn]) [0] (by simp [agreeX, DimsOfFirst, eq_comm]) agreeX
    (by simp [agreeX, Valid]) (by simp [agreeX, EqualCounts, pointsIn]) (by simp [agreeX]) 1 le_rfl
  obtain ⟨N', n1, n2⟩ := Agreement.points_eq (K := ℝ) agreeX (by simp [agreeX, Training, Valid, EqualCounts, pointsIn]) [0] (by simp [agreeX, DimsOfFirst, eq_comm]) agreeX
    (by simp [agreeX, Valid]) (by simp [agreeX, EqualCounts, pointsIn]) 1 le_rfl
  rw [h3, Except.ok.injEq] at n1
  subst n1
  refine ⟨A, B, h1, h2, ?_⟩
  obtain ⟨a, b, n, g1, g2, g3, g4, g5⟩ := h4 0 0 (by simp [agreeX]) (by simp)
  have := n2 0 0 _ _ rfl rfl
  rw [g3, Option.some.injEq] at this
  have e2 : n = 2 := by rw [this]; norm_num [List.countP_cons]
  refine ⟨a, b, g1, g2, g4, ?_⟩
  have e1 : pOf (new (Q := Nat) agreeW).params = 1 := by simp [pOf, new, agreeW]
  rw [e1, e2] at g5
  simpa using g5

end

end Gtda.Props
