import Verif.Spec.BettiDerivatives
import Verif.Props.CurveDerivatives
import Verif.Props.Curves

set_option autoImplicit false
set_option linter.unusedSectionVars false

/-!
# C157: derivatives of Betti curves and landscapes
-/

namespace Gtda.Props.BettiDerivatives
open Gtda.Py Gtda.CurveFeatures Gtda.Diagrams Gtda.Spec.BettiDerivatives

theorem derivative_one {R : Type} [CommRing R] (nJobs nBins : Nat) (hn : 1 ≤ nJobs) (hb : 2 ≤ nBins) (Z : List (List (List R))) :
    derivativeTransform 1 nJobs nBins Z = .ok (Z.map fun c => c.map TimeSeries.npDiff) := by
  unfold derivativeTransform derivativeFit
  rw [if_neg (by omega), if_neg (by omega), C17_njobs_map _ nJobs hn]
  rfl

theorem entry3_derivative {R : Type} [CommRing R] {Z : List (List (List R))} {i j t : Nat} {a b : R} (ha : entry3 Z i j t = some a) (hb : entry3 Z i j (t + 1) = some b) :
    entry3 (Z.map fun c => c.map TimeSeries.npDiff) i j t = some (b - a) := by
  unfold entry3 at *
  rw [List.getElem?_map]
  cases hr : Z[i]? with
  | none => rw [hr] at ha; simp at ha
  | some r =>
    rw [hr] at ha hb
    simp only [Option.bind_eq_bind, Option.bind_some, Option.map_some, List.getElem?_map] at ha hb ⊢
    cases hc : r[j]? with
    | none => rw [hc] at ha; simp at ha
    | some c =>
      rw [hc] at ha hb
      simp only [Option.bind_some, Option.map_some] at ha hb ⊢
      exact CurveDerivatives.npDiff_some ha hb

variable {K Q : Type} [Field K] [LinearOrder K] [DecidableEq Q]

theorem alive_step (D : List (Pt K Q)) (q : Q) (s s' : K) (hD : ∀ p ∈ D, p.b ≤ p.d) (hs : s ≤ s') : (aliveAt D q s' : Int) - aliveAt D q s = bornIn D q s s' - diedIn D q s s' := by
  unfold aliveAt bornIn diedIn
  induction D with
  | nil => simp
  | cons p D ih =>
    have ih := ih fun p hp => hD p (List.mem_cons_of_mem _ hp)
    have hp := hD p List.mem_cons_self
    simp only [List.countP_cons, Nat.cast_add]
    have key : ((if decide (p.q = q ∧ p.b ≤ s' ∧ s' < p.d) = true then 1 else 0 : Nat) : Int) - (if decide (p.q = q ∧ p.b ≤ s ∧ s < p.d) = true then 1 else 0 : Nat) =
        (if decide (p.q = q ∧ p.b < p.d ∧ s < p.b ∧ p.b ≤ s') = true then 1 else 0 : Nat) - (if decide (p.q = q ∧ p.b < p.d ∧ s < p.d ∧ p.d ≤ s') = true then 1 else 0 : Nat) := by
      simp only [decide_eq_true_eq]
      by_cases hq : p.q = q
      · simp only [hq, true_and]
        rcases hp.lt_or_eq with h | h
        · by_cases h1 : p.b ≤ s'
          · by_cases h2 : p.d ≤ s'
            · by_cases h3 : p.b ≤ s
              · by_cases h4 : p.d ≤ s
                · simp [h, h1, h2, h3, h4, not_lt.2 h2, not_lt.2 h3, not_lt.2 h4]
                · simp [h, h1, h2, h3, not_le.1 h4, not_lt.2 h2, not_lt.2 h3]
              · have h4 : s < p.d := (not_le.1 h3).trans h
                simp [h, h1, h2, h3, h4, not_le.1 h3, not_lt.2 h2]
            · have h4 : s < p.d := hs.trans_lt (not_le.1 h2)
              by_cases h3 : p.b ≤ s
              · simp [h, h1, h2, h3, h4, not_le.1 h2, not_lt.2 h3]
              · simp [h, h1, h2, h3, not_le.1 h2, not_le.1 h3]
          · have h2 : ¬ p.d ≤ s' := fun e => h1 (hp.trans e)
            have h3 : ¬ p.b ≤ s := fun e => h1 (e.trans hs)
            simp [h1, h2, h3]
        · have e1 : ¬ (p.b ≤ s' ∧ s' < p.d) := fun e => absurd (e.1.trans_lt e.2) (by simp [h])
          have e2 : ¬ (p.b ≤ s ∧ s < p.d) := fun e => absurd (e.1.trans_lt e.2) (by simp [h])
          have e3 : ¬ p.b < p.d := by simp [h]
          simp [e1, e2, e3]
      · simp [hq]
    push_cast at key ih ⊢
    linarith

theorem entry3_signed {R : List (List (List Nat))} {i j t n : Nat} (h : entry3 R i j t = some n) : entry3 (signed R) i j t = some (n : Int) := by
  unfold entry3 signed at *
  rw [List.getElem?_map]
  cases hr : R[i]? with
  | none => rw [hr] at h; simp at h
  | some r =>
    rw [hr] at h
    simp only [Option.bind_eq_bind, Option.bind_some, Option.map_some, List.getElem?_map] at h ⊢
    cases hc : r[j]? with
    | none => rw [hc] at h; simp at h
    | some c =>
      rw [hc] at h
      simp only [Option.bind_some, Option.map_some, List.getElem?_map] at h ⊢
      rw [h]
      rfl

/-- **C157.** The first derivative of a Betti curve, between the sampled values `s` and `s'`, is the number of features born in that interval minus the number of those that die in it. -/
theorem C157_betti (dims : List Q) (sampling : Q → List K) (nJobs nJobs' nBins : Nat) (X : List (List (Pt K Q))) (hn : 1 ≤ nJobs) (hn' : 1 ≤ nJobs') (hb : 2 ≤ nBins) (hd : dims ≠ []) (hX : X ≠ [])
    (hE : ∀ q ∈ dims, EqualCounts X q) (hD : ∀ D ∈ X, ∀ p ∈ D, p.b ≤ p.d) :
    ∃ R Y, bettiTransform dims sampling nJobs X = .ok R ∧ derivativeTransform 1 nJobs' nBins (signed R) = .ok Y ∧
      ∀ (i j t : Nat) D q s s', X[i]? = some D → dims[j]? = some q → (sampling q)[t]? = some s → (sampling q)[t + 1]? = some s' → s ≤ s' → entry3 Y i j t = some ((bornIn D q s s' : Int) - diedIn D q s s') := by
  obtain ⟨R, hR, _, hv⟩ := C27_betti_curve dims sampling nJobs X hn hd hX hE
  refine ⟨R, _, hR, derivative_one nJobs' nBins hn' hb _, fun i j t D q s s' h1 h2 h3 h4 hs => ?_⟩
  rw [entry3_derivative (entry3_signed (hv i j t D q s h1 h2 h3)) (entry3_signed (hv i j (t + 1) D q s' h1 h2 h4)), alive_step D q s s' (hD D (List.mem_of_getElem? h1)) hs]

/-- Intervals between neighbours of an increasing list are disjoint. -/
theorem once {l : List K} (h : l.Pairwise (· ≤ ·)) (b : K) : ((List.zipWith (fun s s' => if s < b ∧ b ≤ s' then 1 else 0) l l.tail).sum : Nat) ≤ 1 ∧
    (∀ s, l.head? = some s → b ≤ s → (List.zipWith (fun s s' => if s < b ∧ b ≤ s' then 1 else 0) l l.tail).sum = 0) := by
  induction l with
  | nil => simp
  | cons s l ih =>
    cases l with
    | nil => simp
    | cons s' l =>
      rw [List.pairwise_cons] at h
      obtain ⟨i1, i2⟩ := ih h.2
      have hss := h.1 s' List.mem_cons_self
      simp only [List.tail_cons, List.zipWith_cons_cons, List.sum_cons, List.head?_cons, Option.some.injEq] at i1 i2 ⊢
      constructor
      · by_cases hc : s < b ∧ b ≤ s'
        · rw [if_pos hc, i2 s' rfl hc.2]
        · rw [if_neg hc]; omega
      · rintro _ rfl hbs
        rw [if_neg fun e => absurd hbs (not_le.2 e.1), i2 s' rfl (hbs.trans hss)]

theorem zipWith_add_sum (f g : K → K → Nat) (l m : List K) : (List.zipWith (fun a b => f a b + g a b) l m).sum = (List.zipWith f l m).sum + (List.zipWith g l m).sum := by
  induction l generalizing m with
  | nil => simp
  | cons a l ih =>
    cases m with
    | nil => simp
    | cons b m => simp only [List.zipWith_cons_cons, List.sum_cons, ih]; omega

theorem count_once (l : List K) (h : l.Pairwise (· ≤ ·)) (D : List (Pt K Q)) (P : Pt K Q → Prop) [DecidablePred P] (v : Pt K Q → K) :
    (List.zipWith (fun s s' => D.countP fun p => decide (P p ∧ s < v p ∧ v p ≤ s')) l l.tail).sum ≤ D.countP fun p => decide (P p) := by
  induction D with
  | nil =>
    simp only [List.countP_nil, Nat.le_zero_eq, List.sum_eq_zero_iff_forall_eq_nat]
    intro x hx
    rw [List.mem_iff_getElem?] at hx
    obtain ⟨i, hi⟩ := hx
    rw [List.getElem?_zipWith] at hi
    cases h1 : l[i]? <;> cases h2 : l.tail[i]? <;> simp_all
  | cons p D ih =>
    simp only [List.countP_cons]
    rw [zipWith_add_sum]
    apply Nat.add_le_add ih
    by_cases hp : P p
    · simp only [hp, true_and, decide_true, if_true, decide_eq_true_eq]
      exact (once h (v p)).1
    · simp only [hp, false_and, decide_false, Bool.false_eq_true, if_false, Nat.le_zero_eq, List.sum_eq_zero_iff_forall_eq_nat]
      intro x hx
      rw [List.mem_iff_getElem?] at hx
      obtain ⟨i, hi⟩ := hx
      rw [List.getElem?_zipWith] at hi
      cases h1 : l[i]? <;> cases h2 : l.tail[i]? <;> simp_all

/-- **C157.** The absolute values of the first derivative of a Betti curve, for a sampling in increasing order, add up to at most twice the number of features. -/
theorem C157_variation (dims : List Q) (sampling : Q → List K) (nJobs nJobs' nBins : Nat) (X : List (List (Pt K Q))) (hn : 1 ≤ nJobs) (hn' : 1 ≤ nJobs') (hb : 2 ≤ nBins) (hd : dims ≠ []) (hX : X ≠ [])
    (hE : ∀ q ∈ dims, EqualCounts X q) (hD : ∀ D ∈ X, ∀ p ∈ D, p.b ≤ p.d) (hs : ∀ q ∈ dims, (sampling q).Pairwise (· ≤ ·)) :
    ∃ R Y, bettiTransform dims sampling nJobs X = .ok R ∧ derivativeTransform 1 nJobs' nBins (signed R) = .ok Y ∧
      ∀ (i j : Nat) D q d c, X[i]? = some D → dims[j]? = some q → Y[i]? = some d → d[j]? = some c → (c.map Int.natAbs).sum ≤ 2 * features D q := by
  refine ⟨_, _, bettiTransform_eq dims sampling nJobs X hn hd hX hE, derivative_one nJobs' nBins hn' hb _, fun i j D q d c h1 h2 h3 h4 => ?_⟩
  unfold signed at h3
  rw [List.getElem?_map, List.getElem?_map, List.getElem?_map, h1] at h3
  simp only [Option.map_some, Option.some.injEq] at h3
  subst h3
  rw [List.getElem?_map, List.getElem?_map, List.getElem?_map, h2] at h4
  simp only [Option.map_some, Option.some.injEq, List.map_map] at h4
  subst h4
  have hinc := hs q (List.mem_of_getElem? h2)
  have hDD := hD D (List.mem_of_getElem? h1)
  generalize sampling q = l at hinc
  have hstep : ((TimeSeries.npDiff (l.map ((fun (n : Nat) => (n : Int)) ∘ fun s => aliveAt D q s))).map Int.natAbs).sum ≤ (List.zipWith (fun s s' => bornIn D q s s' + diedIn D q s s') l l.tail).sum := by
    clear h1 h2 hs
    induction l with
    | nil => simp [TimeSeries.npDiff]
    | cons s l ih =>
      cases l with
      | nil => simp [TimeSeries.npDiff]
      | cons s' l =>
        rw [List.pairwise_cons] at hinc
        have ih := ih hinc.2
        simp only [List.map_cons, Function.comp] at ih ⊢
        rw [CurveDerivatives.npDiff_cons]
        simp only [List.map_cons, List.sum_cons, List.tail_cons, List.zipWith_cons_cons] at ih ⊢
        have := alive_step D q s s' hDD (hinc.1 s' List.mem_cons_self)
        have h2 : ((aliveAt D q s' : Int) - aliveAt D q s).natAbs ≤ bornIn D q s s' + diedIn D q s s' := by omega
        exact Nat.add_le_add h2 ih
  refine hstep.trans ?_
  rw [zipWith_add_sum]
  have a := count_once l hinc D (fun p => p.q = q ∧ p.b < p.d) (fun p => p.b)
  have b := count_once l hinc D (fun p => p.q = q ∧ p.b < p.d) (fun p => p.d)
  unfold features
  simp only [and_assoc] at a b
  have a' : (List.zipWith (bornIn D q) l l.tail).sum ≤ D.countP fun p => decide (p.q = q ∧ p.b < p.d) := a
  have b' : (List.zipWith (diedIn D q) l l.tail).sum ≤ D.countP fun p => decide (p.q = q ∧ p.b < p.d) := b
  have e1 : (List.zipWith (fun s s' => bornIn D q s s') l l.tail) = List.zipWith (bornIn D q) l l.tail := rfl
  have e2 : (List.zipWith (fun s s' => diedIn D q s s') l l.tail) = List.zipWith (diedIn D q) l l.tail := rfl
  rw [e1, e2]
  omega

section
variable [IsStrictOrderedRing K]

/-- **C157.** The first derivative of each layer of a landscape is at most the distance of the two sampled values. -/
theorem C157_landscape (dims : List Q) (sampling : Q → List K) (nLayers nJobs nJobs' nBins : Nat) (X : List (List (Pt K Q))) (hn : 1 ≤ nJobs) (hn' : 1 ≤ nJobs') (hb : 2 ≤ nBins) (hd : dims ≠ []) (hX : X ≠ [])
    (hE : ∀ q ∈ dims, EqualCounts X q) :
    ∃ R Y, landscapeTransform dims sampling nLayers nJobs X = .ok R ∧ derivativeTransform 1 nJobs' nBins R = .ok Y ∧
      ∀ (i j k t : Nat) D q s s', X[i]? = some D → dims[j]? = some q → k < nLayers → (sampling q)[t]? = some s → (sampling q)[t + 1]? = some s' → ∃ v, entry3 Y i (j * nLayers + k) t = some v ∧ |v| ≤ |s' - s| := by
  obtain ⟨R, hR, hv⟩ := C28_lipschitz dims sampling nLayers nJobs X hn hd hX hE
  refine ⟨R, _, hR, derivative_one nJobs' nBins hn' hb _, fun i j k t D q s s' h1 h2 hk h3 h4 => ?_⟩
  obtain ⟨v, v', e, e', hl⟩ := hv i j k t (t + 1) D q s s' h1 h2 hk h3 h4
  exact ⟨_, entry3_derivative e e', by rw [abs_sub_comm v' v, abs_sub_comm s' s]; exact hl⟩

end

/-- Non-vacuity: two diagrams in two dimensions. -/
example : (∀ D ∈ crvX, ∀ p ∈ D, p.b ≤ p.d) ∧ (∀ q ∈ [0, 1], EqualCounts crvX q) ∧ bettiTransform [0, 1] (fun _ => [0, 1, 2]) 2 crvX = .ok [[[1, 2, 1], [0, 0, 0]], [[1, 0, 0], [1, 1, 1]]] ∧
    derivativeTransform 1 2 3 (signed [[[1, 2, 1], [0, 0, 0]], [[1, 0, 0], [1, 1, 1]]]) = .ok [[[1, -1], [0, 0]], [[-1, 0], [0, 0]]] ∧
    (bornIn [⟨0, 2, 0⟩, ⟨1, 3, 0⟩, ⟨1, 1, 1⟩] 0 (0 : ℚ) 1, diedIn [⟨0, 2, 0⟩, ⟨1, 3, 0⟩, ⟨1, 1, 1⟩] 0 (1 : ℚ) 2, features [⟨0, 2, 0⟩, ⟨1, 3, 0⟩, ⟨1, 1, 1⟩] 0 (K := ℚ)) = (1, 1, 2) := by
  unfold EqualCounts
  refine ⟨?_, ?_, ?_, ?_, ?_⟩ <;> decide +kernel

end Gtda.Props.BettiDerivatives
