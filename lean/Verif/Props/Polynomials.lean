import Verif.Props.Features
import Mathlib.Algebra.Polynomial.BigOperators
import Mathlib.Algebra.Polynomial.Roots

set_option autoImplicit false
set_option linter.unusedSectionVars false

/-!
# Properties of complex polynomials (C39)
-/

namespace Gtda.Props
open Gtda.Py Gtda.Parallel Gtda.Diagrams Polynomial

variable {Q : Type} [DecidableEq Q]

/-! ### Specification -/

/-- The roots documented for the three types of polynomials. -/
noncomputable def specRoot (t : PolyType) (p : Pt ℝ Q) : ℂ :=
  match t with
  | .R => p.b + p.d * Complex.I
  | .S => (p.d - p.b) / (Real.sqrt 2 * Real.sqrt (p.b ^ 2 + p.d ^ 2)) * (p.b + p.d * Complex.I)
  | .T => (p.d - p.b) / 2 * ((Real.cos (Real.sqrt (p.b ^ 2 + p.d ^ 2)) - Real.sin (Real.sqrt (p.b ^ 2 + p.d ^ 2)) : ℝ) +
      (Real.cos (Real.sqrt (p.b ^ 2 + p.d ^ 2)) + Real.sin (Real.sqrt (p.b ^ 2 + p.d ^ 2)) : ℝ) * Complex.I)

/-- The product of `X - root(p)` over the off-diagonal points in dimension `q`. -/
noncomputable def diagramPoly (t : PolyType) (D : List (Pt ℝ Q)) (q : Q) : ℂ[X] := ((offDiag (pointsIn D q)).map fun p => X - C (specRoot t p)).prod

/-- The vector of length `2 n` with the real, then the imaginary parts of the first `n` coefficients after the leading one of the polynomial `P` of degree `d` (zero if there are less). -/
noncomputable def coeffVector (P : ℂ[X]) (d n : Nat) : List ℝ :=
  ((List.range n).map fun j => if j < d then (P.coeff (d - 1 - j)).re else 0) ++ ((List.range n).map fun j => if j < d then (P.coeff (d - 1 - j)).im else 0)

/-! ### Proofs -/

theorem root_eq (t : PolyType) (p : Pt ℝ Q) (h : p.b ≠ p.d) : t.root p = specRoot t p := by
  cases t with
  | R => 
    apply Complex.ext <;> simp [PolyType.root, rootR, specRoot]
  | S =>
    have hn : ptNorm p ≠ 0 := by
      unfold ptNorm
      rw [Real.sqrt_ne_zero (by positivity)]
      intro h0
      have hb : p.b = 0 := by nlinarith [sq_nonneg p.b, sq_nonneg p.d]
      have hd : p.d = 0 := by nlinarith [sq_nonneg p.b, sq_nonneg p.d]
      exact h (hb.trans hd.symm)
    have e : (⟨p.b, p.d⟩ : ℂ) = p.b + p.d * Complex.I := by apply Complex.ext <;> simp
    simp only [PolyType.root, rootS, specRoot, if_neg hn, e]
    unfold ptNorm
    push_cast
    ring
  | T =>
    simp only [PolyType.root, rootT, specRoot]
    unfold ptNorm
    have e : ∀ x y : ℝ, (⟨x, y⟩ : ℂ) = (x : ℂ) + (y : ℂ) * Complex.I := by intro x y; apply Complex.ext <;> simp
    rw [e]
    push_cast
    ring

/-- The polynomial with the coefficients `a`, highest degree first. -/
noncomputable def hornerPoly (a : List ℂ) : ℂ[X] := a.foldl (fun P c => P * X + C c) 0

theorem hornerPoly_append (a : List ℂ) (c : ℂ) : hornerPoly (a ++ [c]) = hornerPoly a * X + C c := by
  simp [hornerPoly]

theorem hornerPoly_coeff (a : List ℂ) (j : Nat) (hj : j < a.length) : (hornerPoly a).coeff (a.length - 1 - j) = a[j] := by
  induction a using List.reverseRecOn with
  | nil => simp at hj
  | append_singleton a c ih =>
    rw [hornerPoly_append]
    simp only [List.length_append, List.length_cons, List.length_nil] at hj ⊢
    by_cases h : j < a.length
    · have e : a.length + (0 + 1) - 1 - j = (a.length - 1 - j) + 1 := by omega
      rw [e, coeff_add, coeff_mul_X, ih h, coeff_C_succ, add_zero, List.getElem_append_left h]
    · have e : j = a.length := by omega
      subst e
      simp

theorem convolve1_length (a : List ℂ) (z : ℂ) : (convolve1 a z).length = a.length + 1 := by
  simp [convolve1]

/-- Prefix form: the convolution of `a ++ [c]` extends the one of `a`. -/
theorem hornerPoly_zip (a : List ℂ) : ∀ (P R : ℂ[X]) (u v : List ℂ) (z : ℂ), u.length = v.length →
    (List.zipWith (fun x y => x * 1 + y * (-z)) u v).foldl (fun P c => P * X + C c) (P - R * C z) =
      u.foldl (fun P c => P * X + C c) P - v.foldl (fun P c => P * X + C c) R * C z := by
  intro P R u v z h
  induction u generalizing v P R with
  | nil =>
    cases v with
    | nil => simp
    | cons => simp at h
  | cons x u ih =>
    cases v with
    | nil => simp at h
    | cons y v =>
      simp only [List.zipWith_cons_cons, List.foldl_cons]
      rw [← ih _ _ v (by simpa using h)]
      congr 1
      simp only [map_add, map_mul, map_neg, mul_one]
      ring

theorem hornerPoly_convolve (a : List ℂ) (z : ℂ) : hornerPoly (convolve1 a z) = hornerPoly a * (X - C z) := by
  have h := hornerPoly_zip a 0 0 (a ++ [0]) (0 :: a) z (by simp)
  simp only [zero_mul, sub_zero] at h
  unfold convolve1
  unfold hornerPoly at *
  rw [h]
  simp only [List.foldl_append, List.foldl_cons, List.foldl_nil, map_zero, add_zero, zero_mul]
  ring

theorem foldl_convolve (roots : List ℂ) : ∀ a : List ℂ, (roots.foldl convolve1 a).length = a.length + roots.length ∧
    hornerPoly (roots.foldl convolve1 a) = hornerPoly a * (roots.map fun z => X - C z).prod := by
  induction roots with
  | nil => intro a; simp
  | cons z t ih =>
    intro a
    obtain ⟨h1, h2⟩ := ih (convolve1 a z)
    refine ⟨?_, ?_⟩
    · rw [List.foldl_cons, h1, convolve1_length, List.length_cons]; omega
    · rw [List.foldl_cons, h2, hornerPoly_convolve, List.map_cons, List.prod_cons, mul_assoc]

theorem prod_conj (roots : List ℂ) : ((roots.map fun z => X - C z).prod).map (starRingEnd ℂ) = ((roots.map (starRingEnd ℂ)).map fun z => X - C z).prod := by
  induction roots with
  | nil => simp
  | cons z t ih => simp [ih]

/-- `np.poly` of a nonempty list of roots. -/
theorem npPoly_spec (roots : List ℂ) (h : roots ≠ []) : ∃ a, npPoly roots = some a ∧ a.length = roots.length + 1 ∧
    ∀ j (hj : j < a.length), a[j] = ((roots.map fun z => X - C z).prod).coeff (roots.length - j) := by
  obtain ⟨h1, h2⟩ := foldl_convolve roots [1]
  have hP : hornerPoly (roots.foldl convolve1 [1]) = (roots.map fun z => X - C z).prod := by
    rw [h2]; simp [hornerPoly]
  have hlen : (roots.foldl convolve1 [1]).length = roots.length + 1 := by rw [h1]; simp [Nat.add_comm]
  have hcoeff : ∀ j (hj : j < (roots.foldl convolve1 [1]).length), (roots.foldl convolve1 [1])[j] = ((roots.map fun z => X - C z).prod).coeff (roots.length - j) := by
    intro j hj
    rw [← hornerPoly_coeff _ j hj, hP, hlen]
    congr 1
  unfold npPoly
  rw [if_neg h]
  dsimp only
  split_ifs with hc
  · refine ⟨_, rfl, by simp [hlen], ?_⟩
    intro j hj
    have hj' : j < (roots.foldl convolve1 [1]).length := by simpa using hj
    rw [List.getElem_map, hcoeff j hj']
    have hconj : ((roots.map fun z => X - C z).prod).map (starRingEnd ℂ) = (roots.map fun z => X - C z).prod := by
      rw [prod_conj]
      exact (hc.symm.map _).prod_eq
    have := congrArg (fun P => coeff P (roots.length - j)) hconj
    simp only [coeff_map] at this
    exact Complex.conj_eq_iff_re.mp this
  · exact ⟨_, rfl, hlen, hcoeff⟩

theorem npPoly_nil : npPoly [] = none := by simp [npPoly]

theorem complexPolynomial_eq (t : PolyType) (n : Nat) (D : List (Pt ℝ Q)) (q : Q) (h : ¬ TrivialIn D q) :
    complexPolynomial t n (pointsIn D q) = .ok (coeffVector (diagramPoly t D q) (offDiag (pointsIn D q)).length n) := by
  have hroots : ((pointsIn D q).filter fun p => decide (p.b ≠ p.d)).map t.root = (offDiag (pointsIn D q)).map (specRoot t) := by
    apply List.map_congr_left
    intro p hp
    exact root_eq t p (by simpa using (List.mem_filter.mp hp).2)
  have hne : (offDiag (pointsIn D q)).map (specRoot t) ≠ [] := by
    intro h0
    exact h ((trivialIn_offDiag D q).mpr (List.map_eq_nil_iff.mp h0))
  obtain ⟨a, ha, hl, hc⟩ := npPoly_spec _ hne
  have hP : (((offDiag (pointsIn D q)).map (specRoot t)).map fun z => X - C z).prod = diagramPoly t D q := by
    unfold diagramPoly
    rw [List.map_map]
    rfl
  rw [List.length_map] at hl hc
  rw [hP] at hc
  unfold complexPolynomial
  simp only [hroots, ha]
  have key : ∀ f : ℂ → ℝ, ((a.drop 1).take (min n (a.drop 1).length)).map f ++ List.replicate (n - min n (a.drop 1).length) 0 =
      (List.range n).map fun j => if j < (offDiag (pointsIn D q)).length then f ((diagramPoly t D q).coeff ((offDiag (pointsIn D q)).length - 1 - j)) else 0 := by
    intro f
    have hdl : (a.drop 1).length = (offDiag (pointsIn D q)).length := by simp [hl]
    apply List.ext_getElem
    · simp [hdl]
    · intro j hj1 hj2
      simp only [List.length_map, List.length_range] at hj2
      rw [List.getElem_map, List.getElem_range]
      by_cases hj : j < (offDiag (pointsIn D q)).length
      · rw [List.getElem_append_left (by simp [hdl]; omega), List.getElem_map, List.getElem_take, List.getElem_drop, hc, if_pos hj]
        congr 2
        omega
      · rw [List.getElem_append_right (by simp [hdl]; omega), List.getElem_replicate, if_neg hj]
  rw [key, key]
  rfl

theorem polynomialTask_eq (t : PolyType) (D : List (Pt ℝ Q)) (q : Q) (n : Nat) (h : ¬ TrivialIn D q) :
    polynomialTask t (D, (q, n)) = .ok (coeffVector (diagramPoly t D q) (offDiag (pointsIn D q)).length n) := by
  unfold polynomialTask
  simp only
  rw [subdiagrams_single [D] q (by simp) (by simp [EqualCounts]), ok_bind]
  exact complexPolynomial_eq t n D q h

theorem coeffVector_length (P : ℂ[X]) (d n : Nat) : (coeffVector P d n).length = 2 * n := by
  simp [coeffVector]; omega

/-- **C39**, partial. If every diagram has an off-diagonal point in each homology dimension, row `i` of the output is the concatenation over the homology dimensions of the vectors
of real and imaginary parts of the coefficients (after the leading one) of the monic polynomial whose roots are given by the off-diagonal points. Missing: see `C39_refuted_trivial`. -/
theorem C39_coefficients_partial (t : PolyType) (dims : List Q) (coeffs : List Nat) (hd : dims ≠ []) (hl : coeffs.length = dims.length) (X : List (List (Pt ℝ Q))) (hX : X ≠ [])
    (hne : ∀ D ∈ X, ∀ q ∈ dims, ¬ TrivialIn D q) :
    polynomialTransform t dims coeffs X =
      .ok (X.map fun D => ((dims.zip coeffs).map fun qn => coeffVector (diagramPoly t D qn.1) (offDiag (pointsIn D qn.1)).length qn.2).flatten) := by
  have hzip : dims.zip coeffs ≠ [] := by
    cases dims with
    | nil => exact absurd rfl hd
    | cons q t =>
      cases coeffs with
      | nil => simp at hl
      | cons => simp
  have hmem : ∀ qn ∈ dims.zip coeffs, qn.1 ∈ dims := fun qn h => (List.of_mem_zip (a := qn.1) (b := qn.2) h).1
  unfold polynomialTransform
  rw [mapM_ok (g := fun x => coeffVector (diagramPoly t x.1 x.2.1) (offDiag (pointsIn x.1 x.2.1)).length x.2.2)]
  · rw [ok_bind, List.map_flatMap]
    set row : List (Pt ℝ Q) → List ℝ := fun D => ((dims.zip coeffs).map fun qn => coeffVector (diagramPoly t D qn.1) (offDiag (pointsIn D qn.1)).length qn.2).flatten with hrow
    set w : Nat := ((dims.zip coeffs).map fun qn => 2 * qn.2).sum with hw
    have hrl : ∀ D, (row D).length = w := by
      intro D
      rw [hrow, hw]
      simp only [List.length_flatten, List.map_map, Function.comp_def, coeffVector_length]
    have hconc : ∀ l : List (List ℝ), l ≠ [] → concatAxis0 l = .ok l.flatten := by
      intro l h
      cases l with
      | nil => exact absurd rfl h
      | cons => rfl
    rw [hconc, ok_bind]
    · have hflat : (X.flatMap fun D => ((dims.zip coeffs).map fun qn => (D, qn)).map fun x : List (Pt ℝ Q) × Q × Nat =>
          coeffVector (diagramPoly t x.1 x.2.1) (offDiag (pointsIn x.1 x.2.1)).length x.2.2).flatten = (X.map row).flatten := by
        rw [hrow]
        induction X with
        | nil => rfl
        | cons D X ih =>
          by_cases hX' : X = []
          · subst hX'; simp [Function.comp_def]
          · have := ih hX' fun D' hD' => hne D' (List.mem_cons_of_mem _ hD')
            rw [List.flatMap_cons, List.flatten_append, this, List.map_cons, List.flatten_cons, List.map_map]
            rfl
      rw [hflat]
      have hlen : (X.map row).flatten.length = X.length * w := by
        rw [List.length_flatten, List.map_map]
        simp [Function.comp_def, hrl]
      rw [hlen, Nat.mul_div_cancel_left _ (List.length_pos_of_ne_nil hX)]
      have := reshape2_flatten (X.map row) w (by
        intro l hl
        rw [List.mem_map] at hl
        obtain ⟨D, -, rfl⟩ := hl
        exact hrl D)
      rw [List.length_map] at this
      exact this
    · intro h0
      rw [List.flatMap_eq_nil_iff] at h0
      obtain ⟨D, hD⟩ := List.exists_mem_of_ne_nil X hX
      have := h0 D hD
      simp [hzip] at this
  · intro x hx
    rw [List.mem_flatMap] at hx
    obtain ⟨D, hD, hx⟩ := hx
    rw [List.mem_map] at hx
    obtain ⟨qn, hqn, rfl⟩ := hx
    exact polynomialTask_eq t D qn.1 qn.2 (hne D hD qn.1 (hmem qn hqn))

/-- **C39.** The polynomial does not depend on the order of the points, nor on diagonal points. -/
theorem C39_invariance (t : PolyType) (D D' : List (Pt ℝ Q)) (q : Q) (h : SameFeatures D D') :
    diagramPoly t D q = diagramPoly t D' q ∧ (offDiag (pointsIn D q)).length = (offDiag (pointsIn D' q)).length ∧ (diagramPoly t D q).Monic ∧
      (diagramPoly t D q).natDegree = (offDiag (pointsIn D q)).length ∧ ∀ p ∈ offDiag (pointsIn D q), (diagramPoly t D q).IsRoot (specRoot t p) := by
  have hp := pointsIn_perm h q
  refine ⟨(hp.map _).prod_eq, hp.length_eq, ?_, ?_, ?_⟩
  · unfold diagramPoly
    induction offDiag (pointsIn D q) with
    | nil => exact monic_one
    | cons p t ih => rw [List.map_cons, List.prod_cons]; exact (monic_X_sub_C _).mul ih
  · unfold diagramPoly
    have : ((offDiag (pointsIn D q)).map fun p => X - C (specRoot t p)) = ((offDiag (pointsIn D q)).map (specRoot t)).map fun z => X - C z := by rw [List.map_map]; rfl
    rw [this, ← Multiset.prod_coe, ← Multiset.map_coe, natDegree_multiset_prod_X_sub_C_eq_card]
    simp
  · intro p hp
    unfold diagramPoly IsRoot
    rw [eval_list_prod, List.prod_eq_zero_iff, List.map_map, List.mem_map]
    exact ⟨p, hp, by simp⟩

/-- **C39** is false if a diagram has only diagonal points in some homology dimension: `np.poly` returns a number for an empty array of roots, and `transform` raises `TypeError` whatever the
other diagrams are. -/
theorem C39_refuted_trivial (t : PolyType) (dims : List Q) (coeffs : List Nat) (hl : coeffs.length = dims.length) (X : List (List (Pt ℝ Q)))
    (hex : ∃ D ∈ X, ∃ q ∈ dims, TrivialIn D q) : polynomialTransform t dims coeffs X = .error .typeError := by
  have htriv : ∀ (D : List (Pt ℝ Q)) (q : Q) (n : Nat), TrivialIn D q → polynomialTask t (D, (q, n)) = .error .typeError := by
    intro D q n h
    unfold polynomialTask
    simp only
    rw [subdiagrams_single [D] q (by simp) (by simp [EqualCounts]), ok_bind]
    unfold complexPolynomial
    have : (pointsIn D q).filter (fun p => decide (p.b ≠ p.d)) = [] := (trivialIn_offDiag D q).mp h
    simp only [List.map_cons, List.map_nil, List.headD_cons, this, npPoly_nil]
  have htask : ∀ x : List (Pt ℝ Q) × Q × Nat, polynomialTask t x = .error .typeError ∨ ∃ y, polynomialTask t x = .ok y := by
    rintro ⟨D, q, n⟩
    by_cases h : TrivialIn D q
    · exact Or.inl (htriv D q n h)
    · exact Or.inr ⟨_, polynomialTask_eq t D q n h⟩
  have hmapM : ∀ l : List (List (Pt ℝ Q) × Q × Nat), (∃ x ∈ l, polynomialTask t x = .error .typeError) → l.mapM (polynomialTask t) = .error .typeError := by
    intro l
    induction l with
    | nil => simp
    | cons a l ih =>
      rintro ⟨x, hx, he⟩
      rw [List.mapM_cons]
      rcases htask a with h | ⟨y, h⟩
      · rw [h]; rfl
      · rcases List.mem_cons.mp hx with rfl | hx
        · rw [h] at he; cases he
        · rw [h, ih ⟨x, hx, he⟩]; rfl
  unfold polynomialTransform
  rw [hmapM]
  · rfl
  · obtain ⟨D, hD, q, hq, h⟩ := hex
    obtain ⟨k, hk, rfl⟩ := List.getElem_of_mem hq
    refine ⟨(D, (dims[k], coeffs[k])), ?_, htriv D _ _ h⟩
    rw [List.mem_flatMap]
    refine ⟨D, hD, List.mem_map_of_mem ?_⟩
    have : (dims.zip coeffs)[k]'(by simp; omega) = (dims[k], coeffs[k]) := by simp
    rw [← this]
    exact List.getElem_mem _

/-- **C39.** `n_coefficients`: a number is used for every dimension, a list must have one entry per dimension, and by default all points of the first training diagram are counted. -/
theorem C39_fit {K : Type} (p : NCoeff) (dims : List Q) (X0 : List (Pt K Q)) :
    (∀ l, fitCoefficients p dims X0 = .ok l → l.length = dims.length) ∧
    (∀ n, p = .int n → ∀ k, k < dims.length → ∃ l, fitCoefficients p dims X0 = .ok l ∧ l[k]? = some n) ∧
    (∀ l, p = .list l → fitCoefficients p dims X0 = if l.length = dims.length then .ok l else .error .valueError) ∧
    (p = .default → ∀ (k : Nat) q, dims[k]? = some q → ∃ l, fitCoefficients p dims X0 = .ok l ∧ l[k]? = some (pointsIn X0 q).length) := by
  refine ⟨?_, ?_, ?_, ?_⟩
  · intro l h
    cases p with
    | default => cases h; simp
    | int n => cases h; simp
    | list l' =>
      simp only [fitCoefficients] at h
      split_ifs at h with h'
      cases h
      exact not_not.mp h'
  · rintro n rfl k hk
    exact ⟨_, rfl, by simp [hk]⟩
  · rintro l rfl
    unfold fitCoefficients
    split_ifs <;> simp_all
  · rintro rfl k q hk
    exact ⟨_, rfl, by simp [hk, pointsIn]⟩

example : ¬ TrivialIn ([⟨0, 1, 0⟩, ⟨1, 3, 0⟩, ⟨5, 5, 0⟩] : List (Pt ℝ Nat)) 0 ∧
    diagramPoly .R ([⟨0, 1, 0⟩, ⟨1, 3, 0⟩, ⟨5, 5, 0⟩] : List (Pt ℝ Nat)) 0 = (X - C Complex.I) * (X - C (1 + 3 * Complex.I)) := by
  refine ⟨fun h => ?_, ?_⟩
  · have := h ⟨0, 1, 0⟩ (by simp) rfl
    norm_num at this
  · simp [diagramPoly, offDiag, pointsIn, specRoot]

end Gtda.Props
