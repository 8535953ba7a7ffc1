import Verif.Props.Polynomials
import Mathlib.Analysis.SpecialFunctions.Trigonometric.Basic

set_option autoImplicit false
set_option linter.unusedSectionVars false

/-!
# What complex polynomials keep of a diagram (C160)

The models are those of C39, and so are the specification of roots (`specRoot`) and coefficients; the statements below mention diagrams and outputs only.
-/

namespace Gtda.Props.PolynomialContent
open Gtda.Py Gtda.Parallel Gtda.Diagrams Gtda.Props Polynomial

variable {Q : Type} [DecidableEq Q]

/-! ### Auxiliary results -/

theorem coeffVector_inj (P P' : ℂ[X]) (d d' n : Nat) (hP : P.Monic) (hP' : P'.Monic) (hd : P.natDegree = d) (hd' : P'.natDegree = d') (hn : d ≤ n) (hn' : d' ≤ n)
    (h : coeffVector P d n = coeffVector P' d' n) : P * X ^ (n - d) = P' * X ^ (n - d') := by
  have hs := List.append_inj h (by simp)
  have hj : ∀ j < n, (if j < d then P.coeff (d - 1 - j) else 0) = if j < d' then P'.coeff (d' - 1 - j) else 0 := by
    intro j hj
    have h1 := congrArg (fun l : List ℝ => l[j]?) hs.1
    have h2 := congrArg (fun l : List ℝ => l[j]?) hs.2
    simp only [List.getElem?_map, List.getElem?_range hj, Option.map_some, Option.some.injEq] at h1 h2
    apply Complex.ext
    · split_ifs at h1 ⊢ <;> simpa using h1
    · split_ifs at h2 ⊢ <;> simpa using h2
  have hdeg : ∀ (R : ℂ[X]) (e : Nat), R.Monic → R.natDegree = e → e ≤ n → (R * X ^ (n - e)).Monic ∧ (R * X ^ (n - e)).natDegree = n := by
    intro R e hR he hle
    refine ⟨hR.mul (monic_X_pow _), ?_⟩
    rw [hR.natDegree_mul (monic_X_pow _), he, natDegree_X_pow]
    omega
  obtain ⟨m1, e1⟩ := hdeg P d hP hd hn
  obtain ⟨m2, e2⟩ := hdeg P' d' hP' hd' hn'
  ext k
  rcases lt_trichotomy k n with hk | rfl | hk
  · have key : ∀ (R : ℂ[X]) (e : Nat), e ≤ n → (R * X ^ (n - e)).coeff k = if n - 1 - k < e then R.coeff (e - 1 - (n - 1 - k)) else 0 := by
      intro R e he
      rw [coeff_mul_X_pow']
      by_cases hc : n - e ≤ k
      · rw [if_pos hc, if_pos (by omega)]
        congr 1
        omega
      · rw [if_neg hc, if_neg (by omega)]
    rw [key P d hn, key P' d' hn', hj (n - 1 - k) (by omega)]
  · have a1 := m1.coeff_natDegree
    have a2 := m2.coeff_natDegree
    rw [e1] at a1
    rw [e2] at a2
    rw [a1, a2]
  · rw [coeff_eq_zero_of_natDegree_lt (by omega), coeff_eq_zero_of_natDegree_lt (by omega)]

theorem roots_eq (A A' : List ℂ) (hA : (0 : ℂ) ∉ A) (hA' : (0 : ℂ) ∉ A') (m m' : Nat)
    (h : (A.map fun z => X - C z).prod * X ^ m = (A'.map fun z => X - C z).prod * X ^ m') : A.Perm A' := by
  have hr : ∀ (B : List ℂ) (k : Nat), ((B.map fun z => X - C z).prod * X ^ k).roots = (B : Multiset ℂ) + k • {(0 : ℂ)} := by
    intro B k
    have hm : (B.map fun z => (X - C z : ℂ[X])).prod = ((B : Multiset ℂ).map fun z => X - C z).prod := by simp
    have hne : ((B : Multiset ℂ).map fun z => (X - C z : ℂ[X])).prod ≠ 0 := (monic_multiset_prod_of_monic _ _ fun z _ => monic_X_sub_C z).ne_zero
    rw [hm, roots_mul (mul_ne_zero hne (pow_ne_zero _ X_ne_zero)), roots_multiset_prod_X_sub_C, roots_X_pow]
  have hf : ∀ (B : List ℂ) (k : Nat), (0 : ℂ) ∉ B → ((B : Multiset ℂ) + k • {(0 : ℂ)}).filter (fun z => z ≠ 0) = (B : Multiset ℂ) := by
    intro B k hB
    rw [Multiset.filter_add, Multiset.filter_eq_self.2 (fun z hz => by rintro rfl; exact hB (by simpa using hz)), Multiset.filter_eq_nil.2, add_zero]
    intro z hz
    have := Multiset.mem_of_mem_nsmul hz
    simpa using this
  have h1 := congrArg (fun P : ℂ[X] => P.roots.filter fun z => z ≠ 0) h
  simp only [hr] at h1
  rw [hf A m hA, hf A' m' hA'] at h1
  exact Multiset.coe_eq_coe.1 h1

/-- The block of coefficients of one homology dimension determines the roots. -/
theorem block_perm (t : PolyType) (D D' : List (Pt ℝ Q)) (q : Q) (n : Nat) (h0 : ∀ p ∈ offDiag (pointsIn D q), specRoot t p ≠ 0)
    (h0' : ∀ p ∈ offDiag (pointsIn D' q), specRoot t p ≠ 0) (hn : (offDiag (pointsIn D q)).length ≤ n) (hn' : (offDiag (pointsIn D' q)).length ≤ n)
    (h : coeffVector (diagramPoly t D q) (offDiag (pointsIn D q)).length n = coeffVector (diagramPoly t D' q) (offDiag (pointsIn D' q)).length n) :
    ((offDiag (pointsIn D q)).map (specRoot t)).Perm ((offDiag (pointsIn D' q)).map (specRoot t)) := by
  obtain ⟨-, -, m, e, -⟩ := C39_invariance t D D q (List.Perm.refl _)
  obtain ⟨-, -, m', e', -⟩ := C39_invariance t D' D' q (List.Perm.refl _)
  have := coeffVector_inj _ _ _ _ n m m' e e' hn hn' h
  refine roots_eq _ _ ?_ ?_ (n - (offDiag (pointsIn D q)).length) (n - (offDiag (pointsIn D' q)).length) ?_
  · intro hm
    obtain ⟨p, hp, e0⟩ := List.mem_map.1 hm
    exact h0 p hp e0
  · intro hm
    obtain ⟨p, hp, e0⟩ := List.mem_map.1 hm
    exact h0' p hp e0
  · simpa [diagramPoly, List.map_map, Function.comp_def] using this

/-- Rows of the output are equal exactly if their blocks are. -/
theorem rows_eq (t : PolyType) (dims : List Q) (coeffs : List Nat) (hd : dims ≠ []) (hl : coeffs.length = dims.length) (X : List (List (Pt ℝ Q)))
    (hne : ∀ D ∈ X, ∀ q ∈ dims, ¬ TrivialIn D q) (Y : List (List ℝ)) (hY : polynomialTransform t dims coeffs X = .ok Y) (i i' : Nat) (D D' : List (Pt ℝ Q)) (y y' : List ℝ)
    (hD : X[i]? = some D) (hD' : X[i']? = some D') (hy : Y[i]? = some y) (hy' : Y[i']? = some y') :
    y = y' ↔ ∀ qn ∈ dims.zip coeffs, coeffVector (diagramPoly t D qn.1) (offDiag (pointsIn D qn.1)).length qn.2 = coeffVector (diagramPoly t D' qn.1) (offDiag (pointsIn D' qn.1)).length qn.2 := by
  have hX : X ≠ [] := by rintro rfl; simp at hD
  rw [C39_coefficients_partial t dims coeffs hd hl X hX hne] at hY
  obtain rfl := Except.ok.inj hY
  rw [List.getElem?_map, hD] at hy
  rw [List.getElem?_map, hD'] at hy'
  obtain rfl := Option.some.inj hy
  obtain rfl := Option.some.inj hy'
  generalize dims.zip coeffs = l
  induction l with
  | nil => simp
  | cons qn l ih =>
    rw [List.forall_mem_cons]
    constructor
    · intro h
      obtain ⟨h1, h2⟩ := List.append_inj (show coeffVector _ _ _ ++ _ = coeffVector _ _ _ ++ _ from h) (by rw [coeffVector_length, coeffVector_length])
      exact ⟨h1, ih.1 h2⟩
    · rintro ⟨h1, h2⟩
      show coeffVector _ _ _ ++ _ = coeffVector _ _ _ ++ _
      exact congrArg₂ (· ++ ·) h1 (ih.2 h2)

theorem mem_off {D : List (Pt ℝ Q)} {q : Q} (hv : ∀ p ∈ D, p.b ≤ p.d) {p : Pt ℝ Q} (hp : p ∈ offDiag (pointsIn D q)) : p.q = q ∧ p.b < p.d := by
  obtain ⟨h1, h2⟩ := List.mem_filter.1 hp
  obtain ⟨h3, h4⟩ := List.mem_filter.1 h1
  exact ⟨by simpa using h4, lt_of_le_of_ne (hv p h3) (by simpa using h2)⟩

theorem normSq_pos (p : Pt ℝ Q) (h : p.b < p.d) : 0 < p.b ^ 2 + p.d ^ 2 := by
  rcases eq_or_ne p.b 0 with hb | hb
  · have : 0 < p.d := hb ▸ h
    positivity
  · positivity

theorem specRoot_S (p : Pt ℝ Q) : (specRoot .S p).re = (p.d - p.b) / (Real.sqrt 2 * Real.sqrt (p.b ^ 2 + p.d ^ 2)) * p.b ∧
    (specRoot .S p).im = (p.d - p.b) / (Real.sqrt 2 * Real.sqrt (p.b ^ 2 + p.d ^ 2)) * p.d := by
  have : specRoot .S p = (((p.d - p.b) / (Real.sqrt 2 * Real.sqrt (p.b ^ 2 + p.d ^ 2)) : ℝ) : ℂ) * (p.b + p.d * Complex.I) := by
    simp [specRoot]
  rw [this]
  constructor
  · rw [Complex.re_ofReal_mul]; simp
  · rw [Complex.im_ofReal_mul]; simp

theorem specRoot_T (p : Pt ℝ Q) : (specRoot .T p).re = (p.d - p.b) / 2 * (Real.cos (Real.sqrt (p.b ^ 2 + p.d ^ 2)) - Real.sin (Real.sqrt (p.b ^ 2 + p.d ^ 2))) ∧
    (specRoot .T p).im = (p.d - p.b) / 2 * (Real.cos (Real.sqrt (p.b ^ 2 + p.d ^ 2)) + Real.sin (Real.sqrt (p.b ^ 2 + p.d ^ 2))) := by
  have : specRoot .T p = (((p.d - p.b) / 2 : ℝ) : ℂ) * ((Real.cos (Real.sqrt (p.b ^ 2 + p.d ^ 2)) - Real.sin (Real.sqrt (p.b ^ 2 + p.d ^ 2)) : ℝ) +
      (Real.cos (Real.sqrt (p.b ^ 2 + p.d ^ 2)) + Real.sin (Real.sqrt (p.b ^ 2 + p.d ^ 2)) : ℝ) * Complex.I) := by
    simp [specRoot]
  rw [this]
  constructor
  · rw [Complex.re_ofReal_mul]; simp [-Complex.ofReal_cos, -Complex.ofReal_sin, -Complex.ofReal_sub, -Complex.ofReal_add]
  · rw [Complex.im_ofReal_mul]; simp [-Complex.ofReal_cos, -Complex.ofReal_sin, -Complex.ofReal_sub, -Complex.ofReal_add]

/-- Roots of types S and T have half the squared lifetime as squared modulus. -/
theorem modulus (t : PolyType) (ht : t = .S ∨ t = .T) (p : Pt ℝ Q) (h : p.b < p.d) : (specRoot t p).re ^ 2 + (specRoot t p).im ^ 2 = (p.d - p.b) ^ 2 / 2 := by
  rcases ht with rfl | rfl
  · obtain ⟨h1, h2⟩ := specRoot_S p
    rw [h1, h2]
    have hN := normSq_pos p h
    have e1 : Real.sqrt 2 ^ 2 = 2 := Real.sq_sqrt (by norm_num)
    have e2 : Real.sqrt (p.b ^ 2 + p.d ^ 2) ^ 2 = p.b ^ 2 + p.d ^ 2 := Real.sq_sqrt hN.le
    rw [mul_pow, mul_pow, div_pow, mul_pow, e1, e2]
    field_simp
  · obtain ⟨h1, h2⟩ := specRoot_T p
    rw [h1, h2]
    have := Real.sin_sq_add_cos_sq (Real.sqrt (p.b ^ 2 + p.d ^ 2))
    linear_combination ((p.d - p.b) ^ 2 / 2) * this

theorem root_ne (t : PolyType) (p : Pt ℝ Q) (h : p.b < p.d) : specRoot t p ≠ 0 := by
  intro e
  have hne : (p.d - p.b) ^ 2 / 2 ≠ 0 := by
    have : p.d - p.b ≠ 0 := by linarith
    positivity
  cases t with
  | R =>
    have h1 := congrArg Complex.re e
    have h2 := congrArg Complex.im e
    simp [specRoot] at h1 h2
    linarith
  | S => exact hne (by rw [← modulus .S (Or.inl rfl) p h, e]; simp)
  | T => exact hne (by rw [← modulus .T (Or.inr rfl) p h, e]; simp)

theorem lifetime_eq (t : PolyType) (p p' : Pt ℝ Q) (h : p.b < p.d) (h' : p'.b < p'.d) (e : specRoot t p = specRoot t p') : p.d - p.b = p'.d - p'.b := by
  have key : ∀ s, s = PolyType.S ∨ s = PolyType.T → specRoot s p = specRoot s p' → p.d - p.b = p'.d - p'.b := by
    intro s hs e
    have h1 := modulus s hs p h
    rw [e, modulus s hs p' h'] at h1
    nlinarith
  cases t with
  | R =>
    have h1 := congrArg Complex.re e
    have h2 := congrArg Complex.im e
    simp [specRoot] at h1 h2
    rw [h1, h2]
  | S => exact key _ (Or.inl rfl) e
  | T => exact key _ (Or.inr rfl) e

theorem point_eq (t : PolyType) (ht : t = .R ∨ t = .S) (p p' : Pt ℝ Q) (hq : p.q = p'.q) (h : p.b < p.d) (h' : p'.b < p'.d) (e : specRoot t p = specRoot t p') : p = p' := by
  have hbd : p.b = p'.b ∧ p.d = p'.d := by
    have hL := lifetime_eq t p p' h h' e
    have h1 := congrArg Complex.re e
    have h2 := congrArg Complex.im e
    rcases ht with rfl | rfl
    · simp [specRoot] at h1 h2
      exact ⟨h1, h2⟩
    · rw [(specRoot_S p).1, (specRoot_S p').1] at h1
      rw [(specRoot_S p).2, (specRoot_S p').2] at h2
      have hc : (p.d - p.b) / (Real.sqrt 2 * Real.sqrt (p.b ^ 2 + p.d ^ 2)) = (p'.d - p'.b) / (Real.sqrt 2 * Real.sqrt (p'.b ^ 2 + p'.d ^ 2)) := by
        have h3 : (p.d - p.b) / (Real.sqrt 2 * Real.sqrt (p.b ^ 2 + p.d ^ 2)) * (p.d - p.b) = (p'.d - p'.b) / (Real.sqrt 2 * Real.sqrt (p'.b ^ 2 + p'.d ^ 2)) * (p'.d - p'.b) := by
          rw [mul_sub, mul_sub, h1, h2]
        rw [← hL] at h3 ⊢
        exact mul_right_cancel₀ (by linarith) h3
      have hpos : (p'.d - p'.b) / (Real.sqrt 2 * Real.sqrt (p'.b ^ 2 + p'.d ^ 2)) ≠ 0 := by
        have hN := normSq_pos p' h'
        have : 0 < p'.d - p'.b := by linarith
        positivity
      rw [hc] at h1 h2
      exact ⟨mul_left_cancel₀ hpos h1, mul_left_cancel₀ hpos h2⟩
  cases p
  cases p'
  simp only at hbd hq
  simp [hbd.1, hbd.2, hq]

theorem perm_of_injOn {α β : Type} [Nonempty α] (f : α → β) (s : Set α) (hf : Set.InjOn f s) (l l' : List α) (hl : ∀ a ∈ l, a ∈ s) (hl' : ∀ a ∈ l', a ∈ s)
    (h : (l.map f).Perm (l'.map f)) : l.Perm l' := by
  have hi : ∀ m : List α, (∀ a ∈ m, a ∈ s) → (m.map f).map (Function.invFunOn f s) = m := by
    intro m hm
    rw [List.map_map]
    conv_rhs => rw [← List.map_id m]
    exact List.map_congr_left fun a ha => hf.leftInvOn_invFunOn (hm a ha)
  have := h.map (Function.invFunOn f s)
  rwa [hi l hl, hi l' hl'] at this

/-! ### Properties -/

/-- **C160.** With as many coefficients as there are off-diagonal points, and for types R and S, the output for a diagram determines its off-diagonal points, with multiplicities. -/
theorem C160_determines (t : PolyType) (ht : t = .R ∨ t = .S) (dims : List Q) (coeffs : List Nat) (hd : dims ≠ []) (hl : coeffs.length = dims.length) (X : List (List (Pt ℝ Q)))
    (hv : ∀ D ∈ X, ∀ p ∈ D, p.b ≤ p.d) (hne : ∀ D ∈ X, ∀ q ∈ dims, ¬ TrivialIn D q)
    (hc : ∀ D ∈ X, ∀ (k : Nat) q n, dims[k]? = some q → coeffs[k]? = some n → (offDiag (pointsIn D q)).length ≤ n)
    (Y : List (List ℝ)) (hY : polynomialTransform t dims coeffs X = .ok Y) (i i' : Nat) (D D' : List (Pt ℝ Q)) (y y' : List ℝ)
    (hD : X[i]? = some D) (hD' : X[i']? = some D') (hy : Y[i]? = some y) (hy' : Y[i']? = some y') :
    y = y' ↔ ∀ q ∈ dims, (offDiag (pointsIn D q)).Perm (offDiag (pointsIn D' q)) := by
  have hm := List.mem_of_getElem? hD
  have hm' := List.mem_of_getElem? hD'
  rw [rows_eq t dims coeffs hd hl X hne Y hY i i' D D' y y' hD hD' hy hy']
  constructor
  · intro h q hq
    obtain ⟨k, hk⟩ := List.getElem?_of_mem hq
    obtain ⟨hk1, -⟩ := List.getElem?_eq_some_iff.1 hk
    have hk2 : coeffs[k]? = some coeffs[k] := List.getElem?_eq_getElem (by omega)
    have hz : (q, coeffs[k]) ∈ dims.zip coeffs := List.mem_of_getElem? (i := k) (by rw [List.getElem?_zip_eq_some]; exact ⟨hk, hk2⟩)
    have hp := block_perm t D D' q coeffs[k] (fun p hp => root_ne t p (mem_off (hv D hm) hp).2) (fun p hp => root_ne t p (mem_off (hv D' hm') hp).2)
      (hc D hm k q _ hk hk2) (hc D' hm' k q _ hk hk2) (h _ hz)
    have : Nonempty (Pt ℝ Q) := ⟨⟨0, 0, q⟩⟩
    exact perm_of_injOn (specRoot t) {p | p.q = q ∧ p.b < p.d} (fun p hp p' hp' e => point_eq t ht p p' (hp.1.trans hp'.1.symm) hp.2 hp'.2 e) _ _
      (fun p hp => mem_off (hv D hm) hp) (fun p hp => mem_off (hv D' hm') hp) hp
  · intro h qn hqn
    have hp := h qn.1 (List.of_mem_zip (a := qn.1) (b := qn.2) hqn).1
    unfold diagramPoly
    rw [hp.length_eq, (hp.map _).prod_eq]

/-- **C160.** With as many coefficients as there are off-diagonal points, the output determines the lifetimes for each of the three types. -/
theorem C160_lifetimes (t : PolyType) (dims : List Q) (coeffs : List Nat) (hd : dims ≠ []) (hl : coeffs.length = dims.length) (X : List (List (Pt ℝ Q)))
    (hv : ∀ D ∈ X, ∀ p ∈ D, p.b ≤ p.d) (hne : ∀ D ∈ X, ∀ q ∈ dims, ¬ TrivialIn D q)
    (hc : ∀ D ∈ X, ∀ (k : Nat) q n, dims[k]? = some q → coeffs[k]? = some n → (offDiag (pointsIn D q)).length ≤ n)
    (Y : List (List ℝ)) (hY : polynomialTransform t dims coeffs X = .ok Y) (i i' : Nat) (D D' : List (Pt ℝ Q)) (y : List ℝ)
    (hD : X[i]? = some D) (hD' : X[i']? = some D') (hy : Y[i]? = some y) (hy' : Y[i']? = some y) (q : Q) (hq : q ∈ dims) :
    ((offDiag (pointsIn D q)).map fun p => p.d - p.b).Perm ((offDiag (pointsIn D' q)).map fun p => p.d - p.b) := by
  have hm := List.mem_of_getElem? hD
  have hm' := List.mem_of_getElem? hD'
  have h := (rows_eq t dims coeffs hd hl X hne Y hY i i' D D' y y hD hD' hy hy').1 rfl
  obtain ⟨k, hk⟩ := List.getElem?_of_mem hq
  obtain ⟨hk1, -⟩ := List.getElem?_eq_some_iff.1 hk
  have hk2 : coeffs[k]? = some coeffs[k] := List.getElem?_eq_getElem (by omega)
  have hz : (q, coeffs[k]) ∈ dims.zip coeffs := List.mem_of_getElem? (i := k) (by rw [List.getElem?_zip_eq_some]; exact ⟨hk, hk2⟩)
  have hp := block_perm t D D' q coeffs[k] (fun p hp => root_ne t p (mem_off (hv D hm) hp).2) (fun p hp => root_ne t p (mem_off (hv D' hm') hp).2)
    (hc D hm k q _ hk hk2) (hc D' hm' k q _ hk hk2) (h _ hz)
  -- the lifetime is a function of the root
  classical
  let g : ℂ → ℝ := fun z => if hz : ∃ p : Pt ℝ Q, p.b < p.d ∧ specRoot t p = z then hz.choose.d - hz.choose.b else 0
  have hg : ∀ E : List (Pt ℝ Q), (∀ p ∈ E, p.b ≤ p.d) → ((offDiag (pointsIn E q)).map (specRoot t)).map g = (offDiag (pointsIn E q)).map fun p => p.d - p.b := by
    intro E hE
    rw [List.map_map]
    refine List.map_congr_left fun p hp => ?_
    have hlt := (mem_off hE hp).2
    have hex : ∃ p' : Pt ℝ Q, p'.b < p'.d ∧ specRoot t p' = specRoot t p := ⟨p, hlt, rfl⟩
    show (if hz : ∃ p' : Pt ℝ Q, p'.b < p'.d ∧ specRoot t p' = specRoot t p then hz.choose.d - hz.choose.b else 0) = _
    rw [dif_pos hex]
    exact lifetime_eq t _ p hex.choose_spec.1 hlt hex.choose_spec.2
  have := hp.map g
  rwa [hg D (hv D hm), hg D' (hv D' hm')] at this

/-- **C160.** With type T, different points can have the same output however many coefficients are kept: points with the same lifetime whose distances to the origin differ by `2π`. -/
theorem C160_refuted_T (q : Q) : ∃ p p' : Pt ℝ Q, p.q = q ∧ p'.q = q ∧ 0 ≤ p.b ∧ p.b < p.d ∧ p'.b < p'.d ∧ p.b < p'.b ∧
    ∀ n : Nat, ∃ y, polynomialTransform .T [q] [n] [[p], [p']] = .ok [y, y] := by
  -- births and deaths `(s ∓ 1) / 2` have lifetime 1 and squared norm `(s ^ 2 + 1) / 2`
  have hex : ∀ r : ℝ, 2 ≤ r → ∃ s : ℝ, 1 ≤ s ∧ s ^ 2 = 2 * r ^ 2 - 1 ∧ Real.sqrt (((s - 1) / 2) ^ 2 + ((s + 1) / 2) ^ 2) = r := by
    intro r hr
    refine ⟨Real.sqrt (2 * r ^ 2 - 1), ?_, Real.sq_sqrt (by nlinarith), ?_⟩
    · rw [Real.one_le_sqrt]; nlinarith
    · have h := Real.sq_sqrt (show (0 : ℝ) ≤ 2 * r ^ 2 - 1 by nlinarith)
      rw [show ((Real.sqrt (2 * r ^ 2 - 1) - 1) / 2) ^ 2 + ((Real.sqrt (2 * r ^ 2 - 1) + 1) / 2) ^ 2 = r ^ 2 by linear_combination h / 2]
      exact Real.sqrt_sq (by linarith)
  have hpi := Real.pi_pos
  obtain ⟨s, h1, h2, h3⟩ := hex 2 le_rfl
  obtain ⟨s', h1', h2', h3'⟩ := hex (2 + 2 * Real.pi) (by linarith)
  have hss : s < s' := by nlinarith
  refine ⟨⟨(s - 1) / 2, (s + 1) / 2, q⟩, ⟨(s' - 1) / 2, (s' + 1) / 2, q⟩, rfl, rfl, ?_, ?_, ?_, ?_, fun n => ?_⟩
  · show 0 ≤ (s - 1) / 2; linarith
  · show (s - 1) / 2 < (s + 1) / 2; linarith
  · show (s' - 1) / 2 < (s' + 1) / 2; linarith
  · show (s - 1) / 2 < (s' - 1) / 2; linarith
  have hr : specRoot .T (⟨(s - 1) / 2, (s + 1) / 2, q⟩ : Pt ℝ Q) = specRoot .T (⟨(s' - 1) / 2, (s' + 1) / 2, q⟩ : Pt ℝ Q) := by
    apply Complex.ext
    · rw [(specRoot_T _).1, (specRoot_T _).1]
      simp only [h3, h3', Real.cos_add_two_pi, Real.sin_add_two_pi]
      ring
    · rw [(specRoot_T _).2, (specRoot_T _).2]
      simp only [h3, h3', Real.cos_add_two_pi, Real.sin_add_two_pi]
      ring
  have hn1 : ∀ x : ℝ, (x - 1) / 2 ≠ (x + 1) / 2 := fun x h => by linarith
  have hoff : ∀ x : ℝ, offDiag (pointsIn [(⟨(x - 1) / 2, (x + 1) / 2, q⟩ : Pt ℝ Q)] q) = [⟨(x - 1) / 2, (x + 1) / 2, q⟩] := by
    intro x
    simp [offDiag, pointsIn, hn1 x]
  refine ⟨coeffVector (X - C (specRoot .T (⟨(s' - 1) / 2, (s' + 1) / 2, q⟩ : Pt ℝ Q))) 1 n, (C39_coefficients_partial .T [q] [n] (by simp) rfl [_, _] (by simp) ?_).trans ?_⟩
  · intro D hD q' hq' htr
    rw [List.mem_singleton.1 hq', trivialIn_offDiag] at htr
    simp only [List.mem_cons, List.not_mem_nil, or_false] at hD
    rcases hD with rfl | rfl <;> (rw [hoff] at htr; simp at htr)
  · simp only [List.map_cons, List.map_nil, List.zip_cons_cons, List.zip_nil_right, diagramPoly, hoff, hr, List.length_singleton, List.prod_singleton, List.flatten_singleton]

/-- **C160.** With fewer coefficients than points the output does not determine the points: the two coefficients (births and deaths) of type R kept here are the same. -/
theorem C160_refuted_few : ∃ y, polynomialTransform .R [0] [1] [[(⟨0, 1, 0⟩ : Pt ℝ Nat), ⟨0, 3, 0⟩], [⟨0, 2, 0⟩, ⟨0, 2, 0⟩]] = .ok [y, y] := by
  have hoff1 : offDiag (pointsIn [(⟨0, 1, 0⟩ : Pt ℝ Nat), ⟨0, 3, 0⟩] 0) = [⟨0, 1, 0⟩, ⟨0, 3, 0⟩] := by simp [offDiag, pointsIn]
  have hoff2 : offDiag (pointsIn [(⟨0, 2, 0⟩ : Pt ℝ Nat), ⟨0, 2, 0⟩] 0) = [⟨0, 2, 0⟩, ⟨0, 2, 0⟩] := by simp [offDiag, pointsIn]
  refine ⟨[0, -4], (C39_coefficients_partial .R [0] [1] (by simp) rfl [_, _] (by simp) ?_).trans ?_⟩
  · intro D hD q' hq' htr
    rw [List.mem_singleton.1 hq', trivialIn_offDiag] at htr
    simp only [List.mem_cons, List.not_mem_nil, or_false] at hD
    rcases hD with rfl | rfl
    · rw [hoff1] at htr; simp at htr
    · rw [hoff2] at htr; simp at htr
  · have hc : ∀ a b : ℂ, ((X - C a) * (X - C b) : ℂ[X]).coeff 1 = -(a + b) := by
      intro a b
      rw [show ((X - C a) * (X - C b) : ℂ[X]) = X ^ 2 + C (-(a + b)) * X + C (a * b) by simp only [map_neg, map_add, map_mul]; ring]
      simp [coeff_X_pow, coeff_C]
    simp only [List.map_cons, List.map_nil, List.zip_cons_cons, List.zip_nil_right, diagramPoly, hoff1, hoff2, coeffVector, List.prod_cons, List.prod_nil, mul_one, List.length_cons, List.length_nil,
      List.range_one, List.flatten_cons, List.flatten_nil, List.append_nil]
    simp only [show 0 < 0 + 1 + 1 from by omega, if_true, show 0 + 1 + 1 - 1 - 0 = 1 from rfl, hc, specRoot]
    norm_num

/-- **C160.** With type R, the first coefficient of each homology dimension is minus the sum of births (real part) and of deaths (imaginary part), diagonal points not counted. -/
theorem C160_first (dims : List Q) (coeffs : List Nat) (hl : coeffs.length = dims.length) (X : List (List (Pt ℝ Q)))
    (hne : ∀ D ∈ X, ∀ q ∈ dims, ¬ TrivialIn D q) (Y : List (List ℝ)) (hY : polynomialTransform .R dims coeffs X = .ok Y) (i k n : Nat) (D : List (Pt ℝ Q)) (q : Q) (y : List ℝ)
    (hD : X[i]? = some D) (hy : Y[i]? = some y) (hq : dims[k]? = some q) (hn : coeffs[k]? = some n) (hpos : 1 ≤ n) :
    y[2 * (coeffs.take k).sum]? = some (-((offDiag (pointsIn D q)).map fun p => p.b).sum) ∧
    y[2 * (coeffs.take k).sum + n]? = some (-((offDiag (pointsIn D q)).map fun p => p.d).sum) := by
  have hd : dims ≠ [] := by rintro rfl; simp at hq
  have hX : X ≠ [] := by rintro rfl; simp at hD
  have hDm := List.mem_of_getElem? hD
  rw [C39_coefficients_partial .R dims coeffs hd hl X hX hne] at hY
  obtain rfl := Except.ok.inj hY
  rw [List.getElem?_map, hD] at hy
  obtain rfl := Option.some.inj hy
  -- the block of one homology dimension
  have hblock : ∀ (l : List Q) (c : List Nat), c.length = l.length → ∀ k : Nat, l[k]? = some q → c[k]? = some n → ∀ j < 2 * n,
      ((l.zip c).map fun qn => coeffVector (diagramPoly .R D qn.1) (offDiag (pointsIn D qn.1)).length qn.2).flatten[2 * (c.take k).sum + j]? =
        (coeffVector (diagramPoly .R D q) (offDiag (pointsIn D q)).length n)[j]? := by
    intro l
    induction l with
    | nil => intro c _ k h; simp at h
    | cons q0 l ih =>
      intro c hc k hk hck j hj
      cases c with
      | nil => simp at hc
      | cons n0 c =>
        rw [List.zip_cons_cons, List.map_cons, List.flatten_cons]
        cases k with
        | zero =>
          obtain rfl : q0 = q := by simpa using hk
          obtain rfl : n0 = n := by simpa using hck
          rw [List.getElem?_append_left (by rw [coeffVector_length]; simpa using hj)]
          simp
        | succ k =>
          rw [List.getElem?_append_right (by rw [coeffVector_length]; simp; omega), coeffVector_length,
            show 2 * ((n0 :: c).take (k + 1)).sum + j - 2 * n0 = 2 * (c.take k).sum + j by simp; omega]
          exact ih c (by simpa using hc) k (by simpa using hk) (by simpa using hck) j hj
  have hoff : 0 < (offDiag (pointsIn D q)).length := by
    rw [List.length_pos_iff]
    exact fun e => hne D hDm q (List.mem_of_getElem? hq) ((trivialIn_offDiag D q).2 e)
  have hcoef : (diagramPoly .R D q).coeff ((offDiag (pointsIn D q)).length - 1 - 0) = -((offDiag (pointsIn D q)).map (specRoot .R)).sum := by
    have h := multiset_prod_X_sub_C_coeff_card_pred (((offDiag (pointsIn D q)).map (specRoot .R) : List ℂ) : Multiset ℂ) (by simpa using hoff)
    simpa [diagramPoly, Function.comp_def] using h
  have hre : ∀ l : List (Pt ℝ Q), ((l.map (specRoot .R)).sum).re = (l.map fun p => p.b).sum ∧ ((l.map (specRoot .R)).sum).im = (l.map fun p => p.d).sum := by
    intro l
    induction l with
    | nil => simp
    | cons p l ih => simp [ih.1, ih.2, specRoot]
  have h1 := hblock dims coeffs hl k hq hn 0 (by omega)
  have h2 := hblock dims coeffs hl k hq hn n (by omega)
  constructor
  · refine Eq.trans h1 ?_
    unfold coeffVector
    rw [List.getElem?_append_left (by rw [List.length_map, List.length_range]; omega), List.getElem?_map, List.getElem?_range (by omega), Option.map_some, if_pos hoff, hcoef, Complex.neg_re, (hre _).1]
  · refine Eq.trans h2 ?_
    unfold coeffVector
    rw [List.getElem?_append_right (by simp), List.length_map, List.length_range, Nat.sub_self, List.getElem?_map, List.getElem?_range (by omega), Option.map_some, if_pos hoff, hcoef,
      Complex.neg_im, (hre _).2]

/-- The hypotheses are met: two diagrams with two points and one point off the diagonal; the outputs differ, and begin with minus the sum of births. -/
example : ∃ y y' : List ℝ, polynomialTransform .R [0] [2] [[(⟨1, 2, 0⟩ : Pt ℝ Nat), ⟨0, 3, 0⟩], [⟨0, 2, 0⟩, ⟨5, 5, 0⟩]] = .ok [y, y'] ∧ y ≠ y' ∧ y[0]? = some (-1 : ℝ) ∧ y[2]? = some (-5 : ℝ) := by
  have hne : ∀ D ∈ [[(⟨1, 2, 0⟩ : Pt ℝ Nat), ⟨0, 3, 0⟩], [⟨0, 2, 0⟩, ⟨5, 5, 0⟩]], ∀ q ∈ [0], ¬ TrivialIn D q := by
    intro D hD q hq htr
    rw [List.mem_singleton.1 hq] at htr
    simp only [List.mem_cons, List.not_mem_nil, or_false] at hD
    rcases hD with rfl | rfl
    · have := htr ⟨0, 3, 0⟩ (by simp) rfl; norm_num at this
    · have := htr ⟨0, 2, 0⟩ (by simp) rfl; norm_num at this
  have h1 : offDiag (pointsIn [(⟨1, 2, 0⟩ : Pt ℝ Nat), ⟨0, 3, 0⟩] 0) = [⟨1, 2, 0⟩, ⟨0, 3, 0⟩] := by simp [offDiag, pointsIn]
  have h2 : offDiag (pointsIn [(⟨0, 2, 0⟩ : Pt ℝ Nat), ⟨5, 5, 0⟩] 0) = [⟨0, 2, 0⟩] := by simp [offDiag, pointsIn]
  have hY := C39_coefficients_partial .R [0] [2] (by simp) rfl _ (by simp) hne
  refine ⟨_, _, hY, ?_, ?_, ?_⟩
  · intro he
    have := (C160_determines .R (Or.inl rfl) [0] [2] (by simp) rfl _ (by
      intro D hD p hp
      simp only [List.mem_cons, List.not_mem_nil, or_false] at hD
      rcases hD with rfl | rfl <;> (simp only [List.mem_cons, List.not_mem_nil, or_false] at hp; rcases hp with rfl | rfl <;> norm_num)) hne (by
      intro D hD k q n hk hn
      cases k with
      | succ k => simp at hk
      | zero =>
        simp only [List.getElem?_cons_zero, Option.some.injEq] at hk hn
        subst hk hn
        simp only [List.mem_cons, List.not_mem_nil, or_false] at hD
        rcases hD with rfl | rfl
        · rw [h1]; simp
        · rw [h2]; simp) _ hY 0 1 _ _ _ _ rfl rfl rfl rfl).1 he 0 (by simp)
    have hl := this.length_eq
    rw [h1, h2] at hl
    simp at hl
  · have := (C160_first [0] [2] rfl _ hne _ hY 0 0 2 _ 0 _ rfl rfl rfl rfl (by omega)).1
    rw [h1] at this
    simpa using this
  · have := (C160_first [0] [2] rfl _ hne _ hY 0 0 2 _ 0 _ rfl rfl rfl rfl (by omega)).2
    rw [h1] at this
    norm_num at this
    simpa using this

end Gtda.Props.PolynomialContent
