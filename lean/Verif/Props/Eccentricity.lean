import Verif.Spec.Eccentricity
import Verif.Props.MapperFilters
import Verif.Props.MapperInvariance
import Verif.Props.Agreement
import Mathlib.Tactic.IntervalCases

set_option autoImplicit false
set_option linter.unusedSectionVars false

/-!
# C150: eccentricities, and Mapper graphs made with them, depend on the distances between samples only
-/

namespace Gtda.Props
open Gtda.Py Gtda.Mapper Gtda.Diagrams Gtda.Spec Gtda.Spec.Eccentricity Gtda.Props.Agreement

/-- The eccentricity of row `x`, for a symmetric `d`. -/
theorem Ecc.eq (p : ENNReal) (hp : 0 < p) (d : List ℝ → List ℝ → ℝ) (X : List (List ℝ)) (h : Symmetric0 d X) : eccentricity p false d X = X.map fun x => [lpNorm p (X.map (d x))] := by
  unfold eccentricity
  rw [if_neg (by simp), squarePdist_eq 0 d X h.1 h.2, List.map_map]
  apply List.map_congr_left
  intro x _
  simp only [Function.comp_apply, pNorm_eq p hp]

theorem Ecc.value (p : ENNReal) (hp : 0 < p) (d : List ℝ → List ℝ → ℝ) (X : List (List ℝ)) (h : Symmetric0 d X) (i : Nat) (e : ℝ) :
    valueAt (eccentricity p false d X) i e ↔ ∃ x, X[i]? = some x ∧ e = lpNorm p (X.map (d x)) := by
  unfold valueAt
  rw [Ecc.eq p hp d X h, List.getElem?_map]
  cases X[i]? with
  | none => simp
  | some x => simp [eq_comm]

theorem Ecc.similar_symm {d d' : List ℝ → List ℝ → ℝ} {s : ℝ} {X X' : List (List ℝ)} (h : Similar d d' s X X') (hd : Symmetric0 d X) : Symmetric0 d' X' := by
  constructor
  · intro x' hx y' hy
    obtain ⟨i, hi⟩ := List.mem_iff_getElem?.1 hx
    obtain ⟨j, hj⟩ := List.mem_iff_getElem?.1 hy
    have hi' : i < X.length := by rw [← h.1]; exact (List.getElem?_eq_some_iff.1 hi).1
    have hj' : j < X.length := by rw [← h.1]; exact (List.getElem?_eq_some_iff.1 hj).1
    rw [h.2 i j _ _ _ _ (List.getElem?_eq_getElem hi') (List.getElem?_eq_getElem hj') hi hj, h.2 j i _ _ _ _ (List.getElem?_eq_getElem hj') (List.getElem?_eq_getElem hi') hj hi,
      hd.1 _ (List.getElem_mem hi') _ (List.getElem_mem hj')]
  · intro x' hx
    obtain ⟨i, hi⟩ := List.mem_iff_getElem?.1 hx
    have hi' : i < X.length := by rw [← h.1]; exact (List.getElem?_eq_some_iff.1 hi).1
    rw [h.2 i i _ _ _ _ (List.getElem?_eq_getElem hi') (List.getElem?_eq_getElem hi') hi hi, hd.2 _ (List.getElem_mem hi'), mul_zero]

/-- **C150.** The eccentricities of samples are the norms of the rows of their distance matrix: the same as with `metric='precomputed'` and the matrix. -/
theorem C150_precomputed (p : ENNReal) (hp : 0 < p) (d d' : List ℝ → List ℝ → ℝ) (X : List (List ℝ)) (h : Symmetric0 d X) :
    eccentricity p true d' (distanceMatrix d X) = eccentricity p false d X := by
  rw [Ecc.eq p hp d X h]
  unfold eccentricity distanceMatrix
  rw [if_pos rfl, List.map_map]
  apply List.map_congr_left
  intro x _
  simp only [Function.comp_apply, pNorm_eq p hp]

/-- **C150.** If all distances are multiplied by `s`, so are the eccentricities; where the samples are does not matter. -/
theorem C150_similar (p : ENNReal) (hp : 0 < p) (d d' : List ℝ → List ℝ → ℝ) (s : ℝ) (hs : 0 ≤ s) (X X' : List (List ℝ)) (hd : Symmetric0 d X) (h : Similar d d' s X X') :
    eccentricity p false d' X' = (eccentricity p false d X).map fun r => r.map fun e => s * e := by
  rw [Ecc.eq p hp d X hd, Ecc.eq p hp d' X' (Ecc.similar_symm h hd), List.map_map]
  apply List.ext_getElem
  · simp [h.1]
  · intro i h1 h2
    have hi' : i < X'.length := by simpa using h1
    have hi : i < X.length := by simpa using h2
    simp only [List.getElem_map, Function.comp_apply, List.map_cons, List.map_nil]
    congr 1
    have hsm := lpNorm_smul p hp s (X.map (d X[i]))
    rw [abs_of_nonneg hs] at hsm
    rw [← hsm, List.map_map]
    congr 1
    apply List.ext_getElem
    · simp [h.1]
    · intro j h3 h4
      have hj' : j < X'.length := by simpa using h3
      have hj : j < X.length := by simpa using h4
      simp only [List.getElem_map, Function.comp_apply]
      exact h.2 i j _ _ _ _ (List.getElem?_eq_getElem hi) (List.getElem?_eq_getElem hj) (List.getElem?_eq_getElem hi') (List.getElem?_eq_getElem hj')

/-- **C150.** Larger exponents give smaller eccentricities; with exponent `p` they are at most `(n - 1) ^ (1 / p)` times those with exponent `inf`, `n` being the number of samples. -/
theorem C150_exponent (p p' : ENNReal) (hp : 0 < p) (hpp : p ≤ p') (d : List ℝ → List ℝ → ℝ) (X : List (List ℝ)) (hd : Symmetric0 d X) (i : Nat) (e e' f : ℝ)
    (he : valueAt (eccentricity p false d X) i e) (he' : valueAt (eccentricity p' false d X) i e') (hf : valueAt (eccentricity ⊤ false d X) i f) :
    e' ≤ e ∧ (p ≠ ⊤ → e ≤ ((X.length : ℝ) - 1) ^ (1 / p.toReal) * f) := by
  have hp' : 0 < p' := hp.trans_le hpp
  obtain ⟨x, hx, rfl⟩ := (Ecc.value p hp d X hd i e).1 he
  obtain ⟨x', hx', rfl⟩ := (Ecc.value p' hp' d X hd i e').1 he'
  obtain ⟨x'', hx'', rfl⟩ := (Ecc.value ⊤ (by simp) d X hd i f).1 hf
  rw [hx, Option.some.injEq] at hx' hx''
  subst hx' hx''
  constructor
  · by_cases ht : p' = ⊤
    · subst ht
      exact lpNorm_top_le _ _ (lpNorm_nonneg _ _) fun y hy => mem_le_lpNorm p hp _ y hy
    · exact lpNorm_antitone p p' hp hpp ht _
  · intro ht
    refine (lpNorm_le_count p hp ht _ _ (lpNorm_nonneg ⊤ _) fun y hy => mem_le_lpNorm ⊤ (by simp) _ y hy).trans ?_
    apply mul_le_mul_of_nonneg_right _ (lpNorm_nonneg _ _)
    apply Real.rpow_le_rpow (Nat.cast_nonneg _) _ (by positivity)
    have hxm : x ∈ X := List.mem_of_getElem? hx
    have hc : ((X.map (d x)).countP fun z => decide (z ≠ 0)) + 1 ≤ X.length := by
      obtain ⟨a, b, hab⟩ := List.append_of_mem hxm
      have h0 := hd.2 x hxm
      rw [hab]
      simp only [List.map_append, List.map_cons, List.countP_append, List.countP_cons, h0, ne_eq, not_true_eq_false, decide_false, List.length_append, List.length_cons]
      have h1 := List.countP_le_length (p := fun z : ℝ => decide ¬z = 0) (l := a.map (d x))
      have h2 := List.countP_le_length (p := fun z : ℝ => decide ¬z = 0) (l := b.map (d x))
      rw [List.length_map] at h1 h2
      simp only [Bool.false_eq_true, if_false]
      omega
    have : (((X.map (d x)).countP fun z => decide (z ≠ 0) : Nat) : ℝ) + 1 ≤ X.length := by exact_mod_cast hc
    linarith

/-- The norm of a constant list. -/
theorem Ecc.norm_const (p : ENNReal) (hp : 0 < p) (ht : p ≠ ⊤) (v : List ℝ) (ε : ℝ) (hε : 0 ≤ ε) (hv : ∀ x ∈ v, |x| ≤ ε) : lpNorm p v ≤ (v.length : ℝ) ^ (1 / p.toReal) * ε := by
  refine (lpNorm_le_count p hp ht v ε hε hv).trans ?_
  apply mul_le_mul_of_nonneg_right _ hε
  apply Real.rpow_le_rpow (Nat.cast_nonneg _) _ (by positivity)
  exact_mod_cast List.countP_le_length

/-- Norms of lists which differ by at most `ε`. -/
theorem Ecc.norm_near (p : ENNReal) (hp : 1 ≤ p) (n : Nat) (f g : Nat → ℝ) (hf : ∀ j, j < n → 0 ≤ f j) (ε : ℝ) (hε : 0 ≤ ε) (h : ∀ j, j < n → f j ≤ g j + ε) :
    lpNorm p ((List.range n).map f) ≤ lpNorm p ((List.range n).map g) + (if p = ⊤ then ε else (n : ℝ) ^ (1 / p.toReal) * ε) := by
  have hp0 : 0 < p := lt_of_lt_of_le zero_lt_one hp
  have h1 : lpNorm p ((List.range n).map f) ≤ lpNorm p ((List.range n).map fun j => g j + ε) := by
    apply lpNorm_mono p hp0
    rw [List.forall₂_map_left_iff, List.forall₂_map_right_iff]
    exact List.forall₂_same.2 fun j hj => ⟨hf j (List.mem_range.1 hj), h j (List.mem_range.1 hj)⟩
  have h2 := lpNorm_add_le p hp (List.range n) g fun _ => ε
  have hc : ∀ x ∈ (List.range n).map (fun _ => ε), |x| ≤ ε := by
    intro x hx
    obtain ⟨-, -, rfl⟩ := List.mem_map.1 hx
    rw [abs_of_nonneg hε]
  split
  · rename_i ht
    subst ht
    have h3 := lpNorm_top_le _ ε hε hc
    linarith
  · rename_i ht
    have h3 := Ecc.norm_const p hp0 ht _ ε hε hc
    rw [List.length_map, List.length_range] at h3
    linarith

theorem Ecc.as_range (d : List ℝ → List ℝ → ℝ) (x : List ℝ) (X : List (List ℝ)) : X.map (d x) = (List.range X.length).map fun j => d x (X[j]?.getD []) := by
  apply List.ext_getElem
  · simp
  · intro j h1 h2
    have hj : j < X.length := by simpa using h1
    simp [List.getElem?_eq_getElem hj]

/-- **C150.** If all distances change by at most `ε`, eccentricities change by at most `n ^ (1 / p) * ε`, and by at most `ε` for exponent `inf` (exponents at least one). -/
theorem C150_stable (p : ENNReal) (hp : 1 ≤ p) (d d' : List ℝ → List ℝ → ℝ) (ε : ℝ) (X X' : List (List ℝ)) (hd : Symmetric0 d X) (hd' : Symmetric0 d' X')
    (hnn : ∀ x ∈ X, ∀ y ∈ X, 0 ≤ d x y) (hnn' : ∀ x ∈ X', ∀ y ∈ X', 0 ≤ d' x y) (h : Near d d' ε X X') (i : Nat) (e e' : ℝ)
    (he : valueAt (eccentricity p false d X) i e) (he' : valueAt (eccentricity p false d' X') i e') :
    |e' - e| ≤ if p = ⊤ then ε else (X.length : ℝ) ^ (1 / p.toReal) * ε := by
  have hp0 : 0 < p := lt_of_lt_of_le zero_lt_one hp
  obtain ⟨x, hx, rfl⟩ := (Ecc.value p hp0 d X hd i e).1 he
  obtain ⟨x', hx', rfl⟩ := (Ecc.value p hp0 d' X' hd' i e').1 he'
  have hε : 0 ≤ ε := (abs_nonneg _).trans (h.2 i i _ _ _ _ hx hx hx' hx')
  rw [Ecc.as_range d x X, Ecc.as_range d' x' X', h.1]
  have hj : ∀ j, j < X.length → 0 ≤ d x (X[j]?.getD []) ∧ 0 ≤ d' x' (X'[j]?.getD []) ∧ |d' x' (X'[j]?.getD []) - d x (X[j]?.getD [])| ≤ ε := by
    intro j hj
    have hj' : j < X'.length := by rw [h.1]; exact hj
    rw [List.getElem?_eq_getElem hj, List.getElem?_eq_getElem hj']
    exact ⟨hnn _ (List.mem_of_getElem? hx) _ (List.getElem_mem hj), hnn' _ (List.mem_of_getElem? hx') _ (List.getElem_mem hj'),
      h.2 i j _ _ _ _ hx (List.getElem?_eq_getElem hj) hx' (List.getElem?_eq_getElem hj')⟩
  have h1 := Ecc.norm_near p hp X.length (fun j => d x (X[j]?.getD [])) (fun j => d' x' (X'[j]?.getD [])) (fun j h' => (hj j h').1) ε hε fun j h' => by
    have := abs_le.1 (hj j h').2.2
    linarith [this.1]
  have h2 := Ecc.norm_near p hp X.length (fun j => d' x' (X'[j]?.getD [])) (fun j => d x (X[j]?.getD [])) (fun j h' => (hj j h').2.1) ε hε fun j h' => by
    have := abs_le.1 (hj j h').2.2
    linarith [this.2]
  rw [abs_le]
  constructor <;> linarith

/-- **C150.** Eccentricities of two samples differ by at most `n ^ (1 / p)` times their distance, and by at most their distance for exponent `inf` (exponents at least one). -/
theorem C150_lipschitz (p : ENNReal) (hp : 1 ≤ p) (d : List ℝ → List ℝ → ℝ) (X : List (List ℝ)) (hd : PseudometricOn {x | x ∈ X} d) (i j : Nat) (x y : List ℝ) (hx : X[i]? = some x)
    (hy : X[j]? = some y) (e e' : ℝ) (he : valueAt (eccentricity p false d X) i e) (he' : valueAt (eccentricity p false d X) j e') :
    |e - e'| ≤ if p = ⊤ then d x y else (X.length : ℝ) ^ (1 / p.toReal) * d x y := by
  have hp0 : 0 < p := lt_of_lt_of_le zero_lt_one hp
  have hs : Symmetric0 d X := ⟨hd.symm, hd.zero⟩
  obtain ⟨u, hu, rfl⟩ := (Ecc.value p hp0 d X hs i e).1 he
  obtain ⟨v, hv, rfl⟩ := (Ecc.value p hp0 d X hs j e').1 he'
  rw [hx, Option.some.injEq] at hu
  rw [hy, Option.some.injEq] at hv
  subst hu hv
  have mx : x ∈ X := List.mem_of_getElem? hx
  have my : y ∈ X := List.mem_of_getElem? hy
  have hm : ∀ k, k < X.length → X[k]?.getD [] ∈ X := by
    intro k hk
    rw [List.getElem?_eq_getElem hk]
    exact List.getElem_mem hk
  rw [Ecc.as_range d x X, Ecc.as_range d y X]
  have h1 := Ecc.norm_near p hp X.length (fun k => d x (X[k]?.getD [])) (fun k => d y (X[k]?.getD [])) (fun k hk => hd.nonneg _ mx _ (hm k hk)) (d x y) (hd.nonneg _ mx _ my) fun k hk => by
    have := hd.triangle x mx y my _ (hm k hk)
    linarith
  have h2 := Ecc.norm_near p hp X.length (fun k => d y (X[k]?.getD [])) (fun k => d x (X[k]?.getD [])) (fun k hk => hd.nonneg _ my _ (hm k hk)) (d x y) (hd.nonneg _ mx _ my) fun k hk => by
    have := hd.triangle y my x mx _ (hm k hk)
    have := hd.symm x mx y my
    linarith
  rw [abs_le]
  constructor <;> linarith

/-- **C150.** No two samples are further apart than twice the eccentricity of any sample; an eccentricity is zero exactly if all samples are at distance zero; for exponent `inf`, a number bounds
all eccentricities exactly if it bounds all distances, so that the largest eccentricity is the diameter and the smallest at least half of it. -/
theorem C150_diameter (p : ENNReal) (hp : 0 < p) (d : List ℝ → List ℝ → ℝ) (X : List (List ℝ)) (hd : PseudometricOn {x | x ∈ X} d) :
    (∀ (i : Nat) e, valueAt (eccentricity p false d X) i e → (∀ y ∈ X, ∀ z ∈ X, d y z ≤ 2 * e) ∧ (e = 0 ↔ ∀ y ∈ X, ∀ z ∈ X, d y z = 0)) ∧
    ∀ D, (∀ (i : Nat) e, valueAt (eccentricity ⊤ false d X) i e → e ≤ D) ↔ ∀ y ∈ X, ∀ z ∈ X, d y z ≤ D := by
  have hs : Symmetric0 d X := ⟨hd.symm, hd.zero⟩
  have hle : ∀ q : ENNReal, 0 < q → ∀ x, ∀ y ∈ X, d x y ≤ lpNorm q (X.map (d x)) := fun q hq x y hy => (le_abs_self _).trans (mem_le_lpNorm q hq _ _ (List.mem_map_of_mem hy))
  constructor
  · intro i e he
    obtain ⟨x, hx, rfl⟩ := (Ecc.value p hp d X hs i e).1 he
    have mx : x ∈ X := List.mem_of_getElem? hx
    have hb : ∀ y ∈ X, ∀ z ∈ X, d y z ≤ 2 * lpNorm p (X.map (d x)) := by
      intro y hy z hz
      have h1 := hle p hp x y hy
      have h2 := hle p hp x z hz
      have h3 := hd.triangle y hy x mx z hz
      have h4 := hd.symm x mx y hy
      linarith
    refine ⟨hb, ?_, ?_⟩
    · intro h0 y hy z hz
      have := hb y hy z hz
      rw [h0, mul_zero] at this
      exact le_antisymm this (hd.nonneg y hy z hz)
    · intro h0
      apply lpNorm_of_zero p hp
      intro v hv
      obtain ⟨y, hy, rfl⟩ := List.mem_map.1 hv
      exact h0 x mx y hy
  · intro D
    constructor
    · intro h y hy z hz
      obtain ⟨i, hi⟩ := List.mem_iff_getElem?.1 hy
      exact (hle ⊤ (by simp) y z hz).trans (h i _ ((Ecc.value ⊤ (by simp) d X hs i _).2 ⟨y, hi, rfl⟩))
    · intro h i e he
      obtain ⟨x, hx, rfl⟩ := (Ecc.value ⊤ (by simp) d X hs i e).1 he
      have mx : x ∈ X := List.mem_of_getElem? hx
      apply lpNorm_top_le _ _ ((hd.nonneg x mx x mx).trans (h x mx x mx))
      intro v hv
      obtain ⟨y, hy, rfl⟩ := List.mem_map.1 hv
      rw [abs_of_nonneg (hd.nonneg x mx y hy)]
      exact h x mx y hy

/-- **C150.** Additional samples: the `p`-th power of an eccentricity grows by the `p`-th powers of the distances to them; for exponent `inf` the new eccentricity is the largest of the old one and
of these distances. -/
theorem C150_more_samples (p : ENNReal) (hp : 0 < p) (d : List ℝ → List ℝ → ℝ) (X Y : List (List ℝ)) (hd : Symmetric0 d (X ++ Y)) (hnn : ∀ x ∈ X ++ Y, ∀ y ∈ X ++ Y, 0 ≤ d x y) (i : Nat) (x : List ℝ)
    (hx : X[i]? = some x) :
    ∃ e e', valueAt (eccentricity p false d X) i e ∧ valueAt (eccentricity p false d (X ++ Y)) i e' ∧ e ≤ e' ∧
      (p ≠ ⊤ → e' ^ p.toReal = e ^ p.toReal + (Y.map fun y => d x y ^ p.toReal).sum) ∧
      (p = ⊤ → ∀ D, e' ≤ D ↔ e ≤ D ∧ ∀ y ∈ Y, d x y ≤ D) := by
  have hX : Symmetric0 d X := ⟨fun x hx y hy => hd.1 x (List.mem_append_left _ hx) y (List.mem_append_left _ hy), fun x hx => hd.2 x (List.mem_append_left _ hx)⟩
  have mx : x ∈ X := List.mem_of_getElem? hx
  have hx' : (X ++ Y)[i]? = some x := by rw [List.getElem?_append_left (List.getElem?_eq_some_iff.1 hx).1]; exact hx
  refine ⟨_, _, (Ecc.value p hp d X hX i _).2 ⟨x, hx, rfl⟩, (Ecc.value p hp d _ hd i _).2 ⟨x, hx', rfl⟩, ?_, ?_, ?_⟩
  · rw [List.map_append]
    apply Agreement.lpNorm_append p hp
    · exact List.forall₂_same.2 fun v hv => by
        obtain ⟨y, hy, rfl⟩ := List.mem_map.1 hv
        exact ⟨hnn x (List.mem_append_left _ mx) y (List.mem_append_left _ hy), le_rfl⟩
    · intro v hv
      obtain ⟨y, hy, rfl⟩ := List.mem_map.1 hv
      exact hnn x (List.mem_append_left _ mx) y (List.mem_append_right _ hy)
  · intro ht
    rw [lpNorm_pow p hp ht, lpNorm_pow p hp ht, List.map_append, List.map_append, List.sum_append]
    congr 2
    rw [List.map_map]
    apply List.map_congr_left
    intro y hy
    simp only [Function.comp_apply]
    rw [abs_of_nonneg (hnn x (List.mem_append_left _ mx) y (List.mem_append_right _ hy))]
  · rintro rfl D
    have hle : ∀ (Z : List (List ℝ)), ∀ y ∈ Z, d x y ≤ lpNorm ⊤ (Z.map (d x)) := fun Z y hy => (le_abs_self _).trans (mem_le_lpNorm ⊤ (by simp) _ _ (List.mem_map_of_mem hy))
    constructor
    · intro h
      refine ⟨?_, fun y hy => (hle _ y (List.mem_append_right _ hy)).trans h⟩
      refine lpNorm_top_le _ _ ((lpNorm_nonneg _ _).trans h) ?_
      intro v hv
      refine (mem_le_lpNorm ⊤ (by simp) _ v ?_).trans h
      rw [List.map_append]
      exact List.mem_append_left _ hv
    · rintro ⟨h1, h2⟩
      refine lpNorm_top_le _ _ ((lpNorm_nonneg _ _).trans h1) ?_
      intro v hv
      rw [List.map_append, List.mem_append] at hv
      rcases hv with hv | hv
      · exact (mem_le_lpNorm ⊤ (by simp) _ v hv).trans h1
      · obtain ⟨y, hy, rfl⟩ := List.mem_map.1 hv
        rw [abs_of_nonneg (hnn x (List.mem_append_left _ mx) y (List.mem_append_right _ hy))]
        exact h2 y hy

/-! ### Mapper -/

/-- Indexing lists of the same length fails for the same indices. -/
theorem Ecc.fancy_cases {α : Type} (X : List α) (idx : List Nat) : (∃ r, fancy X (idx.map Int.ofNat) = .ok r ∧ Picks X idx r ∧ ∀ i ∈ idx, i < X.length) ∨
    (fancy X (idx.map Int.ofNat) = .error .indexError ∧ ∃ i ∈ idx, ¬ i < X.length) := by
  by_cases h : ∀ i ∈ idx, i < X.length
  · obtain ⟨r, hr, hp⟩ := fancy_picks X idx h
    exact .inl ⟨r, hr, hp, h⟩
  · right
    push_neg at h
    refine ⟨?_, h.imp fun i hi => ⟨hi.1, not_lt.2 hi.2⟩⟩
    obtain ⟨i, hi, hlt⟩ := h
    unfold fancy
    induction idx with
    | nil => simp at hi
    | cons a t ih =>
      rw [List.map_cons, List.mapM_cons]
      by_cases ha : a < X.length
      · have hi' : i ∈ t := by
          rcases List.mem_cons.1 hi with rfl | h
          · omega
          · exact h
        have hn : npIndex X (Int.ofNat a) = .ok X[a] := by
          unfold npIndex
          have hneg : ¬ ((a : Int) < 0) := by omega
          simp only [hneg, if_false, Int.ofNat_eq_natCast, Int.toNat_natCast, List.getElem?_eq_getElem ha]
        rw [hn, ok_bind, ih hi']
        rfl
      · have hn : npIndex X (Int.ofNat a) = .error .indexError := by
          unfold npIndex
          have hneg : ¬ ((a : Int) < 0) := by omega
          simp only [hneg, if_false, Int.ofNat_eq_natCast, Int.toNat_natCast, List.getElem?_eq_none (not_lt.1 ha)]
        rw [hn]
        rfl

/-- `ParallelClustering.fit` is determined by the labels of the portions. -/
theorem Ecc.clustering_congr {W C : Type} (c c' : Clusterer ℝ W C) (pre pre' : Bool) (hc : validateClusterer c = .ok pre) (hc' : validateClusterer c' = .ok pre') (order : List Nat) (Y Y' : List (List ℝ))
    (hl : Y'.length = Y.length) (h0 : ∀ r ∈ Y, r ≠ []) (h0' : ∀ r ∈ Y', r ≠ []) (cols : List (List Bool)) (h : ∀ idx, labelsSingle c' pre' Y' none idx = labelsSingle c pre Y none idx) :
    parallelClusteringFit c' order Y' cols none = parallelClusteringFit c order Y cols none := by
  have hh : (Y'.length = 0 ∨ (Y'.headD []).length = 0) ↔ (Y.length = 0 ∨ (Y.headD []).length = 0) := by
    cases Y with
    | nil =>
      simp only [List.length_nil] at hl
      simp [hl]
    | cons a t =>
      cases Y' with
      | nil => simp at hl
      | cons a' t' => simp [h0 a List.mem_cons_self, h0' a' List.mem_cons_self]
  unfold parallelClusteringFit
  rw [hl, hc, hc', ok_bind, ok_bind]
  rw [hl] at hh
  simp only [h]
  by_cases hX : Y.length = 0 ∨ (Y.headD []).length = 0
  · rw [if_pos hX, if_pos (hh.2 hX)]
  · rw [if_neg hX, if_neg fun h' => hX (hh.1 h')]

theorem Ecc.similar_picks {d d' : List ℝ → List ℝ → ℝ} {s : ℝ} {X X' r r' : List (List ℝ)} (h : Similar d d' s X X') (idx : List Nat) (hr : Picks X idx r) (hr' : Picks X' idx r') : Similar d d' s r r' := by
  obtain ⟨h1, h2⟩ := (MapperInv.picks_iff X idx r).1 hr
  obtain ⟨h1', h2'⟩ := (MapperInv.picks_iff X' idx r').1 hr'
  refine ⟨by rw [h1, h1'], ?_⟩
  intro a b x y x' y' hx hy hx' hy'
  have ha : a < idx.length := by rw [← h1]; exact (List.getElem?_eq_some_iff.1 hx).1
  have hb : b < idx.length := by rw [← h1]; exact (List.getElem?_eq_some_iff.1 hy).1
  obtain ⟨u, hu, hu2⟩ := h2 a _ (List.getElem?_eq_getElem ha)
  obtain ⟨v, hv, hv2⟩ := h2 b _ (List.getElem?_eq_getElem hb)
  obtain ⟨u', hu', hu2'⟩ := h2' a _ (List.getElem?_eq_getElem ha)
  obtain ⟨v', hv', hv2'⟩ := h2' b _ (List.getElem?_eq_getElem hb)
  rw [hx, Option.some.injEq] at hu2
  rw [hy, Option.some.injEq] at hv2
  rw [hx', Option.some.injEq] at hu2'
  rw [hy', Option.some.injEq] at hv2'
  subst hu2 hv2 hu2' hv2'
  exact h.2 _ _ _ _ _ _ hu hv hu' hv'

/-- The Mapper pipeline without scaler and preprocessing (gtda/mapper/pipeline.py:403-429), with `Eccentricity` (gtda/mapper/filter.py:76-105) as filter function. -/
noncomputable def Ecc.mapper {W C : Type} [DecidableEq C] (p : ENNReal) (pre : Bool) (d : List ℝ → List ℝ → ℝ) (cover : CoverKind ℝ) (c : Clusterer ℝ W C) (order : List Nat) (minInt : Int)
    (store contract : Bool) (fuel : Nat) (X : List (List ℝ)) : PyM (Option (Graph Nat C)) :=
  mapperFitTransform (fun X => .ok X) (fun S => .ok (eccentricity p pre d S)) (fun X => .ok X) cover c order minInt store contract fuel X

/-- **C150, Mapper.** With `Eccentricity` as filter and a clusterer which looks at the distances between samples only, and not at their unit, the Mapper graph is the same for every arrangement of the
samples with the same distances up to a common factor: it does not depend on translations, rotations, units or the dimension of the surrounding space. -/
theorem C150_mapper_similar {W C : Type} [DecidableEq C] (p : ENNReal) (hp : 0 < p) (d d' : List ℝ → List ℝ → ℝ) (s : ℝ) (hs : 0 < s) (X X' : List (List ℝ)) (hd : Symmetric0 d X)
    (h : Similar d d' s X X') (h0 : ∀ r ∈ X, r ≠ []) (h0' : ∀ r ∈ X', r ≠ []) (cover : CoverKind ℝ) (q : CoverParams ℝ) (hcover : cover = .oneDimensional q ∨ cover = .cubical q)
    (c c' : Clusterer ℝ W C) (hc : validateClusterer c = .ok false) (hc' : validateClusterer c' = .ok false)
    (hlab : ∀ sub sub', Similar d d' s sub sub' → c'.labels sub' none = c.labels sub none) (order : List Nat) (minInt : Int) (store contract : Bool) (fuel : Nat) :
    Ecc.mapper p false d' cover c' order minInt store contract fuel X' = Ecc.mapper p false d cover c order minInt store contract fuel X := by
  unfold Ecc.mapper mapperFitTransform
  simp only [ok_bind]
  have e : (fun r : List ℝ => r.map fun e => s * e) = fun r => r.mapIdx fun _ e => s * e := by
    funext r
    apply List.ext_getElem
    · rw [List.length_map, List.length_mapIdx]
    · intro i h1 h2
      rw [List.getElem_map, List.getElem_mapIdx]
  rw [C150_similar p hp d d' s hs.le X X' hd h, e, MapperInv.cover_harmless cover q hcover (fun _ e => s * e)]
  · cases coverKindFitTransform cover (eccentricity p false d X) with
    | error e => rfl
    | ok masks =>
      rw [ok_bind, ok_bind, Ecc.clustering_congr c c' false false hc hc' order X X' h.1 h0 h0' masks]
      intro idx
      unfold labelsSingle portion
      rcases Ecc.fancy_cases X idx with ⟨r, hr, hpr, -⟩ | ⟨hr, i, hi, hlt⟩
      · rcases Ecc.fancy_cases X' idx with ⟨r', hr', hpr', -⟩ | ⟨-, i, hi, hlt⟩
        · rw [hr, hr']
          simp only [ok_bind, Bool.false_eq_true, if_false, weightsFor, pure_bind]
          rw [hlab r r' (Ecc.similar_picks h idx hpr hpr')]
        · exfalso
          rw [h.1] at hlt
          rcases Ecc.fancy_cases X idx with ⟨-, -, -, hall⟩ | ⟨hr2, -⟩
          · exact hlt (hall i hi)
          · rw [hr] at hr2; simp at hr2
      · rcases Ecc.fancy_cases X' idx with ⟨r', hr', hpr', hall⟩ | ⟨hr', -⟩
        · exact absurd (h.1 ▸ hall i hi) hlt
        · rw [hr, hr']
          rfl
  · intro j
    unfold MapperInv.Harmless
    split
    · exact fun x y hxy => mul_lt_mul_of_pos_left hxy hs
    · exact ⟨s, 0, hs, fun x => by simp⟩

/-- **C150, Mapper on distance matrices.** Passing the distance matrix, with `metric='precomputed'` for filter and clusterer, gives the graph made from the samples. -/
theorem C150_mapper_precomputed {W C : Type} [DecidableEq C] (p : ENNReal) (hp : 0 < p) (d d' : List ℝ → List ℝ → ℝ) (X : List (List ℝ)) (hd : Symmetric0 d X) (h0 : ∀ r ∈ X, r ≠ [])
    (cover : CoverKind ℝ) (c c' : Clusterer ℝ W C) (hc : validateClusterer c = .ok false) (hc' : validateClusterer c' = .ok true)
    (hlab : ∀ sub, c'.labels (distanceMatrix d sub) none = c.labels sub none) (order : List Nat) (minInt : Int) (store contract : Bool) (fuel : Nat) :
    Ecc.mapper p true d' cover c' order minInt store contract fuel (distanceMatrix d X) = Ecc.mapper p false d cover c order minInt store contract fuel X := by
  unfold Ecc.mapper mapperFitTransform
  simp only [ok_bind]
  rw [C150_precomputed p hp d d' X hd]
  cases coverKindFitTransform cover (eccentricity p false d X) with
  | error e => rfl
  | ok masks =>
    have hrows : ∀ r ∈ distanceMatrix d X, r ≠ [] := by
      intro r hr
      unfold distanceMatrix at hr
      obtain ⟨x, hx, rfl⟩ := List.mem_map.1 hr
      intro h
      rw [List.map_eq_nil_iff] at h
      rw [h] at hx
      simp at hx
    rw [ok_bind, ok_bind, Ecc.clustering_congr c c' false true hc hc' order X (distanceMatrix d X) (by simp [distanceMatrix]) h0 hrows masks]
    intro idx
    unfold labelsSingle portion
    by_cases hall : ∀ i ∈ idx, i < X.length
    · obtain ⟨r, hr, hpr⟩ := fancy_picks X idx hall
      have hM : fancy (distanceMatrix d X) (idx.map Int.ofNat) = .ok (r.map fun x => X.map fun y => d x y) := by
        obtain ⟨R, hR, hpR⟩ := fancy_picks (distanceMatrix d X) idx (by simpa [distanceMatrix] using hall)
        rw [hR]
        congr 1
        have h1 : R.map some = (r.map fun x => X.map fun y => d x y).map some := by
          unfold Picks at hpR hpr
          rw [hpR, List.map_map]
          have h2 : (r.map some).map (Option.map fun x => X.map fun y => d x y) = (idx.map fun i => X[i]?).map (Option.map fun x => X.map fun y => d x y) := by rw [hpr]
          rw [List.map_map, List.map_map] at h2
          simpa [distanceMatrix, Function.comp_def] using h2.symm
        exact List.map_injective_iff.2 (Option.some_injective _) h1
      have hcol : ∀ x, fancy (X.map fun y => d x y) (idx.map Int.ofNat) = .ok (r.map fun y => d x y) := by
        intro x
        obtain ⟨R, hR, hpR⟩ := fancy_picks (X.map fun y => d x y) idx (by simpa using hall)
        rw [hR]
        congr 1
        have h1 : R.map some = (r.map fun y => d x y).map some := by
          unfold Picks at hpR hpr
          rw [hpR, List.map_map]
          have h2 : (r.map some).map (Option.map fun y => d x y) = (idx.map fun i => X[i]?).map (Option.map fun y => d x y) := by rw [hpr]
          rw [List.map_map, List.map_map] at h2
          simpa [Function.comp_def] using h2.symm
        exact List.map_injective_iff.2 (Option.some_injective _) h1
      have hmat : ((r.map fun x => X.map fun y => d x y).mapM fun row => fancy row (idx.map Int.ofNat)) = .ok (distanceMatrix d r) := by
        unfold distanceMatrix
        have : ∀ l : List (List ℝ), ((l.map fun x => X.map fun y => d x y).mapM fun row => fancy row (idx.map Int.ofNat)) = .ok (l.map fun x => r.map fun y => d x y) := by
          intro l
          induction l with
          | nil => rfl
          | cons a t ih =>
            rw [List.map_cons, List.mapM_cons, hcol a, ok_bind, ih]
            rfl
        exact this r
      rw [hr, hM]
      simp only [ok_bind, if_true, Bool.false_eq_true, if_false, weightsFor, pure_bind]
      rw [hmat, ok_bind, hlab r]
    · have e1 : fancy X (idx.map Int.ofNat) = .error .indexError := by
        rcases Ecc.fancy_cases X idx with ⟨-, -, -, h⟩ | ⟨h, -⟩
        · exact absurd h hall
        · exact h
      have e2 : fancy (distanceMatrix d X) (idx.map Int.ofNat) = .error .indexError := by
        rcases Ecc.fancy_cases (distanceMatrix d X) idx with ⟨-, -, -, h⟩ | ⟨h, -⟩
        · exact absurd (by simpa [distanceMatrix] using h) hall
        · exact h
      rw [e1, e2]
      rfl

/-! ### Non-vacuity -/

/-- The distance of first coordinates. -/
def Ecc.d1 (x y : List ℝ) : ℝ := |x.headD 0 - y.headD 0|

/-- Three samples on a line, and the same ones moved, reflected and measured in other units. -/
example : Similar Ecc.d1 Ecc.d1 2 [[0], [1], [3]] [[10], [8], [4]] ∧ Symmetric0 Ecc.d1 [[0], [1], [3]] ∧ PseudometricOn {x | x ∈ [[0], [1], [3]]} Ecc.d1 ∧ Near Ecc.d1 Ecc.d1 1 [[0], [1], [3]] [[0], [1], [4]] := by
  refine ⟨⟨rfl, ?_⟩, ⟨fun x _ y _ => abs_sub_comm _ _, fun x _ => by simp [Ecc.d1]⟩, ⟨fun x _ y _ => abs_nonneg _, fun x _ => by simp [Ecc.d1], fun x _ y _ => abs_sub_comm _ _,
    fun x _ y _ z _ => abs_sub_le _ _ _⟩, ⟨rfl, ?_⟩⟩
  · intro i j x y x' y' hx hy hx' hy'
    have hi := (List.getElem?_eq_some_iff.1 hx).1
    have hj := (List.getElem?_eq_some_iff.1 hy).1
    simp only [List.length_cons, List.length_nil] at hi hj
    interval_cases i <;> interval_cases j <;> simp at hx hy hx' hy' <;> subst hx hy hx' hy' <;> norm_num [Ecc.d1]
  · intro i j x y x' y' hx hy hx' hy'
    have hi := (List.getElem?_eq_some_iff.1 hx).1
    have hj := (List.getElem?_eq_some_iff.1 hy).1
    simp only [List.length_cons, List.length_nil] at hi hj
    interval_cases i <;> interval_cases j <;> simp at hx hy hx' hy' <;> subst hx hy hx' hy' <;> norm_num [Ecc.d1]

/-- A clusterer as in `C150_mapper_similar`: all samples at distance zero from the first one, and the others. -/
example (s : ℝ) (hs : 0 < s) : ∃ c : Clusterer ℝ Nat Nat, validateClusterer c = .ok false ∧ (∀ sub sub', Similar Ecc.d1 Ecc.d1 s sub sub' → c.labels sub' none = c.labels sub none) ∧
    c.labels [[0], [1], [0]] none = .ok [0, 1, 0] := by
  classical
  refine ⟨⟨true, [], false, fun sub _ => .ok (sub.map fun x => if Ecc.d1 (sub.headD []) x = 0 then 0 else 1)⟩, rfl, ?_, ?_⟩
  · rintro sub sub' ⟨hl, h⟩
    dsimp only
    congr 1
    apply List.ext_getElem
    · simp [hl]
    · intro i h1 h2
      have hi' : i < sub'.length := by simpa using h1
      have hi : i < sub.length := by simpa using h2
      have h0' : 0 < sub'.length := by omega
      have h0 : 0 < sub.length := by omega
      have e : sub.headD [] = sub[0] := by cases sub with
        | nil => simp at h0
        | cons a t => rfl
      have e' : sub'.headD [] = sub'[0] := by cases sub' with
        | nil => simp at h0'
        | cons a t => rfl
      simp only [List.getElem_map, e, e']
      rw [h 0 i _ _ _ _ (List.getElem?_eq_getElem h0) (List.getElem?_eq_getElem hi) (List.getElem?_eq_getElem h0') (List.getElem?_eq_getElem hi')]
      simp [hs.ne']
  · norm_num [Ecc.d1]

end Gtda.Props
