import Verif.Lemmas.Vectorization
import Mathlib.Data.Rat.Floor

set_option autoImplicit false
set_option linter.unusedSectionVars false

/-!
# C32: filtration samplings span the training data
-/

namespace Gtda.Props
open Gtda.Py Gtda.Parallel Gtda.Diagrams

variable {K Q : Type} [Field K] [LinearOrder K] [IsStrictOrderedRing K] [DecidableEq Q]

theorem foldl_max_greatest (l : List K) (x : K) : IsGreatest {y | y ∈ x :: l} (l.foldl max x) := by
  induction l generalizing x with
  | nil => simp [IsGreatest, upperBounds]
  | cons a t ih =>
    obtain ⟨h1, h2⟩ := ih (max x a)
    rw [List.foldl_cons]
    constructor
    · simp only [Set.mem_ofPred_eq, List.mem_cons] at h1 ⊢
      rcases h1 with h1 | h1
      · rw [h1]
        rcases max_choice x a with h | h <;> simp [h]
      · simp [h1]
    · intro y hy
      simp only [Set.mem_ofPred_eq, List.mem_cons] at hy
      rcases hy with rfl | rfl | hy
      · exact le_trans (le_max_left _ a) (h2 (by simp))
      · exact le_trans (le_max_right x _) (h2 (by simp))
      · exact h2 (by simp [hy])

theorem foldl_min_least (l : List K) (x : K) : IsLeast {y | y ∈ x :: l} (l.foldl min x) := by
  induction l generalizing x with
  | nil => simp [IsLeast, lowerBounds]
  | cons a t ih =>
    obtain ⟨h1, h2⟩ := ih (min x a)
    rw [List.foldl_cons]
    constructor
    · simp only [Set.mem_ofPred_eq, List.mem_cons] at h1 ⊢
      rcases h1 with h1 | h1
      · rw [h1]
        rcases min_choice x a with h | h <;> simp [h]
      · simp [h1]
    · intro y hy
      simp only [Set.mem_ofPred_eq, List.mem_cons] at hy
      rcases hy with rfl | rfl | hy
      · exact le_trans (h2 (by simp)) (min_le_left _ a)
      · exact le_trans (h2 (by simp)) (min_le_right x _)
      · exact h2 (by simp [hy])

theorem npMax_spec (l : List K) (h : l ≠ []) : ∃ m, npMax l = .ok m ∧ IsGreatest {y | y ∈ l} m := by
  cases l with
  | nil => exact absurd rfl h
  | cons a t => exact ⟨_, rfl, foldl_max_greatest t a⟩

theorem npMin_spec (l : List K) (h : l ≠ []) : ∃ m, npMin l = .ok m ∧ IsLeast {y | y ∈ l} m := by
  cases l with
  | nil => exact absurd rfl h
  | cons a t => exact ⟨_, rfl, foldl_min_least t a⟩

/-- Second coordinates read by `_bin`. -/
def secondCoords (isPI : Bool) (X : List (List (Pt K Q))) (q : Q) : Set K := if isPI then lifetimes X q else deaths X q

theorem columns_fst (isPI : Bool) (X : List (List (Pt K Q))) (q : Q) :
    {y | y ∈ (columns isPI (X.map fun D => pointsIn D q)).1} = births X q := by
  ext y
  simp only [columns, births, Set.mem_ofPred_eq, List.mem_map, List.mem_flatten]
  constructor
  · rintro ⟨p, ⟨_, ⟨D, hD, rfl⟩, hp⟩, rfl⟩
    rw [pointsIn, List.mem_filter] at hp
    exact ⟨D, hD, p, hp.1, by simpa using hp.2, rfl⟩
  · rintro ⟨D, hD, p, hp, hq, rfl⟩
    exact ⟨p, ⟨_, ⟨D, hD, rfl⟩, by simp [pointsIn, hp, hq]⟩, rfl⟩

theorem columns_snd (isPI : Bool) (X : List (List (Pt K Q))) (q : Q) :
    {y | y ∈ (columns isPI (X.map fun D => pointsIn D q)).2} = secondCoords isPI X q := by
  ext y
  have key : ∀ g : Pt K Q → K, y ∈ (X.map fun D => pointsIn D q).flatten.map g ↔ ∃ D ∈ X, ∃ p ∈ D, p.q = q ∧ y = g p := by
    intro g
    simp only [List.mem_map, List.mem_flatten]
    constructor
    · rintro ⟨p, ⟨_, ⟨D, hD, rfl⟩, hp⟩, rfl⟩
      rw [pointsIn, List.mem_filter] at hp
      exact ⟨D, hD, p, hp.1, by simpa using hp.2, rfl⟩
    · rintro ⟨D, hD, p, hp, hq, rfl⟩
      exact ⟨p, ⟨_, ⟨D, hD, rfl⟩, by simp [pointsIn, hp, hq]⟩, rfl⟩
  cases isPI with
  | true => simpa [columns, secondCoords, lifetimes] using key fun p => p.d - p.b
  | false => simpa [columns, secondCoords, deaths] using key fun p => p.d

theorem binRange_spec (isPI : Bool) (X : List (List (Pt K Q))) (q : Q) (hE : EqualCounts X q)
    (hne : ∃ D ∈ X, ∃ p ∈ D, p.q = q) (hv : ∀ D ∈ X, ∀ p ∈ D, p.b ≤ p.d) :
    ∃ r, binRange isPI X q = .ok r ∧ IsLeast (births X q) r.1.1 ∧ IsGreatest (secondCoords isPI X q) r.2.2 ∧
      (isPI = true → IsGreatest (births X q) r.2.1 ∧ IsLeast (lifetimes X q) r.1.2) ∧
      (isPI = false → r.1.2 = r.1.1 ∧ r.2.1 = r.2.2) := by
  obtain ⟨D0, hD0, p0, hp0, hq0⟩ := hne
  have hX : X ≠ [] := List.ne_nil_of_mem hD0
  unfold binRange
  rw [subdiagrams_single X q hX hE]
  simp only [ok_bind]
  have c1 := columns_fst isPI X q
  have c2 := columns_snd isPI X q
  have n1 : (columns isPI (X.map fun D => pointsIn D q)).1 ≠ [] := by
    apply List.ne_nil_of_mem (a := p0.b)
    have : p0.b ∈ births X q := ⟨D0, hD0, p0, hp0, hq0, rfl⟩
    rw [← c1] at this
    exact this
  have n2 : (columns isPI (X.map fun D => pointsIn D q)).2 ≠ [] := by
    have : (secondCoords isPI X q).Nonempty := by
      cases isPI
      · exact ⟨p0.d, D0, hD0, p0, hp0, hq0, rfl⟩
      · exact ⟨p0.d - p0.b, D0, hD0, p0, hp0, hq0, rfl⟩
    obtain ⟨y, hy⟩ := this
    rw [← c2] at hy
    exact List.ne_nil_of_mem (a := y) hy
  obtain ⟨a, ha, ha'⟩ := npMin_spec _ n1
  obtain ⟨b, hb, hb'⟩ := npMin_spec _ n2
  obtain ⟨c, hc, hc'⟩ := npMax_spec _ n1
  obtain ⟨d, hd, hd'⟩ := npMax_spec _ n2
  rw [c1] at ha' hc'
  rw [c2] at hb' hd'
  rw [ha, hb, hc, hd]
  simp only [ok_bind]
  cases isPI with
  | true => exact ⟨_, rfl, ha', hd', fun _ => ⟨hc', hb'⟩, by simp⟩
  | false =>
    simp only [secondCoords, Bool.false_eq_true, if_false] at hb' hd' ⊢
    refine ⟨_, rfl, ?_, ?_, by simp, fun _ => ⟨rfl, rfl⟩⟩
    · have : a ≤ b := by
        obtain ⟨D, hD, p, hp, hq, rfl⟩ := hb'.1
        exact le_trans (ha'.2 ⟨D, hD, p, hp, hq, rfl⟩) (hv D hD p hp)
      simpa [min_eq_left this] using ha'
    · have : c ≤ d := by
        obtain ⟨D, hD, p, hp, hq, rfl⟩ := hc'.1
        exact le_trans (hv D hD p hp) (hd'.2 ⟨D, hD, p, hp, hq, rfl⟩)
      simpa [max_eq_right this] using hd'

theorem linspace_spec (lo hi : K) (n : Nat) (hn : 2 ≤ n) :
    ∃ step, (linspace lo hi n).2 = some step ∧ EquallySpaced (linspace lo hi n).1 n lo hi step ∧ ((n - 1 : Nat) : K) * step = hi - lo := by
  unfold linspace
  rw [if_neg (by omega)]
  have h0 : ((n - 1 : Nat) : K) ≠ 0 := by
    rw [Nat.cast_ne_zero]; omega
  refine ⟨_, rfl, ⟨by simp, ?_, ?_, ?_⟩, by field_simp⟩
  · rw [List.getElem?_map, List.getElem?_range (by omega)]
    simp
  · rw [List.getElem?_map, List.getElem?_range (by omega)]
    simp only [Option.map_some, Option.some.injEq]
    field_simp
    ring
  · intro i x y hx hy
    rw [List.getElem?_map] at hx hy
    have hi1 : i + 1 < n := by
      by_contra hc
      rw [List.getElem?_eq_none (by simpa using hc)] at hy
      simp at hy
    rw [List.getElem?_range (by omega)] at hx
    rw [List.getElem?_range hi1] at hy
    simp only [Option.map_some, Option.some.injEq] at hx hy
    rw [← hx, ← hy]
    push_cast
    ring

theorem mapM_index {α β : Type} (f : α → PyM β) (P : α → β → Prop) (l : List α) (h : ∀ a ∈ l, ∃ r, f a = .ok r ∧ P a r) :
    ∃ R, l.mapM f = .ok R ∧ R.length = l.length ∧ ∀ (j : Nat) a, l[j]? = some a → ∃ r, R[j]? = some r ∧ P a r := by
  induction l with
  | nil => exact ⟨[], rfl, rfl, by simp⟩
  | cons a t ih =>
    obtain ⟨R, hR, hl, hP⟩ := ih fun a ha => h a (List.mem_cons_of_mem _ ha)
    obtain ⟨r, hr, hp⟩ := h a List.mem_cons_self
    refine ⟨r :: R, ?_, by simp [hl], ?_⟩
    · rw [List.mapM_cons, hr, hR]; rfl
    · intro j a' hj
      cases j with
      | zero =>
        simp only [List.getElem?_cons_zero, Option.some.injEq] at hj
        subst hj
        exact ⟨r, by simp, hp⟩
      | succ j => simpa using hP j a' (by simpa using hj)

theorem binSampling_spec (isPI : Bool) (nBins : Nat) (dims : List Q) (X : List (List (Pt K Q))) (hd : dims ≠ [])
    (hE : ∀ q ∈ dims, EqualCounts X q) (hne : ∀ q ∈ dims, ∃ D ∈ X, ∃ p ∈ D, p.q = q) (hv : ∀ D ∈ X, ∀ p ∈ D, p.b ≤ p.d) :
    ∃ L g0 g1, binSampling isPI nBins dims X = .ok L ∧
      IsGreatest {y | ∃ q ∈ dims, IsGreatest (secondCoords isPI X q) y} g1 ∧
      (isPI = true → IsGreatest {y | ∃ q ∈ dims, IsGreatest (births X q) y} g0) ∧ (isPI = false → g0 = g1) ∧
      ∀ (j : Nat) q, dims[j]? = some q → ∃ r : (K × K) × (K × K),
        L[j]? = some (linspace r.1.1 (if r.2.1 ≠ r.1.1 then r.2.1 else g0) nBins, linspace r.1.2 (if r.2.2 ≠ r.1.2 then r.2.2 else g1) nBins) ∧
        IsLeast (births X q) r.1.1 ∧ IsGreatest (secondCoords isPI X q) r.2.2 ∧
        (isPI = true → IsGreatest (births X q) r.2.1 ∧ IsLeast (lifetimes X q) r.1.2) ∧
        (isPI = false → r.1.2 = r.1.1 ∧ r.2.1 = r.2.2) := by
  obtain ⟨R, hR, hl, hP⟩ := mapM_index (binRange isPI X) _ dims (fun q hq => binRange_spec isPI X q (hE q hq) (hne q hq) hv)
  have hRne : R ≠ [] := by
    intro h; rw [h] at hl; exact hd (List.length_eq_zero_iff.mp hl.symm)
  obtain ⟨g0, h0, h0'⟩ := npMax_spec (R.map fun r => r.2.1) (by simpa using hRne)
  obtain ⟨g1, h1, h1'⟩ := npMax_spec (R.map fun r => r.2.2) (by simpa using hRne)
  have memR : ∀ r ∈ R, ∃ (j : Nat) (q : Q), dims[j]? = some q ∧ R[j]? = some r := by
    intro r hr
    obtain ⟨j, hj⟩ := List.mem_iff_getElem?.mp hr
    have : j < dims.length := by rw [← hl]; exact (List.getElem?_eq_some_iff.mp hj).1
    exact ⟨j, dims[j], List.getElem?_eq_getElem this, hj⟩
  refine ⟨_, g0, g1, by unfold binSampling; rw [hR]; simp only [ok_bind]; rw [h0, h1]; rfl, ?_, ?_, ?_, ?_⟩
  · constructor
    · have := h1'.1
      simp only [Set.mem_ofPred_eq, List.mem_map] at this
      obtain ⟨r, hr, e⟩ := this
      obtain ⟨j, q, hq, hj⟩ := memR r hr
      obtain ⟨r', hr', hp⟩ := hP j q hq
      rw [hj, Option.some.injEq] at hr'
      subst hr'
      exact ⟨q, List.mem_of_getElem? hq, e ▸ hp.2.1⟩
    · rintro y ⟨q, hq, hy⟩
      obtain ⟨j, hj⟩ := List.mem_iff_getElem?.mp hq
      obtain ⟨r, hr, hp⟩ := hP j q hj
      rw [hy.unique hp.2.1]
      exact h1'.2 (by simp only [Set.mem_ofPred_eq, List.mem_map]; exact ⟨r, List.mem_of_getElem? hr, rfl⟩)
  · intro hpi
    constructor
    · have := h0'.1
      simp only [Set.mem_ofPred_eq, List.mem_map] at this
      obtain ⟨r, hr, e⟩ := this
      obtain ⟨j, q, hq, hj⟩ := memR r hr
      obtain ⟨r', hr', hp⟩ := hP j q hq
      rw [hj, Option.some.injEq] at hr'
      subst hr'
      exact ⟨q, List.mem_of_getElem? hq, e ▸ (hp.2.2.1 hpi).1⟩
    · rintro y ⟨q, hq, hy⟩
      obtain ⟨j, hj⟩ := List.mem_iff_getElem?.mp hq
      obtain ⟨r, hr, hp⟩ := hP j q hj
      rw [hy.unique (hp.2.2.1 hpi).1]
      exact h0'.2 (by simp only [Set.mem_ofPred_eq, List.mem_map]; exact ⟨r, List.mem_of_getElem? hr, rfl⟩)
  · intro hpi
    have : R.map (fun r => r.2.1) = R.map fun r => r.2.2 := by
      apply List.map_congr_left
      intro r hr
      obtain ⟨j, q, hq, hj⟩ := memR r hr
      obtain ⟨r', hr', hp⟩ := hP j q hq
      rw [hj, Option.some.injEq] at hr'
      subst hr'
      exact (hp.2.2.2 hpi).2
    rw [this] at h0
    rw [h0, Except.ok.injEq] at h1
    exact h1
  · intro j q hq
    obtain ⟨r, hr, hp⟩ := hP j q hq
    refine ⟨r, ?_, hp⟩
    rw [List.getElem?_map, hr]
    rfl

/-- **C32**, samplings for Betti curves, landscapes, heat kernels and silhouettes: for every `n_bins ≥ 2` and every homology dimension, the sampling consists
of `n_bins` equally spaced values from the smallest birth to the largest death in this dimension; if these are equal (all points equal and diagonal) to the largest death over
all dimensions. So every training birth and death lies between the first and the last sampled value. -/
theorem C32_samplings (nBins : Nat) (hb : 2 ≤ nBins) (dims : List Q) (X : List (List (Pt K Q))) (hd : dims ≠ [])
    (hE : ∀ q ∈ dims, EqualCounts X q) (hne : ∀ q ∈ dims, ∃ D ∈ X, ∃ p ∈ D, p.q = q) (hv : ∀ D ∈ X, ∀ p ∈ D, p.b ≤ p.d) :
    ∃ L, binSampling false nBins dims X = .ok L ∧ ∀ (j : Nat) q, dims[j]? = some q →
      ∃ s step rest lo hi last, L[j]? = some ((s, some step), rest) ∧ IsLeast (births X q) lo ∧ IsGreatest (deaths X q) hi ∧
        EquallySpaced s nBins lo last step ∧ 0 ≤ step ∧
        (lo ≠ hi → last = hi) ∧
        (lo = hi → IsGreatest {y | ∃ q ∈ dims, IsGreatest (deaths X q) y} last) ∧
        ∀ x ∈ births X q ∪ deaths X q, lo ≤ x ∧ x ≤ last := by
  obtain ⟨L, g0, g1, hL, hg1, -, hg, hj⟩ := binSampling_spec false nBins dims X hd hE hne hv
  refine ⟨L, hL, ?_⟩
  intro j q hq
  obtain ⟨r, hr, hp1, hp2, -, hp3⟩ := hj j q hq
  obtain ⟨e1, e2⟩ := hp3 rfl
  simp only [secondCoords, Bool.false_eq_true, if_false] at hp2 hg1
  obtain ⟨step, hs1, hs2, hs3⟩ := linspace_spec r.1.1 (if r.2.1 ≠ r.1.1 then r.2.1 else g0) nBins hb
  have hlast : r.2.2 ≤ (if r.2.1 ≠ r.1.1 then r.2.1 else g0) := by
    split
    · exact le_of_eq e2.symm
    · rw [hg rfl]
      exact hg1.2 ⟨q, List.mem_of_getElem? hq, hp2⟩
  have hbd : ∀ x ∈ births X q, x ≤ r.2.2 := by
    rintro x ⟨D, hD, p, hp, hpq, rfl⟩
    exact le_trans (hv D hD p hp) (hp2.2 ⟨D, hD, p, hp, hpq, rfl⟩)
  have hdb : ∀ x ∈ deaths X q, r.1.1 ≤ x := by
    rintro x ⟨D, hD, p, hp, hpq, rfl⟩
    exact le_trans (hp1.2 ⟨D, hD, p, hp, hpq, rfl⟩) (hv D hD p hp)
  refine ⟨_, step, _, r.1.1, r.2.2, _, by rw [hr, ← hs1], hp1, hp2, hs2, ?_, ?_, ?_, ?_⟩
  · have hpos : (0 : K) < ((nBins - 1 : Nat) : K) := by rw [Nat.cast_pos]; omega
    by_contra hc
    push Not at hc
    have : ((nBins - 1 : Nat) : K) * step < 0 := mul_neg_of_pos_of_neg hpos hc
    have := hbd _ hp1.1
    linarith
  · intro h
    rw [if_pos (by rw [e2]; exact fun e => h e.symm), e2]
  · intro h
    rw [if_neg (by rw [e2]; simp [h]), hg rfl]
    exact hg1
  · rintro x (hx | hx)
    · exact ⟨hp1.2 hx, le_trans (hbd x hx) hlast⟩
    · exact ⟨hdb x hx, le_trans (hp2.2 hx) hlast⟩

/-- **C32**, samplings for persistence images: births and lifetimes are sampled separately, each from the smallest to the largest value in the dimension (to the
largest over all dimensions if all values in the dimension are equal), with `n_bins` equally spaced values. -/
theorem C32_samplings_persistence_image (nBins : Nat) (hb : 2 ≤ nBins) (dims : List Q) (X : List (List (Pt K Q))) (hd : dims ≠ [])
    (hE : ∀ q ∈ dims, EqualCounts X q) (hne : ∀ q ∈ dims, ∃ D ∈ X, ∃ p ∈ D, p.q = q) (hv : ∀ D ∈ X, ∀ p ∈ D, p.b ≤ p.d) :
    ∃ L, binSampling true nBins dims X = .ok L ∧ ∀ (j : Nat) q, dims[j]? = some q →
      ∃ s₀ step₀ s₁ step₁ lo₀ hi₀ last₀ lo₁ hi₁ last₁, L[j]? = some ((s₀, some step₀), (s₁, some step₁)) ∧
        IsLeast (births X q) lo₀ ∧ IsGreatest (births X q) hi₀ ∧ IsLeast (lifetimes X q) lo₁ ∧ IsGreatest (lifetimes X q) hi₁ ∧
        EquallySpaced s₀ nBins lo₀ last₀ step₀ ∧ EquallySpaced s₁ nBins lo₁ last₁ step₁ ∧
        (lo₀ ≠ hi₀ → last₀ = hi₀) ∧ (lo₁ ≠ hi₁ → last₁ = hi₁) ∧
        (lo₀ = hi₀ → IsGreatest {y | ∃ q ∈ dims, IsGreatest (births X q) y} last₀) ∧
        (lo₁ = hi₁ → IsGreatest {y | ∃ q ∈ dims, IsGreatest (lifetimes X q) y} last₁) ∧
        (∀ x ∈ births X q, lo₀ ≤ x ∧ x ≤ last₀) ∧ (∀ x ∈ lifetimes X q, lo₁ ≤ x ∧ x ≤ last₁) := by
  obtain ⟨L, g0, g1, hL, hg1, hg0, -, hj⟩ := binSampling_spec true nBins dims X hd hE hne hv
  refine ⟨L, hL, ?_⟩
  intro j q hq
  obtain ⟨r, hr, hp1, hp2, hp3, -⟩ := hj j q hq
  obtain ⟨hp3, hp4⟩ := hp3 rfl
  have hg0 := hg0 rfl
  simp only [secondCoords, if_true] at hp2 hg1
  obtain ⟨step, hs1, hs2, hs3⟩ := linspace_spec r.1.1 (if r.2.1 ≠ r.1.1 then r.2.1 else g0) nBins hb
  obtain ⟨step', hs1', hs2', hs3'⟩ := linspace_spec r.1.2 (if r.2.2 ≠ r.1.2 then r.2.2 else g1) nBins hb
  refine ⟨_, step, _, step', r.1.1, r.2.1, _, r.1.2, r.2.2, _, by rw [hr, ← hs1, ← hs1'], hp1, hp3, hp4, hp2, hs2, hs2', ?_, ?_, ?_, ?_, ?_, ?_⟩
  · intro h; rw [if_pos (Ne.symm h)]
  · intro h; rw [if_pos (Ne.symm h)]
  · intro h; rw [if_neg (by simp [h])]; exact hg0
  · intro h; rw [if_neg (by simp [h])]; exact hg1
  · intro x hx
    refine ⟨hp1.2 hx, le_trans (hp3.2 hx) ?_⟩
    split
    · exact le_rfl
    · exact hg0.2 ⟨q, List.mem_of_getElem? hq, hp3⟩
  · intro x hx
    refine ⟨hp4.2 hx, le_trans (hp2.2 hx) ?_⟩
    split
    · exact le_rfl
    · exact hg1.2 ⟨q, List.mem_of_getElem? hq, hp2⟩

/-- A collection for the examples: dimension 1 has only equal diagonal points. -/
def binX : List (List (Pt ℚ Nat)) := [[⟨0, 2, 0⟩, ⟨1, 3, 0⟩, ⟨1, 1, 1⟩], [⟨0, 1, 0⟩, ⟨1, 1, 1⟩, ⟨5, 5, 0⟩]]

example : binSampling false 3 [0, 1] binX = .ok [(([0, 5/2, 5], some (5/2)), ([0, 5/2, 5], some (5/2))), (([1, 3, 5], some 2), ([1, 3, 5], some 2))] := by
  decide +kernel
example : binSampling true 3 [0, 1] binX = .ok [(([0, 5/2, 5], some (5/2)), ([0, 1, 2], some 1)), (([1, 3, 5], some 2), ([0, 1, 2], some 1))] := by
  decide +kernel
example : (∀ q ∈ [0, 1], EqualCounts binX q) ∧ (∀ q ∈ [0, 1], ∃ D ∈ binX, ∃ p ∈ D, p.q = q) ∧ (∀ D ∈ binX, ∀ p ∈ D, p.b ≤ p.d) := by
  unfold EqualCounts; decide +kernel

end Gtda.Props
