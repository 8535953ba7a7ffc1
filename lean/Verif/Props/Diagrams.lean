import Verif.Lemmas.DiagramsCheck
import Verif.Lemmas.Homology
import Mathlib.Data.Rat.Floor

set_option autoImplicit false
set_option linter.unusedSectionVars false

/-!
# Properties C18–C25: persistence diagrams
-/

namespace Gtda.Props
open Gtda.Py Gtda.Diagrams

/-! ### C18: check_diagrams -/

section C18
variable {K : Type} [Field K] [LinearOrder K] [IsStrictOrderedRing K] [FloorRing K]

/-- C18. `check_diagrams` returns valid collections unchanged and raises on all others. -/
theorem C18_check_diagrams (X : Arr K) (hc : X.Consistent) :
    (ValidCollection X → checkDiagrams X = .ok X) ∧ (¬ ValidCollection X → ∃ e, checkDiagrams X = .error e) := by
  rcases checkDiagrams_cases X hc with h | h
  · exact ⟨fun _ => h.2, fun hn => absurd h.1 hn⟩
  · exact ⟨fun hv => absurd hv h.1, fun _ => h.2⟩

/-- C18. What is accepted is returned unchanged, and is valid. -/
theorem C18_accepted (X Y : Arr K) (hc : X.Consistent) (h : checkDiagrams X = .ok Y) : Y = X ∧ ValidCollection X := by
  rcases checkDiagrams_cases X hc with h' | ⟨-, e, he⟩
  · rw [h'.2] at h
    cases h
    exact ⟨rfl, h'.1⟩
  · rw [he] at h; cases h

end C18

/-- Finite entries for the examples. -/
def fin (x : ℚ) : Option (Ext ℚ) := some ((x : WithTop ℚ) : Ext ℚ)

/-- Infinity for the examples. -/
def inf : Option (Ext ℚ) := some ((⊤ : WithTop ℚ) : Ext ℚ)

/-- Two diagrams with points in dimensions 0 and 1, one of infinite death. -/
def exArr : Arr ℚ := ⟨[2, 2, 3], [[[fin 0, fin 1, fin 0], [fin 1, fin 2, fin 1]], [[fin 0, inf, fin 0], [fin 3, fin 3, fin 1]]]⟩

theorem exArr_consistent : exArr.Consistent := by
  intro n m k h
  have : ([2, 2, 3] : List Nat) = [n, m, k] := h
  simp only [List.cons.injEq, and_true] at this
  obtain ⟨rfl, rfl, rfl⟩ := this
  refine ⟨rfl, ?_⟩
  intro D hD
  simp only [exArr, List.mem_cons, List.not_mem_nil, or_false] at hD
  rcases hD with rfl | rfl <;> refine ⟨rfl, ?_⟩ <;> intro p hp <;> simp only [List.mem_cons, List.not_mem_nil, or_false] at hp <;>
    rcases hp with rfl | rfl <;> rfl

theorem exArr_ok : ∃ Y, checkDiagrams exArr = .ok Y := by
  have h : (match checkDiagrams exArr with | .ok _ => true | .error _ => false) = true := by decide +kernel
  cases hc : checkDiagrams exArr with
  | ok Y => exact ⟨Y, rfl⟩
  | error e => rw [hc] at h; cases h

theorem exArr_valid : ValidCollection exArr := by
  obtain ⟨Y, hY⟩ := exArr_ok
  exact (C18_accepted exArr Y exArr_consistent hY).2

-- rejected: a fractional dimension, a point below the diagonal, infinity among other dimensions, a NaN, a negative infinite dimension
example : (match checkDiagrams (⟨[1, 1, 3], [[[fin 0, fin 1, fin (1 / 2)]]]⟩ : Arr ℚ) with | .error .valueError => true | _ => false) = true := by
  decide +kernel
example : (match checkDiagrams (⟨[1, 1, 3], [[[fin 2, fin 1, fin 1]]]⟩ : Arr ℚ) with | .error .valueError => true | _ => false) = true := by
  decide +kernel
example : (match checkDiagrams (⟨[1, 2, 3], [[[fin 0, fin 1, fin 1], [fin 0, fin 1, inf]]]⟩ : Arr ℚ) with
    | .error .valueError => true | _ => false) = true := by
  decide +kernel
example : (match checkDiagrams (⟨[1, 1, 3], [[[none, fin 1, fin 1]]]⟩ : Arr ℚ) with | .error .valueError => true | _ => false) = true := by
  decide +kernel
example : (match checkDiagrams (⟨[1, 1, 3], [[[fin 0, fin 1, some ⊥]]]⟩ : Arr ℚ) with | .error .overflowError => true | _ => false) = true := by
  decide +kernel

/-! ### C19: subdiagrams -/

section C19
variable {K Q : Type} [DecidableEq Q]

/-- C19 (proved part). When all diagrams have as many points as one another in each requested dimension, extraction succeeds and gives every diagram exactly its own points of the
requested dimensions, dimension by dimension. Missing: the general case, which is false (`C19_refuted_three_diagrams`). -/
theorem C19_equal_counts_partial (X : List (List (Pt K Q))) (dims : List Q) (hX : X ≠ []) (hd : dims ≠ [])
    (h : ∀ q ∈ dims, EqualCounts X q) :
    subdiagrams X dims = .ok (X.map fun D => dims.flatMap fun q => pointsIn D q) :=
  subdiagrams_eq X dims hX hd h

/-- For at most two diagrams, one dimension. -/
theorem single_two (X R : List (List (Pt K Q))) (hX : X.length ≤ 2) (q : Q) (h : subdiagramsSingle X q = .ok R) :
    R = (X.map fun D => pointsIn D q) ∧ EqualCounts X q := by
  have key : EqualCounts X q := by
    match X, hX, h with
    | [], _, _ => intro D hD; simp at hD
    | [A], _, _ => intro D hD D' hD'; simp at hD hD'; rw [hD, hD']
    | [A, B], _, h =>
      simp only [subdiagramsSingle, reshape2] at h
      split at h
      · next hl =>
        simp only [List.flatten_cons, List.flatten_nil, List.append_nil, List.filter_append, List.length_append, List.length_cons,
          List.length_nil] at hl
        have : (pointsIn A q).length = (pointsIn B q).length := by unfold pointsIn; omega
        intro D hD D' hD'
        simp only [List.mem_cons, List.not_mem_nil, or_false] at hD hD'
        rcases hD with rfl | rfl <;> rcases hD' with rfl | rfl <;> simp [this]
      · cases h
  refine ⟨?_, key⟩
  have hne : X ≠ [] := by rintro rfl; simp [subdiagramsSingle] at h
  rw [subdiagramsSingle_eq X q hne key] at h
  cases h
  rfl

/-- C19 (proved part). For at most two diagrams, extraction raises or is right. -/
theorem C19_at_most_two_partial (X R : List (List (Pt K Q))) (dims : List Q) (hX : X.length ≤ 2) (h : subdiagrams X dims = .ok R) :
    R = X.map fun D => dims.flatMap fun q => pointsIn D q := by
  obtain ⟨X0, Xt, rfl⟩ : ∃ X0 Xt, X = X0 :: Xt := by
    cases X with
    | nil => simp [subdiagrams] at h
    | cons a t => exact ⟨a, t, rfl⟩
  have heq : ∀ q ∈ dims, EqualCounts (X0 :: Xt) q := by
    intro q hq
    match dims, hq, h with
    | [a], hq, h =>
      rw [List.mem_singleton] at hq
      subst hq
      exact (single_two _ R hX _ h).2
    | a :: b :: t, hq, h =>
      simp only [subdiagrams] at h
      cases hm : (a :: b :: t).mapM (subdiagramsSingle (X0 :: Xt)) with
      | error e => rw [hm] at h; cases h
      | ok l =>
        have := (Gtda.TimeSeries.mapM_ok_iff (f := subdiagramsSingle (X0 :: Xt))).mp hm
        obtain ⟨i, hi, rfl⟩ := List.getElem_of_mem hq
        have h2 := List.forall₂_iff_get.mp this
        have h3 := h2.2 i hi (h2.1 ▸ hi)
        exact (single_two _ _ hX _ h3).2
  have hd : dims ≠ [] := by
    rintro rfl
    simp [subdiagrams, concatAxis1] at h
  rw [subdiagrams_eq _ dims (by simp) hd heq] at h
  cases h
  rfl

/-- C19 is false in general: here the second diagram has no point in dimension 1 and the third has two. Nothing is raised, and the second diagram is
given a point of the third. -/
theorem C19_refuted_three_diagrams :
    ∃ (X R : List (List (Pt ℚ Nat))) (D' : List (Pt ℚ Nat)), subdiagrams X [1] = .ok R ∧ R[1]? = some D' ∧ X[1]? = some [⟨0, 9, 0⟩, ⟨0, 8, 0⟩] ∧
      D' ≠ [] ∧ R ≠ X.map (fun D => [1].flatMap fun q => pointsIn D q) :=
  ⟨[[⟨0, 1, 1⟩, ⟨0, 7, 0⟩], [⟨0, 9, 0⟩, ⟨0, 8, 0⟩], [⟨0, 2, 1⟩, ⟨0, 3, 1⟩]], [[⟨0, 1, 1⟩], [⟨0, 2, 1⟩], [⟨0, 3, 1⟩]], [⟨0, 2, 1⟩],
    by decide +kernel⟩

end C19

/-- Example collection: two diagrams, two points in dimension 0 and one in dimension 1 each, in different places. -/
def exX : List (List (Pt ℚ Nat)) := [[⟨0, 1, 0⟩, ⟨0, 3, 1⟩, ⟨0, 2, 0⟩], [⟨1, 4, 1⟩, ⟨0, 5, 0⟩, ⟨2, 2, 0⟩]]

theorem equalCounts_of_eq {K Q : Type} [DecidableEq Q] (X : List (List (Pt K Q))) (q : Q) (n : Nat)
    (h : ∀ D ∈ X, (pointsIn D q).length = n) : EqualCounts X q := fun D hD D' hD' => by rw [h D hD, h D' hD']

theorem exX_equalCounts (q : Nat) : EqualCounts exX q := by
  match q with
  | 0 => exact equalCounts_of_eq exX 0 2 (by decide +kernel)
  | 1 => exact equalCounts_of_eq exX 1 1 (by decide +kernel)
  | q + 2 =>
    refine equalCounts_of_eq exX (q + 2) 0 ?_
    intro D hD
    simp only [exX, List.mem_cons, List.not_mem_nil, or_false] at hD
    rcases hD with rfl | rfl <;> simp [pointsIn]

example : subdiagrams exX [1, 0] = .ok [[⟨0, 3, 1⟩, ⟨0, 1, 0⟩, ⟨0, 2, 0⟩], [⟨1, 4, 1⟩, ⟨0, 5, 0⟩, ⟨2, 2, 0⟩]] := by
  rw [C19_equal_counts_partial exX [1, 0] (by decide) (by decide) (fun q _ => exX_equalCounts q)]
  decide +kernel

/-! ### C20, C21: outputs of the persistent homology transformers -/

section C20
variable {V : Type} [LinearOrder V]

/-- C20. For every collection of raw diagrams, the output diagram of each sample has, in each requested dimension, exactly the expected bars, in order, followed only
by points on the diagonal. -/
theorem C20_postprocess (fmt : Format) (dims : List Nat) (inf zero lowest : V) (reduced : Bool) (garbage : Nat → Nat → Pt V Nat)
    (Xt : List (RawDiagram V)) (hX : Xt ≠ []) (hd : dims.Nodup) (h : ∀ D ∈ Xt, WellFormed fmt dims D) :
    ∃ R, postprocess fmt dims inf zero lowest reduced garbage Xt = .ok R ∧ R.length = Xt.length ∧
      ∀ (i : Nat) (D : RawDiagram V) (D' : List (Pt V Nat)), Xt[i]? = some D → R[i]? = some D' →
        (∀ p ∈ D', p.q ∈ dims) ∧
        ∀ q ∈ dims, ∃ pads : List (Pt V Nat),
          pointsIn D' q = ((expectedBars inf zero lowest reduced D q).map fun v => ⟨v.1, v.2, q⟩) ++ pads ∧
            ∀ p ∈ pads, p.b = p.d := by
  refine ⟨_, postprocess_form fmt dims inf zero lowest reduced garbage Xt hX h, by simp, ?_⟩
  intro i D D' hD hD'
  rw [List.getElem?_map, hD, Option.map_some, Option.some.injEq] at hD'
  have hq : ∀ q ∈ dims, ∀ p ∈ blockOf q (barWidth inf zero lowest reduced Xt q) (barPad inf zero lowest reduced Xt q)
      (expectedBars inf zero lowest reduced D q), p.q = q := by
    intro q _ p hp
    rcases List.mem_append.mp hp with hp | hp
    · obtain ⟨v, _, rfl⟩ := List.mem_map.mp hp; rfl
    · rw [(List.mem_replicate.mp hp).2]
  constructor
  · intro p hp
    rw [← hD'] at hp
    obtain ⟨q, hqd, hp⟩ := List.mem_flatMap.mp hp
    rw [hq q hqd p hp]
    exact hqd
  · intro q hqd
    refine ⟨List.replicate (barWidth inf zero lowest reduced Xt q - (expectedBars inf zero lowest reduced D q).length)
      ⟨barPad inf zero lowest reduced Xt q, barPad inf zero lowest reduced Xt q, q⟩, ?_, ?_⟩
    · rw [← hD']
      have : pointsIn (dims.flatMap fun q => blockOf q (barWidth inf zero lowest reduced Xt q) (barPad inf zero lowest reduced Xt q)
          (expectedBars inf zero lowest reduced D q)) q =
          blockOf q (barWidth inf zero lowest reduced Xt q) (barPad inf zero lowest reduced Xt q) (expectedBars inf zero lowest reduced D q) := by
        rw [pointsIn_flatMap dims _ hq hd, if_pos hqd]
      rw [this, blockOf]
    · intro p hp
      rw [(List.mem_replicate.mp hp).2]

/-- C20. The output does not depend on the content of the uninitialised memory. -/
theorem C20_no_uninitialised (fmt : Format) (dims : List Nat) (inf zero lowest : V) (reduced : Bool) (garbage garbage' : Nat → Nat → Pt V Nat)
    (Xt : List (RawDiagram V)) (hX : Xt ≠ []) (h : ∀ D ∈ Xt, WellFormed fmt dims D) :
    postprocess fmt dims inf zero lowest reduced garbage Xt = postprocess fmt dims inf zero lowest reduced garbage' Xt := by
  rw [postprocess_form fmt dims inf zero lowest reduced garbage Xt hX h, postprocess_form fmt dims inf zero lowest reduced garbage' Xt hX h]

/-- C21. All output diagrams have the same number of points in every dimension, at least one in every requested one; triples are grouped by ascending dimension; no
point lies below the diagonal; and extracting subdiagrams succeeds and is right. -/
theorem C21_rectangular (fmt : Format) (dims : List Nat) (inf zero lowest : V) (reduced : Bool) (garbage : Nat → Nat → Pt V Nat)
    (Xt : List (RawDiagram V)) (hX : Xt ≠ []) (hd : dims.Pairwise (· < ·)) (h : ∀ D ∈ Xt, WellFormed fmt dims D) :
    ∃ R, postprocess fmt dims inf zero lowest reduced garbage Xt = .ok R ∧
      (∀ q, EqualCounts R q) ∧
      (∀ q ∈ dims, ∀ D ∈ R, 1 ≤ (pointsIn D q).length) ∧
      (∀ D ∈ R, D.Pairwise fun p p' => p.q ≤ p'.q) ∧
      (∀ D ∈ R, ∀ p ∈ D, p.b ≤ p.d) ∧
      (∀ qs, qs ≠ [] → subdiagrams R qs = .ok (R.map fun D => qs.flatMap fun q => pointsIn D q)) := by
  have hnd : dims.Nodup := hd.imp (fun h => ne_of_lt h)
  refine ⟨_, postprocess_form fmt dims inf zero lowest reduced garbage Xt hX h, ?_⟩
  set blk : RawDiagram V → Nat → List (Pt V Nat) := fun D q =>
    blockOf q (barWidth inf zero lowest reduced Xt q) (barPad inf zero lowest reduced Xt q) (expectedBars inf zero lowest reduced D q) with hblk
  have hq : ∀ D, ∀ q ∈ dims, ∀ p ∈ blk D q, p.q = q := by
    intro D q _ p hp
    rcases List.mem_append.mp hp with hp | hp
    · obtain ⟨v, _, rfl⟩ := List.mem_map.mp hp; rfl
    · rw [(List.mem_replicate.mp hp).2]
  have hpts : ∀ D q, pointsIn (dims.flatMap (blk D)) q = if q ∈ dims then blk D q else [] :=
    fun D q => pointsIn_flatMap dims _ (hq D) hnd q
  have hlen : ∀ D ∈ Xt, ∀ q, (blk D q).length = barWidth inf zero lowest reduced Xt q := by
    intro D hD q
    exact length_blockOf _ _ _ _ ((le_foldl_max _ 1).2 _ (List.mem_map.mpr ⟨D, hD, rfl⟩))
  have heq : ∀ q, EqualCounts (Xt.map fun D => dims.flatMap (blk D)) q := by
    intro q A hA B hB
    obtain ⟨D, hD, rfl⟩ := List.mem_map.mp hA
    obtain ⟨D', hD', rfl⟩ := List.mem_map.mp hB
    rw [hpts, hpts]
    split
    · rw [hlen D hD, hlen D' hD']
    · rfl
  refine ⟨heq, ?_, ?_, ?_, ?_⟩
  · intro q hqd A hA
    obtain ⟨D, hD, rfl⟩ := List.mem_map.mp hA
    rw [hpts, if_pos hqd, hlen D hD]
    exact (le_foldl_max _ 1).1
  · intro A hA
    obtain ⟨D, hD, rfl⟩ := List.mem_map.mp hA
    rw [List.pairwise_flatMap]
    constructor
    · intro q hqd
      apply List.Pairwise.imp_of_mem (R := fun _ _ => True)
      · intro a b ha hb _
        rw [hq D q hqd a ha, hq D q hqd b hb]
      · exact List.pairwise_of_forall (fun _ _ => trivial)
    · apply List.Pairwise.imp_of_mem _ hd
      intro a b ha hb hab x hx y hy
      rw [hq D a ha x hx, hq D b hb y hy]
      exact hab.le
  · intro A hA p hp
    obtain ⟨D, hD, rfl⟩ := List.mem_map.mp hA
    obtain ⟨q, hqd, hp⟩ := List.mem_flatMap.mp hp
    rcases List.mem_append.mp hp with hp | hp
    · obtain ⟨v, hv, rfl⟩ := List.mem_map.mp hp
      unfold expectedBars at hv
      obtain ⟨r, -, hr⟩ := List.mem_filterMap.mp hv
      split at hr
      · next hlt => cases hr; exact hlt.le
      · cases hr
    · rw [(List.mem_replicate.mp hp).2]
  · intro qs hqs
    exact subdiagrams_eq _ qs (by simpa using hX) hqs (fun q _ => heq q)

end C20

section C21
variable {K : Type} [Field K] [LinearOrder K] [IsStrictOrderedRing K] [FloorRing K]

/-- C21. The output, as an array of floats, is accepted by `check_diagrams`. Here births and deaths may be infinite (for example when `infinity_values` is). -/
theorem C21_accepted (fmt : Format) (dims : List Nat) (inf zero lowest : Ext K) (reduced : Bool) (garbage : Nat → Nat → Pt (Ext K) Nat)
    (Xt : List (RawDiagram (Ext K))) (hX : Xt ≠ []) (hd : dims.Pairwise (· < ·)) (h : ∀ D ∈ Xt, WellFormed fmt dims D) :
    ∃ R, postprocess fmt dims inf zero lowest reduced garbage Xt = .ok R ∧
      (let A := toArr (K := K) (R.map fun D => D.map fun p => ⟨p.b, p.d, (((p.q : K) : WithTop K) : Ext K)⟩)
       checkDiagrams A = .ok A) := by
  have hnd : dims.Nodup := hd.imp (fun h => ne_of_lt h)
  obtain ⟨R, hR, heq, hge, hsorted, hbd, -⟩ := C21_rectangular fmt dims inf zero lowest reduced garbage Xt hX hd h
  refine ⟨R, hR, ?_⟩
  intro A
  have hlenR : R.length = Xt.length := by
    obtain ⟨R', hR', hl, -⟩ := C20_postprocess fmt dims inf zero lowest reduced garbage Xt hX hnd h
    rw [hR] at hR'
    cases hR'
    exact hl
  have hRne : R ≠ [] := by
    intro h0
    rw [h0] at hlenR
    exact hX (List.length_eq_zero_iff.mp hlenR.symm)
  have hrect : ∀ D ∈ R, D.length = (R.headD []).length := by
    rw [postprocess_form fmt dims inf zero lowest reduced garbage Xt hX h] at hR
    have hlen2 : ∀ D ∈ Xt, (dims.flatMap fun q => blockOf q (barWidth inf zero lowest reduced Xt q) (barPad inf zero lowest reduced Xt q)
        (expectedBars inf zero lowest reduced D q)).length = (dims.map fun q => barWidth inf zero lowest reduced Xt q).sum := by
      intro D hD
      rw [List.length_flatMap]
      congr 1
      apply List.map_congr_left
      intro q _
      exact length_blockOf _ _ _ _ ((le_foldl_max _ 1).2 _ (List.mem_map.mpr ⟨D, hD, rfl⟩))
    have hall : ∀ D ∈ R, D.length = (dims.map fun q => barWidth inf zero lowest reduced Xt q).sum := by
      cases hR
      intro D hD
      obtain ⟨D', hD', rfl⟩ := List.mem_map.mp hD
      exact hlen2 D' hD'
    intro D hD
    rw [hall D hD]
    obtain ⟨R0, Rt, rfl⟩ := List.exists_cons_of_ne_nil hRne
    exact (hall R0 (by simp)).symm
  have hmem : ∀ D ∈ A.data, ∀ p ∈ D, ∃ D' ∈ R, ∃ p' ∈ D', p = [some p'.b, some p'.d, some ((((p'.q : K) : WithTop K) : Ext K))] := by
    intro D hD p hp
    simp only [A, toArr, List.map_map, List.mem_map] at hD
    obtain ⟨D', hD', rfl⟩ := hD
    simp only [Function.comp, List.map_map, List.mem_map] at hp
    obtain ⟨p', hp', rfl⟩ := hp
    exact ⟨D', hD', p', hp', rfl⟩
  apply checkDiagrams_ok
  · intro n m k hs
    simp only [A, toArr, List.length_map, List.cons.injEq, and_true] at hs
    obtain ⟨rfl, rfl, rfl⟩ := hs
    refine ⟨by simp [A, toArr], ?_⟩
    intro D hD
    constructor
    · simp only [A, toArr, List.map_map, List.mem_map] at hD
      obtain ⟨D', hD', rfl⟩ := hD
      obtain ⟨R0, Rt, hRc⟩ := List.exists_cons_of_ne_nil hRne
      rw [hRc]
      have := hrect D' hD'
      rw [hRc] at this
      simpa using this
    · intro p hp
      obtain ⟨D', -, p', -, rfl⟩ := hmem D hD p hp
      rfl
  · refine ⟨⟨R.length, _, by simp only [A, toArr, List.length_map]; rfl, fun h0 => hRne (List.length_eq_zero_iff.mp h0)⟩, ?_, ?_, ?_⟩
    · intro D hD p hp v hv
      obtain ⟨D', -, p', -, rfl⟩ := hmem D hD p hp
      simp at hv
      rcases hv with rfl | rfl | rfl <;> simp
    · intro D hD p hp b d hb hd
      obtain ⟨D', hD', p', hp', rfl⟩ := hmem D hD p hp
      simp at hb hd
      subst hb hd
      exact hbd D' hD' p' hp'
    · left
      intro D hD p hp
      obtain ⟨D', hD', p', hp', rfl⟩ := hmem D (List.mem_of_getElem? hD) p hp
      exact ⟨p'.q, rfl⟩

end C21

/-- Two raw diagrams as given by ripser: the second has no bar in dimension 1; an infinite bar closes each dimension 0. -/
def exRaw : List (RawDiagram ℚ) :=
  [.byDim [[(.num 0, .num 2), (.num 0, .posinf)], [(.num 1, .num 3), (.num 4, .num 4), (.num 2, .posinf)]],
   .byDim [[(.num 0, .num 1), (.num 0, .num 5), (.num 0, .posinf)], []]]

theorem exRaw_wellFormed : ∀ D ∈ exRaw, WellFormed .ripser [0, 1] D := by
  intro D hD
  simp only [exRaw, List.mem_cons, List.not_mem_nil, or_false] at hD
  rcases hD with rfl | rfl <;> intro q hq <;> simp at hq <;> rcases hq with rfl | rfl <;> simp

example : postprocess .ripser [0, 1] (10 : ℚ) 0 (-1000) true (fun i j => ⟨i, j, 77⟩) exRaw =
    .ok [[⟨0, 2, 0⟩, ⟨0, 0, 0⟩, ⟨1, 3, 1⟩, ⟨2, 10, 1⟩], [⟨0, 1, 0⟩, ⟨0, 5, 0⟩, ⟨1, 1, 1⟩, ⟨1, 1, 1⟩]] := by
  decide +kernel
example : ∃ R, postprocess .ripser [0, 1] (10 : ℚ) 0 (-1000) true (fun i j => ⟨i, j, 77⟩) exRaw = .ok R ∧ R.length = 2 :=
  let ⟨R, h1, h2, _⟩ := C20_postprocess .ripser [0, 1] (10 : ℚ) 0 (-1000) true (fun i j => ⟨i, j, 77⟩) exRaw (by decide) (by decide) exRaw_wellFormed
  ⟨R, h1, h2⟩
example := C21_rectangular .ripser [0, 1] (10 : ℚ) 0 (-1000) true (fun i j => ⟨i, j, 77⟩) exRaw (by decide) (by decide) exRaw_wellFormed

/-! ### C22, C23: filtering -/

section C22
variable {K Q : Type} [Field K] [LinearOrder K] [IsStrictOrderedRing K] [LinearOrder Q]

/-- C22. Filtering keeps in each filtered dimension exactly the points with lifetime above `e`, in order, followed only by points on the diagonal, and leaves the
points of the other dimensions as they are. -/
theorem C22_filtering (X : List (List (Pt K Q))) (fd : List Q) (e : K) (hX : X ≠ []) (hfd : fd.Nodup)
    (h : ∀ q, q ∉ fd → EqualCounts X q) :
    ∃ R, filterDiagrams X fd e = .ok R ∧ R.length = X.length ∧
      ∀ (i : Nat) (D D' : List (Pt K Q)), X[i]? = some D → R[i]? = some D' →
        (∀ q ∈ fd, ∃ pads : List (Pt K Q), pointsIn D' q = longLived e D q ++ pads ∧ ∀ p ∈ pads, p.b = p.d) ∧
        (∀ q, q ∉ fd → pointsIn D' q = pointsIn D q) := by
  refine ⟨_, filterDiagrams_eq X fd e hX h, by simp, ?_⟩
  intro i D D' hD hD'
  rw [List.getElem?_map, hD, Option.map_some, Option.some.injEq] at hD'
  subst hD'
  constructor
  · intro q hq
    refine ⟨_, pointsIn_filterOne_mem X fd hfd e D q hq, ?_⟩
    intro p hp
    rw [(List.mem_replicate.mp hp).2]
    rfl
  · intro q hq
    exact pointsIn_filterOne_not_mem X fd hfd e D (List.mem_of_getElem? hD) q hq (h q hq)

/-- C22. The block of a filtered dimension is never wider than in the input, provided the dimension is present there. -/
theorem C22_width (X R : List (List (Pt K Q))) (fd : List Q) (e : K) (hfd : fd.Nodup)
    (h : ∀ q, EqualCounts X q) (hR : filterDiagrams X fd e = .ok R) (q : Q) (i : Nat) (D D' : List (Pt K Q)) (hD : X[i]? = some D)
    (hD' : R[i]? = some D') (hq : pointsIn D q ≠ []) : (pointsIn D' q).length ≤ (pointsIn D q).length := by
  have hX : X ≠ [] := List.ne_nil_of_mem (List.mem_of_getElem? hD)
  rw [filterDiagrams_eq X fd e hX (fun q _ => h q)] at hR
  cases hR
  rw [List.getElem?_map, hD, Option.map_some, Option.some.injEq] at hD'
  subst hD'
  have hDX := List.mem_of_getElem? hD
  by_cases hqf : q ∈ fd
  · rw [pointsIn_filterOne_mem X fd hfd e D q hqf, List.length_append, List.length_replicate]
    have hle : ∀ A ∈ X, (longLived e A q).length ≤ (pointsIn D q).length := by
      intro A hA
      rw [longLived_eq_filter, h q D hDX A hA]
      exact List.length_filter_le _ _
    have hw : widthOf X e q ≤ (pointsIn D q).length := by
      unfold widthOf
      apply max_le
      · rcases foldl_max_mem (X.map fun D => (longLived e D q).length) 0 with h0 | h0
        · rw [h0]; exact Nat.zero_le _
        · obtain ⟨A, hA, hA'⟩ := List.mem_map.mp h0
          rw [← hA']
          exact hle A hA
      · exact List.length_pos_iff.mpr hq
    have := longLived_le_width X e q D hDX
    omega
  · rw [pointsIn_filterOne_not_mem X fd hfd e D hDX q hqf (h q)]

/-- C23. Filtering with `e1` and then with `e2` is, as arrays, filtering with the larger of the two. -/
theorem C23_compose (X R : List (List (Pt K Q))) (fd : List Q) (e1 e2 : K) (he2 : 0 ≤ e2) (hX : X ≠ []) (hfd : fd.Nodup)
    (h : ∀ q, q ∉ fd → EqualCounts X q) (hR : filterDiagrams X fd e1 = .ok R) :
    filterDiagrams R fd e2 = filterDiagrams X fd (max e1 e2) := by
  rw [filterDiagrams_eq X fd e1 hX h] at hR
  cases hR
  rw [filterDiagrams_eq _ fd e2 (by simpa using hX) (fun q hq => equalCounts_filter X fd hfd e1 q (h q)), filterDiagrams_eq X fd _ hX h,
    filter_filter X fd hfd e1 e2 he2 hX h]

/-- C23. Filtering twice with the same `e` is filtering once. -/
theorem C23_idempotent (X R : List (List (Pt K Q))) (fd : List Q) (e : K) (he : 0 ≤ e) (hX : X ≠ []) (hfd : fd.Nodup)
    (h : ∀ q, q ∉ fd → EqualCounts X q) (hR : filterDiagrams X fd e = .ok R) : filterDiagrams R fd e = .ok R := by
  rw [C23_compose X R fd e e he hX hfd h hR, max_self, hR]

/-- C23. All filtered diagrams have as many points as one another in every dimension. -/
theorem C23_equal_counts (X R : List (List (Pt K Q))) (fd : List Q) (e : K) (hX : X ≠ []) (hfd : fd.Nodup)
    (h : ∀ q, q ∉ fd → EqualCounts X q) (hR : filterDiagrams X fd e = .ok R) (q : Q) : EqualCounts R q := by
  rw [filterDiagrams_eq X fd e hX h] at hR
  cases hR
  exact equalCounts_filter X fd hfd e q (h q)

/-- C22. The filtered dimensions found by `Filtering.fit` without `homology_dimensions` are those of the first training diagram, without repetition. -/
theorem C22_fit (X : List (List (Pt K Q))) (D : List (Pt K Q)) (hD : X[0]? = some D) :
    ∃ fd, filteringFit none X = .ok fd ∧ fd.Nodup ∧ fd.Pairwise (· ≤ ·) ∧ ∀ q, q ∈ fd ↔ ∃ p ∈ D, p.q = q := by
  obtain ⟨X0, Xt, rfl⟩ := List.exists_cons_of_ne_nil (List.ne_nil_of_mem (List.mem_of_getElem? hD))
  simp only [List.getElem?_cons_zero, Option.some.injEq] at hD
  subst hD
  refine ⟨_, rfl, dims0_nodup (X0 :: Xt), dims0_sorted (X0 :: Xt), mem_dims0 (X0 :: Xt)⟩

end C22

example : ∃ R, filterDiagrams exX [0] 1 = .ok R ∧ R.length = exX.length :=
  let ⟨R, h1, h2, _⟩ := C22_filtering exX [0] 1 (by decide) (by decide) (fun q _ => exX_equalCounts q)
  ⟨R, h1, h2⟩
example : filterDiagrams exX [0] 1 = .ok [[⟨0, 2, 0⟩, ⟨0, 3, 1⟩], [⟨0, 5, 0⟩, ⟨1, 4, 1⟩]] := by decide +kernel
example : filterDiagrams exX [0] 3 = .ok [[⟨0, 0, 0⟩, ⟨0, 3, 1⟩], [⟨0, 5, 0⟩, ⟨1, 4, 1⟩]] := by decide +kernel
-- a dimension listed twice is output twice: the hypothesis `fd.Nodup` is needed
example : filterDiagrams exX [0, 0] 1 = .ok [[⟨0, 2, 0⟩, ⟨0, 2, 0⟩, ⟨0, 3, 1⟩], [⟨0, 5, 0⟩, ⟨0, 5, 0⟩, ⟨1, 4, 1⟩]] := by decide +kernel

/-! ### C24: ForgetDimension -/

section C24
variable {K : Type} [Field K] [LinearOrder K] [IsStrictOrderedRing K] [FloorRing K]

theorem entry_mapTriples (X : Arr K) (f : List (Option (Ext K)) → List (Option (Ext K))) (i j k : Nat) :
    (mapTriples X f).entry i j k = (do let D ← X.data[i]?; let p ← D[j]?; (f p)[k]?) := by
  simp only [Arr.entry, mapTriples, List.getElem?_map]
  cases X.data[i]? with
  | none => rfl
  | some D =>
    simp only [Option.map_some, Option.bind_eq_bind, Option.bind_some, List.getElem?_map]
    cases D[j]? <;> rfl

/-- C24. `ForgetDimension.transform` returns a new array with the same births and deaths in the same places and all homology dimensions infinite, which `check_diagrams` accepts;
all existing arrays, its argument among them, are unchanged. -/
theorem C24_forget_dimension (h : Heap K) (r : Nat) (X : Arr K) (hr : h[r]? = some X) (hc : X.Consistent) (hv : ValidCollection X) :
    ∃ h' r' Y, forgetDimension h r = .ok (h', r') ∧ h'[r']? = some Y ∧ Preserved h h' ∧ Y.shape = X.shape ∧
      (∀ i j, Y.entry i j 0 = X.entry i j 0 ∧ Y.entry i j 1 = X.entry i j 1 ∧
        Y.entry i j 2 = (X.entry i j 2).map fun _ => some ((⊤ : WithTop K) : Ext K)) ∧
      checkDiagrams Y = .ok Y := by
  set f : List (Option (Ext K)) → List (Option (Ext K)) := fun p => p.set 2 (some ((⊤ : WithTop K) : Ext K)) with hf
  refine ⟨h ++ [mapTriples X f], h.length, mapTriples X f, ?_, by simp, ?_, rfl, ?_, ?_⟩
  · unfold forgetDimension
    rw [checkDiagramsRef_ok h r X hr hc hv, ok_bind]
    simp only [updateTriples]
    rw [modify_last]
    rfl
  · intro i Z hZ
    rw [List.getElem?_append_left]
    · exact hZ
    · exact (List.getElem?_eq_some_iff.mp hZ).1
  · intro i j
    refine ⟨?_, ?_, ?_⟩ <;> rw [entry_mapTriples] <;> simp only [Arr.entry]
    · simp [hf]
    · simp [hf]
    · cases X.data[i]? with
      | none => rfl
      | some D =>
        cases hDj : D[j]? with
        | none => simp [hDj]
        | some p =>
          simp only [hDj, Option.bind_eq_bind, Option.bind_some, hf, List.getElem?_set_self']
          rfl
  · apply checkDiagrams_ok
    · exact mapTriples_consistent X f (fun p => by simp [hf]) hc
    · have htr := triple_of_valid X hc hv
      have hmem : ∀ D ∈ (mapTriples X f).data, ∀ p ∈ D, ∃ b d : Ext K, p = [some b, some d, some ((⊤ : WithTop K) : Ext K)] ∧ b ≤ d := by
        intro D hD p hp
        obtain ⟨D', hD', rfl⟩ := List.mem_map.mp hD
        obtain ⟨p', hp', rfl⟩ := List.mem_map.mp hp
        obtain ⟨b, d, q, rfl, hle⟩ := htr D' hD' p' hp'
        exact ⟨b, d, rfl, hle⟩
      refine ⟨hv.1, ?_, ?_, ?_⟩
      · intro D hD p hp v hv
        obtain ⟨b, d, rfl, hle⟩ := hmem D hD p hp
        simp at hv
        rcases hv with rfl | rfl | rfl <;> simp
      · intro D hD p hp b d hb hd
        obtain ⟨b', d', rfl, hle⟩ := hmem D hD p hp
        simp at hb hd
        subst hb hd
        exact hle
      · right
        intro D hD p hp
        obtain ⟨b, d, rfl, -⟩ := hmem D (List.mem_of_getElem? hD) p hp
        rfl

/-! ### C25: Scaler -/

/-- Division of births and deaths. -/
def divT (s : K) : List (Option (Ext K)) → List (Option (Ext K)) := fun p => p.mapIdx fun i x => if i < 2 then divE x s else x

/-- Multiplication of births and deaths. -/
def mulT (s : K) : List (Option (Ext K)) → List (Option (Ext K)) := fun p => p.mapIdx fun i x => if i < 2 then mulE x s else x

theorem scalerTransform_ok (s : K) (h : Heap K) (r : Nat) (X : Arr K) (hr : h[r]? = some X) (hc : X.Consistent) (hv : ValidCollection X) :
    scalerTransform s h r = .ok (h ++ [mapTriples X (divT s)], h.length) := by
  unfold scalerTransform
  rw [checkDiagramsRef_ok h r X hr hc hv, ok_bind]
  simp only [updateTriples]
  rw [modify_last]
  rfl

theorem scalerInverse_ok (s : K) (h : Heap K) (r : Nat) (X : Arr K) (hr : h[r]? = some X) (hc : X.Consistent) (hv : ValidCollection X) :
    scalerInverse s h r = .ok (h ++ [mapTriples X (mulT s)], h.length) := by
  unfold scalerInverse
  rw [checkDiagramsRef_ok h r X hr hc hv, ok_bind]
  simp only [updateTriples]
  rw [modify_last]
  rfl

theorem preserved_append (h : Heap K) (l : List (Arr K)) : Preserved h (h ++ l) := by
  intro i Z hZ
  rw [List.getElem?_append_left]
  · exact hZ
  · exact (List.getElem?_eq_some_iff.mp hZ).1

theorem divT_pos (s : K) (hs : 0 < s) (b d q : Ext K) : divT s [some b, some d, some q] = [some (divX b s), some (divX d s), some q] := by
  simp [divT, List.mapIdx_cons, divE_pos _ s hs]

theorem mulT_pos (s : K) (hs : 0 < s) (b d q : Ext K) : mulT s [some b, some d, some q] = [some (mulX b s), some (mulX d s), some q] := by
  simp [mulT, List.mapIdx_cons, mulE_pos _ s hs]

/-- C25. For a positive scale, `transform` gives a valid array with the same homology dimensions, `inverse_transform` gives the original array back, and no existing array is modified. -/
theorem C25_round_trip (s : K) (hs : 0 < s) (h : Heap K) (r : Nat) (X : Arr K) (hr : h[r]? = some X) (hc : X.Consistent)
    (hv : ValidCollection X) :
    ∃ h1 r1 Y h2 r2, scalerTransform s h r = .ok (h1, r1) ∧ h1[r1]? = some Y ∧ ValidCollection Y ∧ Y.shape = X.shape ∧
      (∀ i j, Y.entry i j 2 = X.entry i j 2) ∧
      scalerInverse s h1 r1 = .ok (h2, r2) ∧ h2[r2]? = some X ∧ Preserved h h1 ∧ Preserved h1 h2 := by
  have hcY : (mapTriples X (divT s)).Consistent := mapTriples_consistent X _ (fun p => by simp [divT]) hc
  have hvY : ValidCollection (mapTriples X (divT s)) :=
    mapTriples_valid X hc hv _ (divX · s) (fun b d => divX_mono s hs b d) (fun b d q => divT_pos s hs b d q)
  have hrY : (h ++ [mapTriples X (divT s)])[h.length]? = some (mapTriples X (divT s)) := by simp
  refine ⟨_, _, mapTriples X (divT s), _, _, scalerTransform_ok s h r X hr hc hv, hrY, hvY, rfl, ?_,
    scalerInverse_ok s _ _ _ hrY hcY hvY, ?_, preserved_append _ _, preserved_append _ _⟩
  · intro i j
    rw [entry_mapTriples]
    simp only [Arr.entry]
    cases X.data[i]? with
    | none => rfl
    | some D =>
      cases hDj : D[j]? with
      | none => simp [hDj]
      | some p => simp [hDj, divT]
  · rw [mapTriples_mapTriples_id]
    · simp
    · intro D hD p hp
      obtain ⟨b, d, q, rfl, -⟩ := triple_of_valid X hc hv D hD p hp
      rw [divT_pos s hs, mulT_pos s hs, mulX_divX _ s hs, mulX_divX _ s hs]

/-- C25. The other order: transforming what `inverse_transform` gave restores the array. -/
theorem C25_round_trip_inverse_first (s : K) (hs : 0 < s) (h : Heap K) (r : Nat) (X : Arr K) (hr : h[r]? = some X) (hc : X.Consistent)
    (hv : ValidCollection X) :
    ∃ h1 r1 Y h2 r2, scalerInverse s h r = .ok (h1, r1) ∧ h1[r1]? = some Y ∧ ValidCollection Y ∧
      scalerTransform s h1 r1 = .ok (h2, r2) ∧ h2[r2]? = some X ∧ Preserved h h1 ∧ Preserved h1 h2 := by
  have hcY : (mapTriples X (mulT s)).Consistent := mapTriples_consistent X _ (fun p => by simp [mulT]) hc
  have hvY : ValidCollection (mapTriples X (mulT s)) :=
    mapTriples_valid X hc hv _ (mulX · s) (fun b d => mulX_mono s hs b d) (fun b d q => mulT_pos s hs b d q)
  have hrY : (h ++ [mapTriples X (mulT s)])[h.length]? = some (mapTriples X (mulT s)) := by simp
  refine ⟨_, _, mapTriples X (mulT s), _, _, scalerInverse_ok s h r X hr hc hv, hrY, hvY,
    scalerTransform_ok s _ _ _ hrY hcY hvY, ?_, preserved_append _ _, preserved_append _ _⟩
  rw [mapTriples_mapTriples_id]
  · simp
  · intro D hD p hp
    obtain ⟨b, d, q, rfl, -⟩ := triple_of_valid X hc hv D hD p hp
    rw [mulT_pos s hs, divT_pos s hs, divX_mulX _ s hs, divX_mulX _ s hs]

theorem mul_div_zero (x : Ext K) : mulE (divE (some x) (0 : K)) 0 = none := by
  induction x using WithBot.recBotCoe with
  | bot =>
    have : divE (some (⊥ : Ext K)) (0 : K) = some ⊥ := if_pos le_rfl
    rw [this]
    exact if_pos rfl
  | coe x =>
    induction x using WithTop.recTopCoe with
    | top =>
      have : divE (some ((⊤ : WithTop K) : Ext K)) (0 : K) = some ((⊤ : WithTop K) : Ext K) := if_pos le_rfl
      rw [this]
      exact if_pos rfl
    | coe x =>
      have h0 : divE (some ((x : WithTop K) : Ext K)) (0 : K) =
          if x = 0 then none else if 0 < x then some ((⊤ : WithTop K) : Ext K) else some ⊥ := if_neg (by simp)
      rw [h0]
      split
      · rfl
      · split <;> exact if_pos rfl

/-- C25. With scale 0 the round trip fails on every valid collection with a point. -/
theorem C25_zero_scale (h : Heap K) (r : Nat) (X : Arr K) (hr : h[r]? = some X) (hc : X.Consistent)
    (hv : ValidCollection X) (D : List (List (Option (Ext K)))) (hD : D ∈ X.data) (hne : D ≠ []) (h1 : Heap K) (r1 : Nat)
    (ht : scalerTransform (0 : K) h r = .ok (h1, r1)) : ∀ h2 r2, scalerInverse (0 : K) h1 r1 = .ok (h2, r2) → h2[r2]? ≠ some X := by
  rw [scalerTransform_ok 0 h r X hr hc hv] at ht
  cases ht
  intro h2 r2 hi hX2
  have hrY : (h ++ [mapTriples X (divT 0)])[h.length]? = some (mapTriples X (divT (0 : K))) := by simp
  have hcY : (mapTriples X (divT (0 : K))).Consistent := mapTriples_consistent X _ (fun p => by simp [divT]) hc
  by_cases hvY : ValidCollection (mapTriples X (divT (0 : K)))
  · rw [scalerInverse_ok 0 _ _ _ hrY hcY hvY] at hi
    cases hi
    simp only [List.getElem?_append_right le_rfl, Nat.sub_self, List.getElem?_cons_zero, Option.some.injEq] at hX2
    obtain ⟨p, t, rfl⟩ := List.exists_cons_of_ne_nil hne
    have hnan := hv.2.1
    have hmem : (mulT (0 : K) (divT 0 p)) ∈ (p :: t).map fun p => mulT (0 : K) (divT 0 p) := by simp
    have hmemD : ((p :: t).map fun p => mulT (0 : K) (divT 0 p)) ∈ (mapTriples (mapTriples X (divT 0)) (mulT (0 : K))).data := by
      simp only [mapTriples, List.map_map]
      refine List.mem_map.mpr ⟨p :: t, hD, ?_⟩
      simp [Function.comp]
    rw [hX2] at hmemD
    obtain ⟨b, d, q, rfl, -⟩ := triple_of_valid X hc hv (p :: t) hD p (by simp)
    have : (none : Option (Ext K)) ∈ mulT (0 : K) (divT 0 [some b, some d, some q]) := by
      simp only [mulT, divT, List.mapIdx_cons, List.mapIdx_nil]
      simp [mul_div_zero b]
    exact hnan _ hmemD _ hmem _ this rfl
  · obtain ⟨e, he⟩ := checkDiagramsRef_error _ _ _ hrY hcY hvY
    unfold scalerInverse at hi
    rw [he] at hi
    cases hi

end C24

example := C24_forget_dimension [exArr] 0 exArr rfl exArr_consistent exArr_valid
example := C25_round_trip (3 / 2 : ℚ) (by norm_num) [exArr] 0 exArr rfl exArr_consistent exArr_valid
example := C25_round_trip_inverse_first (3 / 2 : ℚ) (by norm_num) [exArr] 0 exArr rfl exArr_consistent exArr_valid
example : ∀ h2 r2, scalerInverse (0 : ℚ) [exArr, mapTriples exArr (divT 0)] 1 = .ok (h2, r2) → h2[r2]? ≠ some exArr :=
  C25_zero_scale [exArr] 0 exArr rfl exArr_consistent exArr_valid _ (List.mem_cons_self ..) (by simp) _ _
    (scalerTransform_ok 0 [exArr] 0 exArr rfl exArr_consistent exArr_valid)

end Gtda.Props
