import Verif.Spec.Units
import Verif.Props.Vectorizers

set_option autoImplicit false
set_option linter.unusedSectionVars false

/-!
# C130: vector representations in other units
-/

namespace Gtda.Props.Units
open Gtda.Py Gtda.Parallel Gtda.Diagrams Gtda.Vectorizers Gtda.Spec.Units

/-! ### Maps and exceptions -/

theorem map_bind {α β γ : Type} (h : α → β) (x : PyM α) (k : β → PyM γ) : (Except.map h x >>= k) = (x >>= fun a => k (h a)) := by cases x <;> rfl

theorem bind_map {α β γ : Type} (h : β → γ) (x : PyM α) (k : α → PyM β) : Except.map h (x >>= k) = (x >>= fun a => Except.map h (k a)) := by cases x <;> rfl

theorem map_map {α β γ : Type} (h : β → γ) (g : α → β) (x : PyM α) : Except.map h (Except.map g x) = Except.map (fun a => h (g a)) x := by cases x <;> rfl

theorem map_id' {α : Type} (h : α → α) (hh : ∀ a, h a = a) (x : PyM α) : Except.map h x = x := by
  cases x with
  | error e => rfl
  | ok a => exact congrArg Except.ok (hh a)

theorem mapM_natural {α α' β β' : Type} (f : α → PyM β) (f' : α' → PyM β') (g : α → α') (h : β → β') (l : List α) (hf : ∀ x ∈ l, f' (g x) = Except.map h (f x)) :
    (l.map g).mapM f' = Except.map (List.map h) (l.mapM f) := by
  induction l with
  | nil => rfl
  | cons x t ih =>
    rw [List.map_cons, List.mapM_cons, List.mapM_cons, hf x List.mem_cons_self, ih fun y hy => hf y (List.mem_cons_of_mem _ hy)]
    cases f x with
    | error e => rfl
    | ok b => cases t.mapM f <;> rfl

theorem pySlice_map {α β : Type} (f : α → β) (s e : Option Int) (k : Int) (l : List α) : pySlice s e k (l.map f) = (pySlice s e k l).map f := by
  unfold pySlice
  dsimp only
  rw [List.length_map, List.map_filterMap]
  simp only [List.getElem?_map]

theorem mem_pySlice {α : Type} (s e : Option Int) (k : Int) (l : List α) (x : α) (h : x ∈ pySlice s e k l) : x ∈ l := by
  unfold pySlice at h
  rw [List.mem_filterMap] at h
  obtain ⟨i, -, h⟩ := h
  exact List.mem_of_getElem? h

theorem reshape2_map {α β : Type} (f : α → β) (n m : Nat) (l : List α) : reshape2 n m (l.map f) = Except.map (List.map (List.map f)) (reshape2 n m l) := by
  unfold reshape2
  rw [List.length_map]
  by_cases h : l.length = n * m
  · rw [if_pos h, if_pos h]
    simp [Except.map, List.map_drop, List.map_take, Function.comp_def]
  · rw [if_neg h, if_neg h]; rfl

theorem concatAxis0_map {α β : Type} (f : α → β) (l : List (List α)) : concatAxis0 (l.map (List.map f)) = Except.map (List.map f) (concatAxis0 l) := by
  cases l with
  | nil => rfl
  | cons a t => simp [concatAxis0, Except.map]

theorem transposeN_map {α β : Type} (f : α → β) (n : Nat) (M : List (List α)) : transposeN n (M.map (List.map f)) = (transposeN n M).map (List.map f) := by
  unfold transposeN
  rw [List.map_map]
  refine List.map_congr_left fun i _ => ?_
  simp [List.filterMap_map, List.map_filterMap, Function.comp_def]

section
variable {K Q : Type} [DecidableEq Q]

theorem subdiagrams_natural (g : Pt K Q → Pt K Q) (hg : ∀ p, (g p).q = p.q) (X : List (List (Pt K Q))) (q : Q) :
    subdiagrams (X.map (List.map g)) [q] = Except.map (List.map (List.map g)) (subdiagrams X [q]) := by
  cases X with
  | nil => rfl
  | cons D t =>
    have e1 : subdiagrams ((D :: t).map (List.map g)) [q] = subdiagramsSingle ((D :: t).map (List.map g)) q := rfl
    have e2 : subdiagrams (D :: t) [q] = subdiagramsSingle (D :: t) q := rfl
    rw [e1, e2]
    have hfil : ∀ l : List (Pt K Q), (l.map g).filter (fun p => decide (p.q = q)) = (l.filter fun p => decide (p.q = q)).map g := by
      intro l
      rw [List.filter_map]
      congr 1
      refine List.filter_congr fun p _ => ?_
      simp [hg]
    unfold subdiagramsSingle
    rw [List.map_cons]
    dsimp only
    rw [← List.map_cons, hfil, List.length_map, List.length_map, ← List.map_flatten, hfil, reshape2_map]

theorem mem_reshape2 {α : Type} (n m : Nat) (l : List α) (M : List (List α)) (h : reshape2 n m l = .ok M) : ∀ r ∈ M, ∀ x ∈ r, x ∈ l := by
  unfold reshape2 at h
  by_cases hl : l.length = n * m
  · rw [if_pos hl] at h
    injection h with h
    subst h
    intro r hr x hx
    rw [List.mem_map] at hr
    obtain ⟨i, -, rfl⟩ := hr
    exact List.mem_of_mem_drop (List.mem_of_mem_take hx)
  · rw [if_neg hl] at h; exact absurd h (by simp)

theorem mem_subdiagrams (X Y : List (List (Pt K Q))) (q : Q) (h : subdiagrams X [q] = .ok Y) : ∀ D ∈ Y, ∀ p ∈ D, ∃ D' ∈ X, p ∈ D' := by
  cases X with
  | nil => exact absurd h (by simp [subdiagrams])
  | cons D0 t =>
    have e2 : subdiagrams (D0 :: t) [q] = subdiagramsSingle (D0 :: t) q := rfl
    rw [e2] at h
    unfold subdiagramsSingle at h
    intro D hD p hp
    have := mem_reshape2 _ _ _ _ h D hD p hp
    rw [List.mem_filter, List.mem_flatten] at this
    obtain ⟨⟨D', hD', hp'⟩, -⟩ := this
    exact ⟨D', hD', hp'⟩

/-- `perDim` for a function `F'` which computes on diagrams with moved points what `F` computes, up to `h`. -/
theorem perDim_natural {β β' : Type} (R : Pt K Q → Prop) (g : Pt K Q → Pt K Q) (hg : ∀ p, (g p).q = p.q) (h : β → β') (F : Q → List (List (Pt K Q)) → PyM (List β))
    (F' : Q → List (List (Pt K Q)) → PyM (List β')) (dims : List Q) (nJobs : Nat) (X : List (List (Pt K Q))) (hR : ∀ D ∈ X, ∀ p ∈ D, R p)
    (hF : ∀ q ∈ dims, ∀ Y : List (List (Pt K Q)), (∀ D ∈ Y, ∀ p ∈ D, R p) → F' q (Y.map (List.map g)) = Except.map (List.map h) (F q Y)) :
    perDim F' dims nJobs (X.map (List.map g)) = Except.map (List.map (List.map h)) (perDim F dims nJobs X) := by
  unfold perDim
  rw [List.length_map]
  have e1 : (perDimTasks dims nJobs X.length).mapM (perDimTask F' (X.map (List.map g))) =
      Except.map (List.map (List.map h)) ((perDimTasks dims nJobs X.length).mapM (perDimTask F X)) := by
    have := mapM_natural (perDimTask F X) (perDimTask F' (X.map (List.map g))) id (List.map h) (perDimTasks dims nJobs X.length) ?_
    · rwa [List.map_id] at this
    · intro t ht
      have hq : t.1 ∈ dims := by
        unfold perDimTasks at ht
        rw [List.mem_flatMap] at ht
        obtain ⟨q, hq, ht⟩ := ht
        rw [List.mem_map] at ht
        obtain ⟨s, -, rfl⟩ := ht
        exact hq
      unfold perDimTask
      simp only [id]
      rw [pySlice_map, subdiagrams_natural g hg, map_bind, bind_map]
      cases hs : subdiagrams (pySlice (some (t.2.1 : Int)) (some (t.2.2 : Int)) 1 X) [t.1] with
      | error e => rfl
      | ok Y =>
        rw [ok_bind, ok_bind]
        refine hF t.1 hq Y fun D hD p hp => ?_
        obtain ⟨D', hD', hp'⟩ := mem_subdiagrams _ _ _ hs D hD p hp
        exact hR D' (mem_pySlice _ _ _ _ _ hD') p hp'
  rw [e1, map_bind, bind_map]
  congr 1
  funext parts
  rw [concatAxis0_map, map_bind, bind_map]
  congr 1
  funext flat
  rw [reshape2_map, map_bind, bind_map]
  congr 1
  funext rows
  rw [transposeN_map]
  rfl

end

/-! ### What `fit` computes in other units -/

section
variable {K Q : Type} [Field K] [LinearOrder K] [IsStrictOrderedRing K]

/-- One point in other units. -/
def mv (a c : K) (p : Pt K Q) : Pt K Q := ⟨a * p.b + c, a * p.d + c, p.q⟩

theorem movedAll_eq (a c : K) (X : List (List (Pt K Q))) : movedAll a c X = X.map (List.map (mv a c)) := rfl

theorem mv_q (a c : K) (p : Pt K Q) : (mv a c p).q = p.q := rfl

theorem aff_lt {a : K} (ha : 0 < a) (c x y : K) : a * x + c < a * y + c ↔ x < y := by
  rw [add_lt_add_iff_right, mul_lt_mul_iff_right₀ ha]

theorem aff_le {a : K} (ha : 0 < a) (c x y : K) : a * x + c ≤ a * y + c ↔ x ≤ y := by
  rw [add_le_add_iff_right, mul_le_mul_iff_right₀ ha]

theorem aff_eq {a : K} (ha : 0 < a) (c x y : K) : a * x + c = a * y + c ↔ x = y := by
  rw [add_left_inj, mul_right_inj' ha.ne']

theorem aff_max {a : K} (ha : 0 < a) (c x y : K) : max (a * x + c) (a * y + c) = a * max x y + c := by
  rcases le_total x y with h | h
  · rw [max_eq_right h, max_eq_right ((aff_le ha c x y).2 h)]
  · rw [max_eq_left h, max_eq_left ((aff_le ha c y x).2 h)]

theorem aff_min {a : K} (ha : 0 < a) (c x y : K) : min (a * x + c) (a * y + c) = a * min x y + c := by
  rcases le_total x y with h | h
  · rw [min_eq_left h, min_eq_left ((aff_le ha c x y).2 h)]
  · rw [min_eq_right h, min_eq_right ((aff_le ha c y x).2 h)]

theorem npMax_aff {a : K} (ha : 0 < a) (c : K) (l : List K) : npMax (l.map fun x => a * x + c) = Except.map (fun x => a * x + c) (npMax l) := by
  cases l with
  | nil => rfl
  | cons x t =>
    show Except.ok _ = Except.ok _
    congr 1
    induction t generalizing x with
    | nil => rfl
    | cons y t ih => rw [List.map_cons, List.foldl_cons, List.foldl_cons, aff_max ha, ih]

theorem npMin_aff {a : K} (ha : 0 < a) (c : K) (l : List K) : npMin (l.map fun x => a * x + c) = Except.map (fun x => a * x + c) (npMin l) := by
  cases l with
  | nil => rfl
  | cons x t =>
    show Except.ok _ = Except.ok _
    congr 1
    induction t generalizing x with
    | nil => rfl
    | cons y t ih => rw [List.map_cons, List.foldl_cons, List.foldl_cons, aff_min ha, ih]

theorem check_moved {a : K} (ha : 0 < a) (c : K) (X : List (List (Pt K Q))) : check (movedAll a c X) = check X := by
  unfold check
  have h0 : movedAll a c X = [] ↔ X = [] := by rw [movedAll_eq]; exact List.map_eq_nil_iff
  have h1 : ((movedAll a c X).any fun D => decide (D.length ≠ ((movedAll a c X).headD []).length)) = X.any fun D => decide (D.length ≠ (X.headD []).length) := by
    have : ((movedAll a c X).headD []).length = (X.headD []).length := by cases X <;> simp [movedAll, moved]
    rw [this, movedAll_eq, List.any_map]
    simp [Function.comp_def]
  have h2 : ((movedAll a c X).any fun D => D.any fun p => decide (p.d < p.b)) = X.any fun D => D.any fun p => decide (p.d < p.b) := by
    rw [movedAll_eq, List.any_map]
    simp only [Function.comp_def, List.any_map, mv, aff_lt ha]
  rw [h1, h2]
  simp only [h0]

theorem observedDims_moved [LinearOrder Q] (a c : K) (X : List (List (Pt K Q))) : observedDims (movedAll a c X) = observedDims X := by
  unfold observedDims
  have : ((movedAll a c X).headD []).map (fun p => p.q) = (X.headD []).map fun p => p.q := by cases X <;> simp [movedAll, moved, Function.comp_def]
  rw [this]

/-- Sampled values and step in other units. -/
def mvAxis (a c : K) (s : List K × Option K) : List K × Option K := (s.1.map fun x => a * x + c, s.2.map fun x => a * x)

/-- The origin of the second axis: lifetimes do not change with the origin. -/
def c1 (isPI : Bool) (c : K) : K := if isPI then 0 else c

/-- Both axes in other units. -/
def mvAxes (isPI : Bool) (a c : K) (ax : Axes K) : Axes K := (mvAxis a c ax.1, mvAxis a (c1 isPI c) ax.2)

theorem linspace_aff (a c lo hi : K) (n : Nat) : linspace (a * lo + c) (a * hi + c) n = mvAxis a c (linspace lo hi n) := by
  unfold linspace mvAxis
  by_cases h : n ≤ 1
  · rw [if_pos h, if_pos h]; simp
  · rw [if_neg h, if_neg h]
    dsimp only
    have hs : (a * hi + c - (a * lo + c)) / ((n - 1 : Nat) : K) = a * ((hi - lo) / ((n - 1 : Nat) : K)) := by rw [← mul_div_assoc]; congr 1; ring
    rw [hs]
    simp only [Option.map_some, List.map_map, Prod.mk.injEq, and_true]
    refine List.map_congr_left fun i _ => ?_
    simp only [Function.comp_apply]
    ring

theorem binRange_moved [DecidableEq Q] (isPI : Bool) {a : K} (ha : 0 < a) (c : K) (X : List (List (Pt K Q))) (q : Q) :
    binRange isPI (movedAll a c X) q = Except.map (fun r => ((a * r.1.1 + c, a * r.1.2 + c1 isPI c), (a * r.2.1 + c, a * r.2.2 + c1 isPI c))) (binRange isPI X q) := by
  unfold binRange
  rw [movedAll_eq, subdiagrams_natural _ (mv_q a c), map_bind, bind_map]
  congr 1
  funext sub
  have hc : columns isPI (sub.map (List.map (mv a c))) =
      ((columns isPI sub).1.map fun x => a * x + c, (columns isPI sub).2.map fun x => a * x + c1 isPI c) := by
    unfold columns c1
    rw [← List.map_flatten]
    simp only [List.map_map, Prod.mk.injEq]
    refine ⟨rfl, ?_⟩
    refine List.map_congr_left fun p _ => ?_
    cases isPI
    · rfl
    · simp only [Function.comp_apply, mv, if_true]; ring
  rw [hc]
  dsimp only
  rw [npMin_aff ha, npMin_aff ha, npMax_aff ha, npMax_aff ha]
  cases npMin (columns isPI sub).1 with
  | error e => rfl
  | ok lo0 =>
    cases npMin (columns isPI sub).2 with
    | error e => rfl
    | ok lo1 =>
      cases npMax (columns isPI sub).1 with
      | error e => rfl
      | ok hi0 =>
        cases npMax (columns isPI sub).2 with
        | error e => rfl
        | ok hi1 =>
          cases isPI
          · simp [Except.map, c1, aff_min ha, aff_max ha]
          · simp [Except.map, c1]

theorem binSampling_moved [DecidableEq Q] (isPI : Bool) {a : K} (ha : 0 < a) (c : K) (n : Nat) (dims : List Q) (X : List (List (Pt K Q))) :
    binSampling isPI n dims (movedAll a c X) = Except.map (List.map (mvAxes isPI a c)) (binSampling isPI n dims X) := by
  unfold binSampling
  have h1 := mapM_natural (binRange isPI X) (binRange isPI (movedAll a c X)) id
    (fun r => ((a * r.1.1 + c, a * r.1.2 + c1 isPI c), (a * r.2.1 + c, a * r.2.2 + c1 isPI c))) dims (fun q _ => binRange_moved isPI ha c X q)
  rw [List.map_id] at h1
  rw [h1, map_bind, bind_map]
  congr 1
  funext ranges
  have e0 : ((ranges.map fun r => ((a * r.1.1 + c, a * r.1.2 + c1 isPI c), (a * r.2.1 + c, a * r.2.2 + c1 isPI c))).map fun r => r.2.1) =
      (ranges.map fun r => r.2.1).map fun x => a * x + c := by simp [Function.comp_def]
  have e1 : ((ranges.map fun r => ((a * r.1.1 + c, a * r.1.2 + c1 isPI c), (a * r.2.1 + c, a * r.2.2 + c1 isPI c))).map fun r => r.2.2) =
      (ranges.map fun r => r.2.2).map fun x => a * x + c1 isPI c := by simp [Function.comp_def]
  rw [e0, e1, npMax_aff ha, npMax_aff ha, map_bind, bind_map]
  congr 1
  funext g0
  rw [map_bind, bind_map]
  congr 1
  funext g1
  show Except.ok _ = Except.ok _
  congr 1
  rw [List.map_map, List.map_map]
  refine List.map_congr_left fun r _ => ?_
  simp only [Function.comp_apply, ne_eq, aff_eq ha]
  unfold mvAxes
  congr 1
  · by_cases h : r.2.1 = r.1.1
    · simp only [h, not_true_eq_false, if_false, linspace_aff]
    · simp only [h, not_false_eq_true, if_true, linspace_aff]
  · by_cases h : r.2.2 = r.1.2
    · simp only [h, not_true_eq_false, if_false, linspace_aff]
    · simp only [h, not_false_eq_true, if_true, linspace_aff]

/-! ### One diagram in other units -/

theorem bettiCurves_moved {a : K} (ha : 0 < a) (c : K) (Y : List (List (Pt K Q))) (s : List K) :
    bettiCurves (Y.map (List.map (mv a c))) (s.map fun x => a * x + c) = bettiCurves Y s := by
  unfold bettiCurves
  rw [List.length_map]
  congr 1
  rw [List.map_map]
  refine List.map_congr_left fun x _ => ?_
  simp only [Function.comp_apply, List.map_map]
  refine List.map_congr_left fun D _ => ?_
  simp only [Function.comp_apply, aliveCount, List.filter_map, List.length_map]
  congr 1
  refine List.filter_congr fun p _ => ?_
  simp only [Function.comp_apply, mv, ge_iff_le, aff_le ha, aff_lt ha]

theorem fiber_moved {a : K} (ha : 0 < a) (c s : K) (p : Pt K Q) : fiber (a * s + c) (mv a c p) = a * fiber s p := by
  unfold fiber mv
  dsimp only
  have h1 : a * s + c - (a * p.d + c + (a * p.b + c)) / 2 = a * (s - (p.d + p.b) / 2) := by ring
  have h2 : (a * p.d + c - (a * p.b + c)) / 2 = a * ((p.d - p.b) / 2) := by ring
  rw [h1, h2, abs_mul, abs_of_pos ha, mul_max_of_nonneg _ _ ha.le, mul_zero]
  congr 1
  ring

theorem sortUp_mul {a : K} (ha : 0 < a) (l : List K) : sortUp (l.map fun x => a * x) = (sortUp l).map fun x => a * x := by
  unfold sortUp
  symm
  apply List.map_insertionSort
  intro x _ y _
  exact (mul_le_mul_iff_right₀ ha).symm

theorem transpose120_map {α β : Type} (f : α → β) (n m : Nat) (M : List (List (List α))) :
    transpose120 n m (M.map (List.map (List.map f))) = (transpose120 n m M).map (List.map (List.map f)) := by
  unfold transpose120
  rw [List.map_map]
  refine List.map_congr_left fun i _ => ?_
  simp only [Function.comp_apply, List.map_map]
  refine List.map_congr_left fun k _ => ?_
  simp only [Function.comp_apply, List.filterMap_map, List.map_filterMap, List.getElem?_map]
  refine List.filterMap_congr fun r _ => ?_
  cases h : r[i]? with
  | none => simp [h]
  | some x => simp [h]

theorem landscapes_moved {a : K} (ha : 0 < a) (c : K) (Y : List (List (Pt K Q))) (s : List K) (n : Nat) :
    landscapes (Y.map (List.map (mv a c))) (s.map fun x => a * x + c) n = (landscapes Y s n).map (List.map (List.map fun x => a * x)) := by
  have hn : ((Y.map (List.map (mv a c))).headD []).length = (Y.headD []).length := by cases Y <;> simp
  have hf : ((s.map fun x => a * x + c).map fun s => (Y.map (List.map (mv a c))).map fun D => sortUp (D.map (fiber s))) =
      (s.map fun s => Y.map fun D => sortUp (D.map (fiber s))).map (List.map (List.map fun x => a * x)) := by
    rw [List.map_map, List.map_map]
    refine List.map_congr_left fun x _ => ?_
    simp only [Function.comp_apply, List.map_map]
    refine List.map_congr_left fun D _ => ?_
    simp only [Function.comp_apply, ← sortUp_mul ha, List.map_map]
    congr 1
    refine List.map_congr_left fun p _ => ?_
    exact fiber_moved ha c x p
  unfold landscapes
  dsimp only
  rw [hn, hf, List.length_map, List.length_map]
  have hd : (((s.map fun s => Y.map fun D => sortUp (D.map (fiber s))).map (List.map (List.map fun x => a * x))).map
        fun F => F.map fun r => (r.drop ((Y.headD []).length - n)).reverse) =
      (((s.map fun s => Y.map fun D => sortUp (D.map (fiber s))).map fun F => F.map fun r => (r.drop ((Y.headD []).length - n)).reverse)).map
        (List.map (List.map fun x => a * x)) := by
    generalize (s.map fun s => Y.map fun D => sortUp (D.map (fiber s))) = M
    rw [List.map_map, List.map_map]
    refine List.map_congr_left fun F _ => ?_
    simp only [Function.comp_apply, List.map_map]
    refine List.map_congr_left fun r _ => ?_
    simp only [Function.comp_apply, List.map_drop, List.map_reverse]
  rw [hd, transpose120_map]
  generalize transpose120 _ _ _ = T
  rw [List.map_map, List.map_map]
  refine List.map_congr_left fun L _ => ?_
  simp [List.map_replicate]

theorem life_moved (a c : K) (p : Pt K Q) : (mv a c p).d - (mv a c p).b = a * (p.d - p.b) := by simp only [mv]; ring

theorem npMax_mul {a : K} (ha : 0 < a) (l : List K) : npMax (l.map fun x => a * x) = Except.map (fun x => a * x) (npMax l) := by
  have := npMax_aff ha 0 l
  simpa using this

theorem silhouetteOne_moved {a : K} (ha : 0 < a) (c : K) (pw : K → K) (big : Bool) (hp : pw a ≠ 0 ∧ ∀ x, 0 ≤ x → pw (a * x) = pw a * pw x) (s : List K) (D : List (Pt K Q))
    (hD : ∀ p ∈ D, p.b ≤ p.d) :
    silhouetteOne pw big (s.map fun x => a * x + c) (D.map (mv a c)) = Except.map (List.map fun x => x.map fun y => a * y) (silhouetteOne pw big s D) := by
  have hl : (D.map (mv a c)).map (fun p => p.d - p.b) = (D.map fun p => p.d - p.b).map fun x => a * x := by
    simp only [List.map_map]
    exact List.map_congr_left fun p _ => life_moved a c p
  have hfib : ∀ x, (D.map (mv a c)).map (fiber (a * x + c)) = (D.map (fiber x)).map fun y => a * y := by
    intro x
    simp only [List.map_map]
    exact List.map_congr_left fun p _ => fiber_moved ha c x p
  have hsum : ∀ ws fs : List K, (List.zipWith (· * ·) ws (fs.map fun y => a * y)).sum = a * (List.zipWith (· * ·) ws fs).sum := by
    intro ws
    induction ws with
    | nil => intro fs; simp
    | cons w ws ih =>
      intro fs
      cases fs with
      | nil => simp
      | cons f fs => simp only [List.map_cons, List.zipWith_cons_cons, List.sum_cons, ih]; ring
  have hval : ∀ ws : List K, silhouetteValues (s.map fun x => a * x + c) (D.map (mv a c)) (some ws) =
      (silhouetteValues s D (some ws)).map fun x => x.map fun y => a * y := by
    intro ws
    simp only [silhouetteValues, List.map_map]
    refine List.map_congr_left fun x _ => ?_
    simp only [Function.comp_apply, Option.map_some, Option.some.injEq]
    by_cases ht : ws.sum = 0
    · rw [if_pos ht, if_pos ht, mul_zero]
    · rw [if_neg ht, if_neg ht, ← List.map_map, hfib, hsum, mul_div_assoc]
  have hval' : ∀ ws : List K, silhouetteValues s D (some (ws.map fun x => pw a * x)) = silhouetteValues s D (some ws) := by
    intro ws
    have h1 : (ws.map fun x => pw a * x).sum = pw a * ws.sum := by rw [List.sum_map_mul_left, List.map_id']
    have h2 : ∀ ws fs : List K, (List.zipWith (· * ·) (ws.map fun x => pw a * x) fs).sum = pw a * (List.zipWith (· * ·) ws fs).sum := by
      intro ws
      induction ws with
      | nil => intro fs; simp
      | cons w ws ih =>
        intro fs
        cases fs with
        | nil => simp
        | cons f fs => simp only [List.map_cons, List.zipWith_cons_cons, List.sum_cons, ih]; ring
    simp only [silhouetteValues]
    refine List.map_congr_left fun x _ => ?_
    rw [h1, h2]
    by_cases ht : ws.sum = 0
    · rw [if_pos ht, if_pos (by rw [ht, mul_zero])]
    · rw [if_neg ht, if_neg (mul_ne_zero hp.1 ht), mul_div_mul_left _ _ hp.1]
  unfold silhouetteOne silhouetteWeights
  dsimp only
  rw [hl]
  cases big with
  | true =>
    simp only [if_true]
    rw [npMax_mul ha]
    cases hm : npMax (D.map fun p => p.d - p.b) with
    | error e => rfl
    | ok m =>
      show Except.ok _ = Except.ok _
      congr 1
      by_cases h0 : m = 0
      · subst h0
        dsimp only
        rw [if_pos (mul_zero a), if_pos rfl]
        simp [silhouetteValues, Function.comp_def]
      · rw [if_neg h0, if_neg (mul_ne_zero ha.ne' h0), List.map_map]
        have : ((D.map fun p => p.d - p.b).map ((fun x => pw (x / (a * m))) ∘ fun x => a * x)) = (D.map fun p => p.d - p.b).map fun x => pw (x / m) := by
          refine List.map_congr_left fun x _ => ?_
          simp only [Function.comp_apply]
          rw [mul_div_mul_left _ _ ha.ne']
        rw [this, hval]
  | false =>
    show Except.ok _ = Except.ok _
    congr 1
    rw [List.map_map]
    have : ((D.map fun p => p.d - p.b).map (pw ∘ fun x => a * x)) = ((D.map fun p => p.d - p.b).map pw).map fun x => pw a * x := by
      rw [List.map_map (f := pw)]
      refine List.map_congr_left fun x hx => ?_
      rw [List.mem_map] at hx
      obtain ⟨p, hp', rfl⟩ := hx
      exact hp.2 _ (sub_nonneg.2 (hD p hp'))
    rw [this, hval, hval']

theorem clipTo_aff {a : K} (ha : 0 < a) (c f l x : K) : clipTo (a * f + c) (a * l + c) (a * x + c) = a * clipTo f l x + c := by
  unfold clipTo
  dsimp only
  have : (if a * x + c < a * f + c then a * f + c else a * x + c) = a * (if x < f then f else x) + c := by
    by_cases h : x < f
    · rw [if_pos h, if_pos ((aff_lt ha c x f).2 h)]
    · rw [if_neg h, if_neg (fun h' => h ((aff_lt ha c x f).1 h'))]
  rw [this]
  by_cases h : (if x < f then f else x) > l
  · rw [if_pos h, if_pos ((aff_lt ha c l _).2 h)]
  · rw [if_neg h, if_neg (fun h' => h ((aff_lt ha c l _).1 h'))]

section
variable [FloorRing K]

theorem pixel_aff {a : K} (ha : 0 < a) (c f step x : K) : pixel (a * f + c) (a * step) (a * x + c) = pixel f step x := by
  unfold pixel
  have : (a * x + c - (a * f + c)) / (a * step) = (x - f) / step := by
    rw [show a * x + c - (a * f + c) = a * (x - f) by ring, mul_div_mul_left _ _ ha.ne']
  rw [this]

theorem clipTo_zero (x : K) : clipTo 0 0 x = 0 := by
  unfold clipTo
  dsimp only
  by_cases h : x < 0
  · rw [if_pos h]; simp
  · rw [if_neg h]
    by_cases h' : x > 0
    · rw [if_pos h']
    · rw [if_neg h']; exact le_antisymm (not_lt.1 h') (not_lt.1 h)

theorem ends_aff (a c : K) (s : List K) (h : s ≠ []) :
    (s.map fun x => a * x + c).headD 0 = a * s.headD 0 + c ∧ (s.map fun x => a * x + c).getLastD 0 = a * s.getLastD 0 + c := by
  constructor
  · cases s with
    | nil => exact absurd rfl h
    | cons x t => rfl
  · rw [List.getLastD_eq_getLast?, List.getLast?_map, List.getLastD_eq_getLast?]
    rw [List.getLast?_eq_some_getLast h]
    rfl

theorem heatRaster_moved {a : K} (ha : 0 < a) (c : K) (s : List K) (step : K) (D : List (Pt K Q)) :
    heatRaster (s.map fun x => a * x + c) (a * step) (D.map (mv a c)) = heatRaster s step D := by
  unfold heatRaster
  dsimp only
  rw [List.length_map]
  congr 1
  by_cases hs : s = []
  · subst hs
    simp [clipTo_zero]
  · rw [(ends_aff a c s hs).1, (ends_aff a c s hs).2]
    simp only [List.map_map, List.filter_map]
    rw [show (fun (p : Pt K Q) => (clipTo (a * s.headD 0 + c) (a * s.getLastD 0 + c) p.b, clipTo (a * s.headD 0 + c) (a * s.getLastD 0 + c) p.d)) ∘ mv a c =
        fun p => (a * clipTo (s.headD 0) (s.getLastD 0) p.b + c, a * clipTo (s.headD 0) (s.getLastD 0) p.d + c) from by
          funext p; simp only [Function.comp_apply, mv, clipTo_aff ha]]
    simp only [Function.comp_def, pixel_aff ha, ne_eq, aff_eq ha]

/-- An image with all values multiplied. -/
theorem heatOne_moved {a : K} (ha : 0 < a) (c : K) (G : List (List K) → List (List K)) (s : List K) (step : K) (D : List (Pt K Q)) :
    heatOne G (s.map fun x => a * x + c) (a * step) (D.map (mv a c)) = Except.map (List.map (List.map fun x => (a ^ 2)⁻¹ * x)) (heatOne G s step D) := by
  unfold heatOne
  dsimp only
  rw [List.length_map, heatRaster_moved ha]
  by_cases h : step = 0
  · rw [if_pos h, if_pos (by rw [h, mul_zero])]
    show Except.ok _ = Except.ok _
    simp [image2, Function.comp_def]
  · rw [if_neg h, if_neg (mul_ne_zero ha.ne' h), bind_map]
    congr 1
    funext image
    show Except.ok _ = Except.ok _
    congr 1
    unfold rot90
    rw [← transposeN_map]
    congr 1
    simp only [List.map_map]
    refine List.map_congr_left fun r _ => ?_
    simp only [Function.comp_apply, List.map_reverse, List.map_map]
    congr 1
    refine List.map_congr_left fun x _ => ?_
    simp only [Function.comp_apply]
    rw [mul_pow, div_eq_mul_inv, div_eq_mul_inv, mul_inv]
    ring

theorem noNaN_map (f : K → K) (I : List (List K)) : noNaN (I.map (List.map f)) = (noNaN I).map (List.map fun x => x.map f) := by
  unfold noNaN
  simp [Function.comp_def]

theorem heatItem_moved {a : K} (ha : 0 < a) (c : K) (E : Engine K) (sigma : K) (ax : List K × Option K) (D : List (Pt K Q)) :
    heatItem E (a * sigma) (mvAxis a c ax) (D.map (mv a c)) = Except.map (List.map (List.map fun x => x.map fun y => (a ^ 2)⁻¹ * y)) (heatItem E sigma ax D) := by
  obtain ⟨s, st⟩ := ax
  cases st with
  | none =>
    simp only [heatItem, mvAxis, Option.map_none, List.length_map]
    show Except.ok _ = Except.ok _
    simp [image2, Function.comp_def]
  | some step =>
    simp only [heatItem, mvAxis, Option.map_some, List.length_map]
    rw [mul_div_mul_left _ _ ha.ne', heatOne_moved ha, map_bind, bind_map]
    congr 1
    funext H
    show Except.ok _ = Except.ok _
    rw [noNaN_map]

theorem imageRaster_moved {a : K} (ha : 0 < a) (c : K) (s₀ s₁ : List K) (step₀ step₁ : K) (w : List K) (D : List (Pt K Q)) :
    imageRaster (s₀.map fun x => a * x + c) (s₁.map fun x => a * x + 0) (a * step₀) (a * step₁) w (D.map (mv a c)) = imageRaster s₀ s₁ step₀ step₁ w D := by
  unfold imageRaster
  dsimp only
  rw [List.length_map]
  have hl : (D.map (mv a c)).map (fun p => (p.b, p.d - p.b)) = D.map fun p => (a * p.b + c, a * (p.d - p.b) + 0) := by
    rw [List.map_map]
    refine List.map_congr_left fun p _ => ?_
    simp only [Function.comp_apply, life_moved, add_zero]
    rfl
  have h1 : (s₁.map fun x => a * x + 0).headD 0 = a * s₁.headD 0 + 0 ∧ (s₁.map fun x => a * x + 0).getLastD 0 = a * s₁.getLastD 0 + 0 := by
    by_cases hs : s₁ = []
    · subst hs; simp
    · exact ends_aff a 0 s₁ hs
  rw [hl, h1.1, h1.2]
  congr 1
  congr 1
  simp only [List.map_map, List.filter_map]
  by_cases hs : s₀ = []
  · subst hs
    simp only [Function.comp_def, List.map_nil, List.headD_nil, List.getLastD_nil, clipTo_zero, clipTo_aff ha, pixel_aff ha]
    have : ∀ x : K, a * x + 0 ≠ 0 ↔ x ≠ 0 := fun x => by rw [add_zero]; exact mul_ne_zero_iff_left ha.ne'
    simp only [this]
    refine List.map_congr_left fun p _ => ?_
    simp [pixel]
  · rw [(ends_aff a c s₀ hs).1, (ends_aff a c s₀ hs).2]
    have : ∀ x : K, a * x + 0 ≠ 0 ↔ x ≠ 0 := fun x => by rw [add_zero]; exact mul_ne_zero_iff_left ha.ne'
    simp only [Function.comp_def, clipTo_aff ha, pixel_aff ha, this]

theorem imageOne_moved {a : K} (ha : 0 < a) (c : K) (G : List (List K) → List (List K)) (s₀ s₁ : List K) (step₀ step₁ : K) (w : List K) (D : List (Pt K Q)) :
    imageOne G (s₀.map fun x => a * x + c) (s₁.map fun x => a * x + 0) (a * step₀) (a * step₁) w (D.map (mv a c)) =
      Except.map (List.map (List.map fun x => (a ^ 2)⁻¹ * x)) (imageOne G s₀ s₁ step₀ step₁ w D) := by
  unfold imageOne
  dsimp only
  rw [List.length_map, imageRaster_moved ha]
  by_cases h : step₀ = 0 ∨ step₁ = 0
  · rw [if_pos h, if_pos (by rcases h with h | h <;> simp [h])]
    show Except.ok _ = Except.ok _
    simp [image2, Function.comp_def]
  · rw [if_neg h, if_neg (by simpa [ha.ne'] using h), bind_map]
    congr 1
    funext image
    show Except.ok _ = Except.ok _
    congr 1
    simp only [List.map_map]
    refine List.map_congr_left fun r _ => ?_
    simp only [Function.comp_apply, List.map_map]
    refine List.map_congr_left fun x _ => ?_
    simp only [Function.comp_apply]
    rw [show a * step₀ * (a * step₁) = a ^ 2 * (step₀ * step₁) by ring, div_eq_mul_inv, div_eq_mul_inv, mul_inv]
    ring

theorem imageItem_moved {a : K} (ha : 0 < a) (c : K) (E : Engine K) (sigma : K) (ax : Axes K) (w : List K) (D : List (Pt K Q)) :
    imageItem E (a * sigma) (mvAxes true a c ax) w (D.map (mv a c)) =
      Except.map (List.map (List.map fun x => x.map fun y => (a ^ 2)⁻¹ * y)) (imageItem E sigma ax w D) := by
  obtain ⟨⟨s₀, st₀⟩, ⟨s₁, st₁⟩⟩ := ax
  have key : ∀ n, sampleImage n (image2 n fun _ _ => (0 : K)) ((((D.map (mv a c)).map fun p =>
        clipTo ((s₁.map fun x => a * x + 0).headD 0) ((s₁.map fun x => a * x + 0).getLastD 0) (p.d - p.b)).filter fun x => decide (x ≠ 0)).map fun _ => (E.castNaN, E.castNaN)) =
      sampleImage n (image2 n fun _ _ => (0 : K)) (((D.map fun p => clipTo (s₁.headD 0) (s₁.getLastD 0) (p.d - p.b)).filter fun x => decide (x ≠ 0)).map
        fun _ => (E.castNaN, E.castNaN)) := by
    intro n
    congr 1
    have h1 : (s₁.map fun x => a * x + 0).headD 0 = a * s₁.headD 0 + 0 ∧ (s₁.map fun x => a * x + 0).getLastD 0 = a * s₁.getLastD 0 + 0 := by
      by_cases hs : s₁ = []
      · subst hs; simp
      · exact ends_aff a 0 s₁ hs
    have : ∀ x : K, a * x + 0 ≠ 0 ↔ x ≠ 0 := fun x => by rw [add_zero]; exact mul_ne_zero_iff_left ha.ne'
    have h2 : ∀ p : Pt K Q, clipTo (a * s₁.headD 0 + 0) (a * s₁.getLastD 0 + 0) ((mv a c p).d - (mv a c p).b) = a * clipTo (s₁.headD 0) (s₁.getLastD 0) (p.d - p.b) + 0 := by
      intro p
      rw [life_moved, ← clipTo_aff ha, add_zero (a * (p.d - p.b))]
    rw [h1.1, h1.2]
    simp only [List.map_map, List.filter_map, Function.comp_def, h2, this]
  cases st₀ with
  | none =>
    simp only [imageItem, mvAxes, mvAxis, Option.map_none, List.length_map, c1, if_true]
    rw [key, bind_map]
    congr 1
    funext _
    show Except.ok _ = Except.ok _
    simp [image2, Function.comp_def]
  | some step₀ =>
    cases st₁ with
    | none =>
      simp only [imageItem, mvAxes, mvAxis, Option.map_none, Option.map_some, List.length_map, c1, if_true]
      rw [key, bind_map]
      congr 1
      funext _
      show Except.ok _ = Except.ok _
      simp [image2, Function.comp_def]
    | some step₁ =>
      simp only [imageItem, mvAxes, mvAxis, Option.map_some, c1, if_true]
      rw [mul_div_mul_left _ _ ha.ne', mul_div_mul_left _ _ ha.ne', imageOne_moved ha, map_bind, bind_map]
      congr 1
      funext H
      show Except.ok _ = Except.ok _
      rw [noNaN_map]

end

/-! ### Objects in other units -/

/-- How parameters change: only those which are lengths or functions of lengths, and only for the classes that have them. -/
def psOf (kind : Kind) (a : K) : Params K → Params K :=
  if kind = .heat ∨ kind = .image then movedParams a else id

/-- The object in other units. -/
structure Rel (kind : Kind) (a c : K) (e e' : Est K Q) : Prop where
  params : e'.params = psOf kind a e.params
  dims : e'.dims = e.dims
  samplings : e'.samplings = e.samplings.map (List.map fun x => (x.1, mvAxes (decide (kind = .image)) a c x.2))
  weights : kind = .image → e'.weights = e.weights

theorem psOf_fields (kind : Kind) (a : K) (P : Params K) : (psOf kind a P).nBins = P.nBins ∧ (psOf kind a P).nLayers = P.nLayers ∧ (psOf kind a P).power = P.power := by
  unfold psOf
  by_cases h : kind = .heat ∨ kind = .image
  · rw [if_pos h]; exact ⟨rfl, rfl, rfl⟩
  · rw [if_neg h]; exact ⟨rfl, rfl, rfl⟩

theorem psOf_sigma (kind : Kind) (h : kind = .heat ∨ kind = .image) (a : K) (P : Params K) : (psOf kind a P).sigma = a * P.sigma := by
  unfold psOf; rw [if_pos h]; rfl

theorem validate_moved (kind : Kind) {a : K} (ha : 0 < a) (P : Params K) : validate kind (psOf kind a P) = validate kind P := by
  have hs : ∀ x : K, a * x ≤ 0 ↔ x ≤ 0 := fun x => by rw [← not_lt, ← not_lt, mul_pos_iff_of_pos_left ha]
  unfold validate
  rw [(psOf_fields kind a P).1, (psOf_fields kind a P).2.1, (psOf_fields kind a P).2.2]
  cases kind with
  | heat => simp only [psOf_sigma .heat (.inl rfl), hs]
  | image => simp only [psOf_sigma .image (.inr rfl), hs]
  | _ => rfl

theorem effectiveWeight_moved {a : K} (ha : 0 < a) (P : Params K) (x : K) : effectiveWeight (psOf .image a P) (a * x + 0) = effectiveWeight P x := by
  unfold effectiveWeight psOf movedParams
  rw [if_pos (.inr rfl)]
  cases P.weight with
  | none => rfl
  | some w =>
    simp only [Option.map_some]
    rw [add_zero, mul_div_cancel_left₀ _ ha.ne']

theorem fit_moved [LinearOrder Q] (kind : Kind) {a : K} (ha : 0 < a) (c : K) (e e' : Est K Q) (h : Rel kind a c e e') (X : List (List (Pt K Q))) :
    Rel kind a c (fit kind X e).1 (fit kind (movedAll a c X) e').1 ∧ (fit kind (movedAll a c X) e').2 = (fit kind X e).2 := by
  unfold fit
  rw [check_moved ha]
  cases check X with
  | error er => exact ⟨h, rfl⟩
  | ok _ =>
    dsimp only
    rw [h.params, validate_moved kind ha]
    cases validate kind e.params with
    | error er => exact ⟨h, rfl⟩
    | ok _ =>
      dsimp only
      rw [observedDims_moved, (psOf_fields kind a e.params).1, binSampling_moved _ ha]
      cases binSampling (decide (kind = .image)) e.params.nBins (observedDims X) X with
      | error er => exact ⟨⟨rfl, rfl, h.samplings, h.weights⟩, rfl⟩
      | ok L =>
        refine ⟨⟨rfl, rfl, ?_, ?_⟩, rfl⟩
        · show some _ = some _
          congr 1
          rw [List.zip_map_right]
          rfl
        · intro hk
          subst hk
          show some _ = some _
          congr 2
          rw [List.map_map]
          refine List.map_congr_left fun ax _ => ?_
          simp only [Function.comp_apply, mvAxes, mvAxis, c1, decide_true, if_true, List.map_map]
          refine List.map_congr_left fun x _ => ?_
          exact effectiveWeight_moved ha e.params x

theorem run_moved [LinearOrder Q] (kind : Kind) {a : K} (ha : 0 < a) (c : K) (ops : List (Op K Q)) : ∀ (e e' : Est K Q), Rel kind a c e e' →
    Rel kind a c (run kind ops e) (run kind (ops.map (movedOp a c (psOf kind a))) e') := by
  induction ops with
  | nil => intro e e' h; exact h
  | cons op t ih =>
    intro e e' h
    cases op with
    | fit X => exact ih _ _ (fit_moved kind ha c e e' h X).1
    | set P => exact ih _ _ ⟨rfl, h.dims, h.samplings, h.weights⟩

theorem entryOf_map {β γ : Type} [DecidableEq Q] (f : β → γ) (attr : Option (List (Q × β))) (q : Q) :
    entryOf (attr.map (List.map fun x => (x.1, f x.2))) q = Except.map f (entryOf attr q) := by
  unfold entryOf
  cases attr with
  | none => rfl
  | some l =>
    simp only [Option.map_some]
    rw [List.find?_map]
    have : ((fun x : Q × γ => decide (x.1 = q)) ∘ fun x : Q × β => (x.1, f x.2)) = fun x => decide (x.1 = q) := rfl
    rw [this]
    cases l.find? (fun x => decide (x.1 = q)) <;> rfl

theorem fits_map {β γ : Type} (f : β → γ) (n m : Nat) (R : List (List (List (List β)))) :
    fits n m (R.map (List.map (List.map (List.map f)))) = Except.map (List.map (List.map (List.map (List.map f)))) (fits n m R) := by
  unfold fits
  dsimp only
  have e1 : (R.map (List.map (List.map (List.map f)))).flatten = R.flatten.map (List.map (List.map f)) := by rw [List.map_flatten]
  have e2 : ((R.flatten.map (List.map (List.map f))).flatten.map List.length).sum = (R.flatten.flatten.map List.length).sum := by
    rw [← List.map_flatten, List.map_map]
    congr 1
    refine List.map_congr_left fun r _ => ?_
    simp
  rw [e1, e2, List.length_map]
  by_cases h : (R.flatten.flatten.map List.length).sum = R.flatten.length * (n * m)
  · rw [if_pos h, if_pos h]; rfl
  · rw [if_neg h, if_neg h]; rfl

/-- The factor of the result of each class. -/
def outFactor (kind : Kind) (a : K) : K :=
  match kind with
  | .betti => 1
  | .landscape => a
  | .silhouette => a
  | .heat => (a ^ 2)⁻¹
  | .image => (a ^ 2)⁻¹

variable [FloorRing K]

theorem transform_moved [LinearOrder Q] (E : Engine K) (kind : Kind) {a : K} (ha : 0 < a) (c : K) (e e' : Est K Q) (h : Rel kind a c e e')
    (hp : kind = .silhouette → FactorOut E.pow a e.params.power) (nJobs : Nat) (X : List (List (Pt K Q))) :
    transform E kind nJobs (movedAll a c X) e' = Except.map (timesOut (outFactor kind a)) (transform E kind nJobs X e) := by
  unfold transform
  rw [h.dims]
  cases e.dims with
  | none => rfl
  | some dims =>
    dsimp only
    rw [check_moved ha]
    cases hck : check X with
    | error er => rfl
    | ok u =>
      have hval := (Vectorizers.check_ok_iff X).1 (by rw [hck])
      rw [ok_bind, ok_bind, movedAll_eq]
      have hent : ∀ q, entryOf e'.samplings q = Except.map (mvAxes (decide (kind = .image)) a c) (entryOf e.samplings q) := by
        intro q; rw [h.samplings]; exact entryOf_map _ _ _
      cases kind with
      | betti =>
        dsimp only
        rw [perDim_natural (fun _ => True) (mv a c) (mv_q a c) id (fun q Y => do
          let ax ← entryOf e.samplings q
          .ok (bettiCurves Y ax.1.1)) _ dims nJobs X (fun _ _ _ _ => trivial), map_bind, bind_map]
        · congr 1
          funext R
          show Except.ok _ = Except.ok _
          simp [timesOut]
        · intro q _ Y _
          rw [hent, map_bind, bind_map]
          congr 1
          funext ax
          show Except.ok _ = Except.ok _
          simp only [mvAxes, mvAxis, bettiCurves_moved ha, List.map_id]
      | landscape =>
        dsimp only
        rw [h.params, (psOf_fields .landscape a e.params).1, (psOf_fields .landscape a e.params).2.1]
        rw [perDim_natural (fun _ => True) (mv a c) (mv_q a c) (List.map (List.map fun x => a * x)) (fun q Y => do
          let ax ← entryOf e.samplings q
          .ok (landscapes Y ax.1.1 e.params.nLayers)) _ dims nJobs X (fun _ _ _ _ => trivial), map_bind, bind_map]
        · congr 1
          funext R
          rw [fits_map, map_bind, bind_map]
          congr 1
          funext R
          show Except.ok _ = Except.ok _
          simp only [timesOut, outFactor, List.map_map]
          congr 2
          refine List.map_congr_left fun r _ => ?_
          simp only [Function.comp_apply, List.map_flatten]
        · intro q _ Y _
          rw [hent, map_bind, bind_map]
          congr 1
          funext ax
          show Except.ok _ = Except.ok _
          simp only [mvAxes, mvAxis, landscapes_moved ha]
      | silhouette =>
        dsimp only
        rw [h.params, (psOf_fields .silhouette a e.params).2.2]
        rw [perDim_natural (fun p => p.b ≤ p.d) (mv a c) (mv_q a c) (List.map fun x => x.map fun y => a * y) (fun q Y => do
          let ax ← entryOf e.samplings q
          Y.mapM (silhouetteOne (fun x => E.pow x e.params.power) (decide (8 < e.params.power)) ax.1.1)) _ dims nJobs X hval.2.2, map_bind, bind_map]
        · congr 1
        · intro q _ Y hY
          rw [hent, map_bind, bind_map]
          congr 1
          funext ax
          simp only [mvAxes, mvAxis]
          exact mapM_natural _ _ _ _ _ fun D hD => silhouetteOne_moved ha c (fun x => E.pow x e.params.power) _ (hp rfl) ax.1.1 D (hY D hD)
      | heat =>
        dsimp only
        rw [h.params, (psOf_fields .heat a e.params).1, psOf_sigma .heat (.inl rfl)]
        rw [perDim_natural (fun _ => True) (mv a c) (mv_q a c) (List.map (List.map fun x => x.map fun y => (a ^ 2)⁻¹ * y)) (fun q Y => do
          let ax ← entryOf e.samplings q
          Y.mapM (heatItem E e.params.sigma ax.1)) _ dims nJobs X (fun _ _ _ _ => trivial), map_bind, bind_map]
        · congr 1
          funext R
          rw [fits_map, map_bind, bind_map]
          congr 1
        · intro q _ Y _
          rw [hent, map_bind, bind_map]
          congr 1
          funext ax
          exact mapM_natural _ _ _ _ _ fun D _ => heatItem_moved ha c E e.params.sigma ax.1 D
      | image =>
        dsimp only
        rw [h.params, (psOf_fields .image a e.params).1, psOf_sigma .image (.inr rfl), h.weights rfl]
        rw [perDim_natural (fun _ => True) (mv a c) (mv_q a c) (List.map (List.map fun x => x.map fun y => (a ^ 2)⁻¹ * y)) (fun q Y => do
          let ax ← entryOf e.samplings q
          let w ← entryOf e.weights q
          Y.mapM (imageItem E e.params.sigma ax w)) _ dims nJobs X (fun _ _ _ _ => trivial), map_bind, bind_map]
        · congr 1
          funext R
          rw [fits_map, map_bind, bind_map]
          congr 1
        · intro q _ Y _
          rw [hent, map_bind, bind_map]
          congr 1
          funext ax
          rw [bind_map]
          congr 1
          funext w
          exact mapM_natural _ _ _ _ _ fun D _ => imageItem_moved ha c E e.params.sigma ax w D

end

end Gtda.Props.Units

namespace Gtda.Props
open Gtda.Py Gtda.Parallel Gtda.Diagrams Gtda.Vectorizers Gtda.Spec.Units Gtda.Props.Units

section
variable {K Q : Type} [Field K] [LinearOrder K] [IsStrictOrderedRing K] [LinearOrder Q]

theorem Units.new_rel (kind : Kind) (a c : K) (P : Params K) : Rel kind a c (new P : Est K Q) (new (psOf kind a P)) := ⟨rfl, rfl, rfl, fun _ => rfl⟩

theorem Units.timesOut_one (R : Out K) : timesOut 1 R = R := by
  cases R <;> simp [timesOut]

theorem Units.movedOp_id (kind : Kind) (h : kind = .betti ∨ kind = .landscape ∨ kind = .silhouette) (a : K) : psOf kind a = id := by
  unfold psOf
  rw [if_neg (by rcases h with rfl | rfl | rfl <;> decide)]

/-- **C130**, sampled values: `fit` succeeds in other units if and only if it does in the given ones, with the same exception otherwise; the dimensions are the same, the sampled values of births and deaths are
the old ones in the new units, and their step is the old one times `a`. For all classes but `PersistenceImage`. -/
theorem C130_samplings {a : K} (ha : 0 < a) (c : K) (kind : Kind) (hk : kind ≠ .image) (P : Params K) (X : List (List (Pt K Q))) :
    (fit kind (movedAll a c X) (new (if kind = .heat then movedParams a P else P))).2 = (fit kind X (new P)).2 ∧
      (fit kind (movedAll a c X) (new (if kind = .heat then movedParams a P else P))).1.dims = (fit kind X (new P)).1.dims ∧
      (fit kind (movedAll a c X) (new (if kind = .heat then movedParams a P else P))).1.samplings = (fit kind X (new P)).1.samplings.map (List.map fun x =>
        (x.1, ((x.2.1.1.map fun s => a * s + c, x.2.1.2.map fun s => a * s), (x.2.2.1.map fun s => a * s + c, x.2.2.2.map fun s => a * s)))) := by
  have hp : (if kind = .heat then movedParams a P else P) = psOf kind a P := by
    unfold psOf
    by_cases h : kind = .heat
    · rw [if_pos h, if_pos (.inl h)]
    · rw [if_neg h, if_neg (not_or.2 ⟨h, hk⟩)]; rfl
  rw [hp]
  have := fit_moved kind ha c (new P : Est K Q) _ (Units.new_rel kind a c P) X
  refine ⟨this.2, this.1.dims, ?_⟩
  rw [this.1.samplings]
  simp only [mvAxes, mvAxis, c1, decide_eq_true_eq, hk, if_false]

/-- **C130**, sampled values for `PersistenceImage`: births change as in `C130_samplings`, sampled lifetimes and both steps are the old ones times `a`, and the weights of the sampled lifetimes are the same. -/
theorem C130_samplings_image {a : K} (ha : 0 < a) (c : K) (P : Params K) (X : List (List (Pt K Q))) :
    (fit .image (movedAll a c X) (new (movedParams a P))).2 = (fit .image X (new P)).2 ∧
      (fit .image (movedAll a c X) (new (movedParams a P))).1.dims = (fit .image X (new P)).1.dims ∧
      (fit .image (movedAll a c X) (new (movedParams a P))).1.weights = (fit .image X (new P)).1.weights ∧
      (fit .image (movedAll a c X) (new (movedParams a P))).1.samplings = (fit .image X (new P)).1.samplings.map (List.map fun x =>
        (x.1, ((x.2.1.1.map fun s => a * s + c, x.2.1.2.map fun s => a * s), (x.2.2.1.map fun s => a * s, x.2.2.2.map fun s => a * s)))) := by
  have hp : movedParams a P = psOf .image a P := by unfold psOf; rw [if_pos (.inr rfl)]
  rw [hp]
  have := fit_moved .image ha c (new P : Est K Q) _ (Units.new_rel .image a c P) X
  refine ⟨this.2, this.1.dims, this.1.weights rfl, ?_⟩
  rw [this.1.samplings]
  simp only [mvAxes, mvAxis, c1, decide_true, if_true, add_zero]

variable [FloorRing K]

/-- **C130**, `BettiCurve`: the curves do not depend on the units nor on the origin of the filtration. If all diagrams which an object gets in its life are expressed in other units, `transform` returns the same
array, or raises the same exception, as before. -/
theorem C130_betti (E : Engine K) {a : K} (ha : 0 < a) (c : K) (P : Params K) (ops : List (Op K Q)) (nJobs : Nat) (X : List (List (Pt K Q))) :
    transform E .betti nJobs (movedAll a c X) (run .betti (ops.map (movedOp a c id)) (new P)) = transform E .betti nJobs X (run .betti ops (new P)) := by
  have h := run_moved .betti ha c ops _ _ (Units.new_rel (Q := Q) .betti a c P)
  rw [Units.movedOp_id .betti (.inl rfl)] at h
  exact (transform_moved E .betti ha c _ _ h (fun h => by cases h) nJobs X).trans (map_id' _ Units.timesOut_one _)

/-- **C130**, `PersistenceLandscape`: the landscapes are multiplied by `a`, and do not depend on the origin. -/
theorem C130_landscape (E : Engine K) {a : K} (ha : 0 < a) (c : K) (P : Params K) (ops : List (Op K Q)) (nJobs : Nat) (X : List (List (Pt K Q))) :
    transform E .landscape nJobs (movedAll a c X) (run .landscape (ops.map (movedOp a c id)) (new P)) =
      Except.map (timesOut a) (transform E .landscape nJobs X (run .landscape ops (new P))) := by
  have h := run_moved .landscape ha c ops _ _ (Units.new_rel (Q := Q) .landscape a c P)
  rw [Units.movedOp_id .landscape (.inr (.inl rfl))] at h
  exact transform_moved E .landscape ha c _ _ h (fun h => by cases h) nJobs X

/-- **C130**, `Silhouette`: the silhouettes are multiplied by `a`, whatever the power, and do not depend on the origin. -/
theorem C130_silhouette (E : Engine K) {a : K} (ha : 0 < a) (hpow : ∀ e, FactorOut E.pow a e) (c : K) (P : Params K) (ops : List (Op K Q)) (nJobs : Nat) (X : List (List (Pt K Q))) :
    transform E .silhouette nJobs (movedAll a c X) (run .silhouette (ops.map (movedOp a c id)) (new P)) =
      Except.map (timesOut a) (transform E .silhouette nJobs X (run .silhouette ops (new P))) := by
  have h := run_moved .silhouette ha c ops _ _ (Units.new_rel (Q := Q) .silhouette a c P)
  rw [Units.movedOp_id .silhouette (.inr (.inr rfl))] at h
  exact transform_moved E .silhouette ha c _ _ h (fun _ => hpow _) nJobs X

/-- **C130**, `HeatKernel`: if `sigma`, which is a length, is expressed in the new units as well, the images are divided by `a ^ 2` (they are densities per area), and do not depend on the origin. -/
theorem C130_heat (E : Engine K) {a : K} (ha : 0 < a) (c : K) (P : Params K) (ops : List (Op K Q)) (nJobs : Nat) (X : List (List (Pt K Q))) :
    transform E .heat nJobs (movedAll a c X) (run .heat (ops.map (movedOp a c (movedParams a))) (new (movedParams a P))) =
      Except.map (timesOut (a ^ 2)⁻¹) (transform E .heat nJobs X (run .heat ops (new P))) := by
  have hp : psOf (K := K) .heat a = movedParams a := by unfold psOf; rw [if_pos (.inl rfl)]
  have h := run_moved .heat ha c ops _ _ (Units.new_rel (Q := Q) .heat a c P)
  rw [hp] at h
  exact transform_moved E .heat ha c _ _ h (fun h => by cases h) nJobs X

/-- **C130**, `PersistenceImage`: if `sigma` and the weight function are expressed in the new units, the images are divided by `a ^ 2`, and do not depend on the origin. -/
theorem C130_image (E : Engine K) {a : K} (ha : 0 < a) (c : K) (P : Params K) (ops : List (Op K Q)) (nJobs : Nat) (X : List (List (Pt K Q))) :
    transform E .image nJobs (movedAll a c X) (run .image (ops.map (movedOp a c (movedParams a))) (new (movedParams a P))) =
      Except.map (timesOut (a ^ 2)⁻¹) (transform E .image nJobs X (run .image ops (new P))) := by
  have hp : psOf (K := K) .image a = movedParams a := by unfold psOf; rw [if_pos (.inr rfl)]
  have h := run_moved .image ha c ops _ _ (Units.new_rel (Q := Q) .image a c P)
  rw [hp] at h
  exact transform_moved E .image ha c _ _ h (fun h => by cases h) nJobs X

end

/-! ### Examples -/

/-- The hypothesis of `C130_silhouette` holds of the power function of real numbers. -/
theorem Units.factorOut_rpow (a : ℝ) (ha : 0 < a) (e : ℝ) : FactorOut (fun x y : ℝ => x ^ y) a e :=
  ⟨(Real.rpow_pos_of_pos ha e).ne', fun _ hx => Real.mul_rpow ha.le hx⟩

/-- A smoothing filter (not the Gaussian one) which depends on its parameter: each entry plus `s` times its left neighbour. -/
def Units.exE : Engine ℚ := ⟨fun s _ I => I.map fun r => List.zipWith (· + ·) r ((0 :: r).map fun x => s * x), fun x _ => x, 0⟩

/-- Lengths in millimetres instead of metres, measured from another origin. -/
def Units.exX : List (List (Pt ℚ Nat)) := movedAll 1000 5 vecX

example : transform Units.exE .betti 2 Units.exX (fit .betti Units.exX (new vecP)).1 = .ok (.counts [[[1, 1, 0], [1, 0, 0]], [[1, 1, 0], [0, 1, 0]]]) := by decide +kernel
example : transform Units.exE .landscape 2 Units.exX (fit .landscape Units.exX (new vecP)).1 =
    .ok (.layers [[[0, 1000, 0], [0, 0, 0], [0, 0, 0], [0, 0, 0]], [[0, 2000, 0], [0, 0, 0], [0, 1000, 0], [0, 0, 0]]]) := by decide +kernel

/-- **C130**, `HeatKernel` with its parameters as they are: the result depends on the units by more than a factor. With the same `sigma`, the image of the same diagrams in millimetres is not a multiple of that in metres
(already for a smoothing filter as simple as `Units.exE`). -/
theorem C130_refuted_heat_sigma : ∃ (a : ℚ) (E : Engine ℚ), 0 < a ∧ (∃ R, transform E .heat 1 vecX (fit .heat vecX (new vecP)).1 = .ok R) ∧
    ∀ s : ℚ, transform E .heat 1 (movedAll a 0 vecX) (fit .heat (movedAll a 0 vecX) (new vecP)).1 ≠
      Except.map (timesOut s) (transform E .heat 1 vecX (fit .heat vecX (new vecP)).1) := by
  have h1 : transform Units.exE .heat 1 vecX (fit .heat vecX (new vecP)).1 = .ok (.images
      [[[[some (1 / 4), some 0, some 0], [some (1 / 2), some 0, some 0], [some 0, some (-1 / 2), some (-1 / 4)]],
        [[some 0, some 0, some 0], [some (1 / 8), some 0, some 0], [some 0, some (-1 / 8), some 0]]],
       [[[some (1 / 4), some 0, some 0], [some 0, some 0, some 0], [some 0, some 0, some (-1 / 4)]],
        [[some (1 / 4), some 0, some 0], [some 0, some 0, some 0], [some 0, some 0, some (-1 / 4)]]]]) := by decide +kernel
  have h2 : transform Units.exE .heat 1 (movedAll 2 0 vecX) (fit .heat (movedAll 2 0 vecX) (new vecP)).1 = .ok (.images
      [[[[some (1 / 32), some 0, some 0], [some (1 / 8), some 0, some 0], [some 0, some (-1 / 8), some (-1 / 32)]],
        [[some 0, some 0, some 0], [some (1 / 64), some 0, some 0], [some 0, some (-1 / 64), some 0]]],
       [[[some (1 / 16), some 0, some 0], [some 0, some 0, some 0], [some 0, some 0, some (-1 / 16)]],
        [[some (1 / 16), some 0, some 0], [some 0, some 0, some 0], [some 0, some 0, some (-1 / 16)]]]]) := by decide +kernel
  refine ⟨2, Units.exE, by decide +kernel, ⟨_, h1⟩, fun s h => ?_⟩
  rw [h1, h2] at h
  simp only [Except.map, timesOut, Except.ok.injEq, Out.images.injEq, List.map_cons, List.map_nil, Option.map_some, List.cons.injEq, Option.some.injEq] at h
  have e1 := h.1.1.1.1
  have e2 := h.1.1.2.1.1
  linarith

end Gtda.Props
