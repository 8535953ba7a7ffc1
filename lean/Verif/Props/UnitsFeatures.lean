import Verif.Props.Units
import Verif.Props.FeatureObject

/-!
# C130: features and filtering in other units
-/

set_option autoImplicit false
set_option linter.unusedSectionVars false

namespace Gtda.Props.UnitsFeatures
open Gtda.Py Gtda.Diagrams Gtda.FeatureObject Gtda.Spec.Units Gtda.Props.Units

section
variable {K Q : Type} [Field K] [LinearOrder K] [IsStrictOrderedRing K] [LinearOrder Q]

/-- Objects of a class in two units, after corresponding histories. -/
theorem cls_moved {P O O' : Type} (cl : Cls P K Q O) (cl' : Cls P K Q O') {a : K} (ha : 0 < a) (c : K) (ps : P → P) (h : O → O') (hv : ∀ p, cl'.validate (ps p) = cl.validate p)
    (hd : ∀ p X, cl'.dims (ps p) (movedAll a c X) = cl.dims p X)
    (p0 : P) (ops : List (Op P K Q)) (nJobs : Nat) (X : List (List (Pt K Q)))
    (hb : ∀ d, cl'.body (ps (FeatureObject.run cl ⟨p0, none⟩ ops).params) d nJobs (movedAll a c X) = Except.map h (cl.body (FeatureObject.run cl ⟨p0, none⟩ ops).params d nJobs X)) :
    FeatureObject.transform cl' (FeatureObject.run cl' ⟨ps p0, none⟩ (ops.map (movedFeatureOp a c ps))) nJobs (movedAll a c X) =
      Except.map h (FeatureObject.transform cl (FeatureObject.run cl ⟨p0, none⟩ ops) nJobs X) := by
  have hrun : ∀ (ops : List (Op P K Q)) (o o' : Obj P Q), o'.params = ps o.params → o'.dims = o.dims →
      (FeatureObject.run cl' o' (ops.map (movedFeatureOp a c ps))).params = ps (FeatureObject.run cl o ops).params ∧
      (FeatureObject.run cl' o' (ops.map (movedFeatureOp a c ps))).dims = (FeatureObject.run cl o ops).dims := by
    intro ops
    induction ops with
    | nil => exact fun o o' h1 h2 => ⟨h1, h2⟩
    | cons op ops ih =>
      intro o o' h1 h2
      refine ih (step cl o op) (step cl' o' (movedFeatureOp a c ps op)) ?_ ?_
      · cases op with
        | setParams p => rfl
        | transform n X => exact h1
        | fit X =>
          simp only [movedFeatureOp, step, FeatureObject.fit, check_moved ha, h1, hv, hd]
          cases Vectorizers.check X with
          | error e => exact h1
          | ok u =>
            cases cl.validate o.params with
            | error e => exact h1
            | ok u' => cases cl.dims o.params X <;> first | exact h1 | rfl
      · cases op with
        | setParams p => exact h2
        | transform n X => exact h2
        | fit X =>
          simp only [movedFeatureOp, step, FeatureObject.fit, check_moved ha, h1, hv, hd]
          cases Vectorizers.check X with
          | error e => exact h2
          | ok u =>
            cases cl.validate o.params with
            | error e => exact h2
            | ok u' => cases cl.dims o.params X <;> first | exact h2 | rfl
  obtain ⟨h1, h2⟩ := hrun ops ⟨p0, none⟩ ⟨ps p0, none⟩ rfl rfl
  unfold FeatureObject.transform
  rw [h1, h2]
  cases (FeatureObject.run cl ⟨p0, none⟩ ops).dims with
  | none => rfl
  | some d =>
    dsimp only
    rw [check_moved ha, Units.bind_map]
    cases hck : Vectorizers.check X with
    | error e => rfl
    | ok u =>
      simp only [ok_bind]
      exact hb d

theorem numberPoints_moved {a : K} (ha : 0 < a) (c : K) (Y : List (List (Pt K Q))) : numberPoints (Y.map (List.map (mv a c))) = numberPoints Y := by
  unfold numberPoints
  rw [List.map_map]
  refine List.map_congr_left fun D _ => ?_
  simp only [Function.comp_apply, List.filter_map, List.length_map]
  congr 1
  refine List.filter_congr fun p _ => ?_
  simp only [Function.comp_apply, life_moved, ne_eq, mul_eq_zero, ha.ne', false_or]

theorem numberPointsTransform_moved {a : K} (ha : 0 < a) (c : K) (d : List Q) (nJobs : Nat) (X : List (List (Pt K Q))) :
    numberPointsTransform d nJobs (movedAll a c X) = numberPointsTransform d nJobs X := by
  have ht : ∀ t, numberPointsTask (movedAll a c X) t = numberPointsTask X t := by
    intro t
    unfold numberPointsTask
    rw [movedAll_eq, subdiagrams_natural (mv a c) (mv_q a c), Units.map_bind]
    congr 1
    funext sub
    rw [pySlice_map, numberPoints_moved ha]
  unfold numberPointsTransform
  have hl : (movedAll a c X).length = X.length := by rw [movedAll_eq, List.length_map]
  rw [hl, funext ht]

/-! ### Entropy -/

omit [LinearOrder Q] in
theorem scipyEntropy2_times {a : ℝ} (ha : 0 < a) (w : List ℝ) : scipyEntropy2 (w.map fun x => a * x) = scipyEntropy2 w := by
  unfold scipyEntropy2
  rw [List.sum_map_mul_left, List.map_id']
  by_cases h1 : w = []
  · rw [if_pos h1, if_pos (by rw [h1]; rfl)]
  · rw [if_neg h1, if_neg (by simpa using h1)]
    by_cases h2 : w.sum = 0
    · rw [if_pos h2, if_pos (by rw [h2, mul_zero])]
    · rw [if_neg h2, if_neg (mul_ne_zero ha.ne' h2), List.map_map]
      congr 4
      funext x
      simp only [Function.comp_apply]
      rw [mul_div_mul_left _ _ ha.ne']

omit [LinearOrder Q] in
theorem entropyOne_moved {a : ℝ} (ha : 0 < a) (c : ℝ) (normalize : Bool) (h : a = 1 ∨ normalize = false) (fill : Option ℝ) (fmax : ℝ) (D : List (Pt ℝ Q)) :
    persistenceEntropyOne normalize fill fmax (D.map (mv a c)) = persistenceEntropyOne normalize fill fmax D := by
  unfold persistenceEntropyOne
  have hl : ((D.map (mv a c)).map fun p => p.d - p.b) = (D.map fun p => p.d - p.b).map fun x => a * x := by
    rw [List.map_map, List.map_map]
    exact List.map_congr_left fun p _ => life_moved a c p
  rw [hl]
  generalize (D.map fun p => p.d - p.b) = w
  rcases h with rfl | rfl
  · simp only [one_mul, List.map_id']
  · simp only [scipyEntropy2_times ha]
    rfl

/-! ### Filtering -/

theorem selected_map (g : Pt K Q → Pt K Q) (p p' : Pt K Q → Bool) (hp : ∀ x, p' (g x) = p x) (X : List (List (Pt K Q))) :
    selected p' (X.map (List.map g)) = (selected p X).map fun x => (x.1, g x.2) := by
  unfold selected
  rw [List.zipIdx_map, List.flatMap_map, List.map_flatMap]
  congr 1
  funext D
  simp only [List.filter_map, List.map_map, Prod.map_fst, Prod.map_snd, id]
  rw [List.filter_congr (p := p' ∘ g) (q := p) (fun x _ => hp x)]
  rfl

theorem set2_map {α β : Type} (g : α → β) (M : List (List α)) (i j : Nat) (v : α) : set2 (M.map (List.map g)) i j (g v) = (set2 M i j v).map (List.map g) := by
  unfold set2
  apply List.ext_getElem?
  intro k
  simp only [List.getElem?_modify, List.getElem?_map]
  by_cases h : i = k
  · cases M[k]? <;> simp [h, List.map_set]
  · cases M[k]? <;> simp [h]

theorem foldl_min_moved {a : K} (ha : 0 < a) (l : List (Nat × Pt K Q)) (m : K) :
    (l.map fun x => (x.1, mv a 0 x.2)).foldl (fun m x => min m x.2.b) (a * m + 0) = a * l.foldl (fun m x => min m x.2.b) m + 0 := by
  induction l generalizing m with
  | nil => rfl
  | cons x l ih =>
    simp only [List.map_cons, List.foldl_cons]
    rw [← ih, ← aff_min ha]
    rfl

theorem filterDim_moved {a : K} (ha : 0 < a) (alive alive' : Pt K Q → Bool) (hal : ∀ p, alive' (mv a 0 p) = alive p) (X : List (List (Pt K Q))) (q : Q) :
    filterDim alive' (X.map (List.map (mv a 0))) q = (filterDim alive X q).map (List.map (mv a 0)) := by
  unfold filterDim
  simp only
  rw [selected_map (mv a 0) (fun p => decide (p.q = q) && alive p) (fun p => decide (p.q = q) && alive' p) (fun x => by rw [hal]; rfl), List.length_map]
  generalize selected (fun p => decide (p.q = q) && alive p) X = sel
  cases sel with
  | nil =>
    simp only [List.map_nil, List.map_replicate, List.map_cons]
    simp only [mv, mul_zero, add_zero]
  | cons s rest =>
    simp only [List.map_cons]
    have hm : rest.foldl (fun m x => min m x.2.b) s.2.b = rest.foldl (fun m x => min m x.2.b) s.2.b := rfl
    have hmin := foldl_min_moved ha rest s.2.b
    rw [show (mv a 0 s.2).b = a * s.2.b + 0 from rfl, hmin]
    have hr : ((rest.map fun x => (x.1, mv a 0 x.2)).map Prod.fst) = rest.map Prod.fst := by rw [List.map_map]; rfl
    have hr2 : ((rest.map fun x => (x.1, mv a 0 x.2)).map Prod.snd) = (rest.map Prod.snd).map (mv a 0) := by rw [List.map_map, List.map_map]; rfl
    rw [hr, hr2]
    generalize rest.foldl (fun m x => min m x.2.b) s.2.b = mn
    have hfold : ∀ (T : List ((Nat × Int) × Pt K Q)) (M : List (List (Pt K Q))),
        (T.map fun t => (t.1, mv a 0 t.2)).foldl (fun a t => set2 a t.1.1 t.1.2.toNat t.2) (M.map (List.map (mv a 0))) =
          (T.foldl (fun a t => set2 a t.1.1 t.1.2.toNat t.2) M).map (List.map (mv a 0)) := by
      intro T
      induction T with
      | nil => exact fun M => rfl
      | cons t T ih =>
        intro M
        simp only [List.map_cons, List.foldl_cons]
        rw [set2_map, ih]
    rw [← hfold, List.map_replicate, List.map_replicate]
    have hz : ∀ (A : List (Nat × Int)) (B : List (Pt K Q)), (A.zip B).map (fun t => (t.1, mv a 0 t.2)) = A.zip (B.map (mv a 0)) := by
      intro A B
      rw [List.zip_map_right]
      rfl
    rw [hz, List.map_cons]
    rfl

theorem concatAxis1_map' {α β : Type} (f : α → β) (n : Nat) (l : List (List (List α))) : concatAxis1 n (l.map (List.map (List.map f))) = Except.map (List.map (List.map f)) (concatAxis1 n l) := by
  have : ∀ l : List (List (List α)), (l.map (List.map (List.map f))).foldr (List.zipWith (· ++ ·)) (List.replicate n []) = (l.foldr (List.zipWith (· ++ ·)) (List.replicate n [])).map (List.map f) := by
    intro l
    induction l with
    | nil => simp
    | cons x l ih =>
      simp only [List.map_cons, List.foldr_cons]
      rw [ih, List.zipWith_map, List.map_zipWith]
      simp only [List.map_append]
  cases l with
  | nil => rfl
  | cons x l => exact congrArg Except.ok (this (x :: l))

theorem subdiagrams_natural' (g : Pt K Q → Pt K Q) (hg : ∀ p, (g p).q = p.q) (X : List (List (Pt K Q))) (dims : List Q) :
    subdiagrams (X.map (List.map g)) dims = Except.map (List.map (List.map g)) (subdiagrams X dims) := by
  have hs : ∀ q, X ≠ [] → subdiagramsSingle (X.map (List.map g)) q = Except.map (List.map (List.map g)) (subdiagramsSingle X q) := by
    intro q hX
    have := subdiagrams_natural g hg X q
    cases X with
    | nil => exact absurd rfl hX
    | cons D X => exact this
  cases X with
  | nil => rfl
  | cons D X =>
    match dims with
    | [q] => exact hs q (by simp)
    | [] => simp only [subdiagrams, List.map_cons, List.mapM_nil]; rfl
    | q :: q' :: dims =>
      simp only [subdiagrams]
      rw [show (D :: X).map (List.map g) = D.map g :: X.map (List.map g) from rfl]
      simp only
      rw [← List.map_cons (f := List.map g)]
      have hm := mapM_natural (subdiagramsSingle (D :: X)) (subdiagramsSingle ((D :: X).map (List.map g))) id (List.map (List.map g)) (q :: q' :: dims) (fun x _ => hs x (by simp))
      rw [List.map_id] at hm
      rw [hm, Units.map_bind, Units.bind_map, List.length_map]
      congr 1
      funext l
      exact concatAxis1_map' g _ l

theorem filterDiagrams_moved {a : K} (ha : 0 < a) (X : List (List (Pt K Q))) (d : List Q) (ε : K) : filterDiagrams (movedAll a 0 X) d (a * ε) = Except.map (movedAll a 0) (filterDiagrams X d ε) := by
  cases X with
  | nil => rfl
  | cons D X =>
    have hq : (D.map (mv a 0)).map Pt.q = D.map Pt.q := by rw [List.map_map]; rfl
    have huf : ∀ u : List Q, unfilteredPart ((D :: X).map (List.map (mv a 0))) u = Except.map (List.map (List.map (mv a 0))) (unfilteredPart (D :: X) u) := by
      intro u
      unfold unfilteredPart
      by_cases hu : u.length = 0
      · rw [if_pos hu, if_pos hu, List.length_map]; simp [Except.map]
      · rw [if_neg hu, if_neg hu]
        exact subdiagrams_natural' _ (mv_q a 0) _ _
    have hf : d.map (filterDim (fun p => decide (a * ε < p.d - p.b)) ((D :: X).map (List.map (mv a 0)))) = (d.map (filterDim (fun p => decide (ε < p.d - p.b)) (D :: X))).map (List.map (List.map (mv a 0))) := by
      rw [List.map_map]
      refine List.map_congr_left fun q _ => ?_
      exact filterDim_moved ha _ _ (fun p => by simp only [life_moved, mul_lt_mul_iff_right₀ ha]) _ q
    show filterDiagrams ((D :: X).map (List.map (mv a 0))) d (a * ε) = _
    rw [List.map_cons] at huf hf ⊢
    simp only [filterDiagrams, hq, huf, hf]
    rw [Units.map_bind, Units.bind_map]
    congr 1
    funext U
    rw [show (movedAll a 0 : List (List (Pt K Q)) → _) = List.map (List.map (mv a 0)) from rfl, ← concatAxis1_map' (mv a 0), List.map_append, List.length_cons, List.length_cons, List.length_map]
    rfl

end

end Gtda.Props.UnitsFeatures

namespace Gtda.Props
open Gtda.Py Gtda.Diagrams Gtda.FeatureObject Gtda.Spec.Units Gtda.Props.Units Gtda.Props.UnitsFeatures

section
variable {K Q : Type} [Field K] [LinearOrder K] [IsStrictOrderedRing K] [LinearOrder Q]

/-- **C130**, `NumberOfPoints`: numbers of points do not depend on the unit and the origin, after any history. -/
theorem C130_number_of_points {a : K} (ha : 0 < a) (c : K) (ops : List (FeatureObject.Op Unit K Q)) (nJobs : Nat) (X : List (List (Pt K Q))) :
    FeatureObject.transform pointsCls (FeatureObject.run pointsCls ⟨(), none⟩ (ops.map (movedFeatureOp a c id))) nJobs (movedAll a c X) =
      FeatureObject.transform pointsCls (FeatureObject.run pointsCls ⟨(), none⟩ ops) nJobs X := by
  rw [cls_moved (pointsCls (K := K) (Q := Q)) pointsCls ha c id id (fun p => rfl) (fun p X => by simp only [pointsCls, observedDims_moved]) () ops nJobs X (fun d => by
    simp only [pointsCls, numberPointsTransform_moved ha]
    exact (Units.map_id' id (fun _ => rfl) _).symm)]
  exact Units.map_id' _ (fun _ => rfl) _

/-- **C130**, `Filtering`: with `epsilon` in the new unit, filtered diagrams are those of before in the new unit, after any history; the origin must remain. -/
theorem C130_filtering {a : K} (ha : 0 < a) (p0 : Option (List Q) × K) (ops : List (FeatureObject.Op (Option (List Q) × K) K Q)) (nJobs : Nat) (X : List (List (Pt K Q))) :
    FeatureObject.transform filteringCls (FeatureObject.run filteringCls ⟨(p0.1, a * p0.2), none⟩ (ops.map (movedFeatureOp a 0 fun p => (p.1, a * p.2)))) nJobs (movedAll a 0 X) =
      Except.map (movedAll a 0) (FeatureObject.transform filteringCls (FeatureObject.run filteringCls ⟨p0, none⟩ ops) nJobs X) := by
  refine cls_moved (filteringCls (K := K) (Q := Q)) filteringCls ha 0 (fun p => (p.1, a * p.2)) (movedAll a 0) (fun p => ?_) (fun p X => ?_) p0 ops nJobs X (fun d => ?_)
  · show (if a * p.2 < 0 then _ else _) = (if p.2 < 0 then _ else _)
    have : a * p.2 < 0 ↔ p.2 < 0 := by simpa using mul_lt_mul_iff_right₀ (b := p.2) (c := 0) ha
    simp only [this]
  · show filteringFit p.1 (movedAll a 0 X) = filteringFit p.1 X
    unfold filteringFit
    cases p.1 with
    | some l => rfl
    | none =>
      cases X with
      | nil => rfl
      | cons D X =>
        show Except.ok ((((moved a 0 D).map Pt.q).dedup).insertionSort (· ≤ ·)) = _
        unfold moved
        rw [List.map_map]
        rfl
  · exact filterDiagrams_moved ha X d _

end

/-- **C130**: filtering depends on the origin. Where all points of a dimension are removed, `(0, 0)` is put in their place, wherever the diagrams are. -/
theorem C130_refuted_filtering_origin : ∃ (c : ℚ) (X : List (List (Pt ℚ Nat))),
    FeatureObject.transform filteringCls (FeatureObject.run filteringCls ⟨(none, (1 : ℚ)), none⟩ [.fit (movedAll 1 c X)]) 1 (movedAll 1 c X) = .ok [[⟨0, 0, 0⟩, ⟨c, c + 2, 1⟩]] ∧
    Except.map (movedAll 1 c) (FeatureObject.transform filteringCls (FeatureObject.run filteringCls ⟨(none, (1 : ℚ)), none⟩ [.fit X]) 1 X) = .ok [[⟨c, c, 0⟩, ⟨c, c + 2, 1⟩]] ∧ c ≠ 0 := by
  refine ⟨5, [[⟨0, 1, 0⟩, ⟨0, 2, 1⟩]], ?_, ?_, ?_⟩ <;> decide +kernel

example : FeatureObject.transform filteringCls (FeatureObject.run filteringCls ⟨(none, (1 : ℚ)), none⟩ [.fit [[(⟨1, 3, 0⟩ : Pt ℚ Nat), ⟨0, 1, 0⟩]]]) 1 [[⟨1, 3, 0⟩, ⟨0, 1, 0⟩]] = .ok [[⟨1, 3, 0⟩]] := by
  decide +kernel

/-- **C130**, `PersistenceEntropy` without `normalize`: entropies do not depend on the unit and the origin, after any history without `normalize`; with `normalize`, not on the origin. -/
theorem C130_entropy {Q : Type} [LinearOrder Q] {a : ℝ} (ha : 0 < a) (c fmax : ℝ) (p0 : Bool × Option ℝ) (ops : List (FeatureObject.Op (Bool × Option ℝ) ℝ Q)) (nJobs : Nat) (X : List (List (Pt ℝ Q)))
    (h : a = 1 ∨ (FeatureObject.run (entropyCls fmax) ⟨p0, none⟩ ops).params.1 = false) :
    FeatureObject.transform (entropyCls fmax) (FeatureObject.run (entropyCls fmax) ⟨p0, none⟩ (ops.map (movedFeatureOp a c id))) nJobs (movedAll a c X) =
      FeatureObject.transform (entropyCls fmax) (FeatureObject.run (entropyCls fmax) ⟨p0, none⟩ ops) nJobs X := by
  have hm := cls_moved (entropyCls (Q := Q) fmax) (entropyCls fmax) ha c id id (fun p => rfl) (fun p X => by simp only [entropyCls, observedDims_moved, id]) p0 ops nJobs X (fun d => by
    generalize (FeatureObject.run (entropyCls fmax) ⟨p0, none⟩ ops).params = pr at h ⊢
    show entropyTransform pr.1 pr.2 fmax d nJobs (movedAll a c X) = Except.map id (entropyTransform pr.1 pr.2 fmax d nJobs X)
    unfold entropyTransform
    rw [movedAll_eq, perDim_natural (fun _ => True) (mv a c) (mv_q a c) id (fun _ Y => .ok (Y.map (persistenceEntropyOne pr.1 pr.2 fmax))) _ d nJobs X (fun _ _ _ _ => trivial) (fun q _ Y _ => by
      simp only [Except.map, List.map_id]
      congr 1
      rw [List.map_map]
      exact List.map_congr_left fun D _ => entropyOne_moved ha c _ h _ _ D)]
    congr 1
    funext R
    simp)
  rw [Units.map_id' id (fun _ => rfl)] at hm
  exact hm

/-- **C130**: with `normalize`, the entropy depends on the unit: for two equal lifetimes it is 1 if they are 1, and 1/2 if they are 2. -/
theorem C130_refuted_entropy_normalized (fmax : ℝ) (fill : Option ℝ) (q : Nat) : persistenceEntropyOne true fill fmax [⟨0, 1, q⟩, ⟨0, 1, q⟩] = some ((1 : ℝ) : EReal) ∧
    persistenceEntropyOne true fill fmax (moved 2 0 [⟨0, 1, q⟩, ⟨0, 1, q⟩]) = some ((1 / 2 : ℝ) : EReal) := by
  have h2 : Real.log 2 ≠ 0 := (Real.log_pos one_lt_two).ne'
  have he : scipyEntropy2 [1, 1] = some 1 := by
    unfold scipyEntropy2 entr
    norm_num
    rw [Real.log_div one_ne_zero two_ne_zero, Real.log_one]
    rw [if_neg (by simp)]
    congr 1
    field_simp
    ring
  have he' : scipyEntropy2 [2, 2] = some 1 := by
    rw [← he]
    simpa using scipyEntropy2_times (two_pos : (0 : ℝ) < 2) [1, 1]
  have hl1 : Real.logb 2 2 = 1 := Real.logb_self_eq_one one_lt_two
  have hl2 : Real.logb 2 4 = 2 := by
    rw [show (4 : ℝ) = 2 ^ (2 : ℕ) by norm_num, Real.logb_pow, hl1]; norm_num
  constructor
  · unfold persistenceEntropyOne
    simp only [List.map_cons, List.map_nil, sub_zero, he, List.sum_cons, List.sum_nil, add_zero, if_true, normalizeEntropy, npDivide]
    norm_num only [hl1]
    cases fill <;> simp [nanToNumE, show (1 : EReal) ≠ ⊤ from EReal.coe_ne_top 1, show (1 : EReal) ≠ ⊥ from EReal.coe_ne_bot 1]
  · unfold persistenceEntropyOne moved
    simp only [List.map_cons, List.map_nil, mul_zero, mul_one, add_zero, sub_zero, he', List.sum_cons, List.sum_nil, if_true, normalizeEntropy, npDivide]
    norm_num only [hl2]
    cases fill <;> simp [nanToNumE]

end Gtda.Props
