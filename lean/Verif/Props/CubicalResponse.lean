import Verif.Props.MapperResponse

set_option autoImplicit false
set_option linter.unusedSectionVars false

/-!
# C146: how cubical covers depend on their features, their overlap and their number of intervals
-/

namespace Gtda.Props.CubicalResponse
open Gtda.Py Gtda.Mapper Gtda.Spec Gtda.Props Gtda.Props.MapperResponse Gtda.TimeSeries

/-! ### Sets of masks -/

/-- The sets of a combined cover: non-empty intersections of one mask of each cover. -/
theorem mem_combine (m : Nat) (covers : List (List (List Bool))) (hl : ∀ cov ∈ covers, ∀ a ∈ cov, a.length = m) (c : List Bool) :
    c ∈ combineCovers m covers ↔ c.length = m ∧ true ∈ c ∧ ∃ t, List.Forall₂ (fun a cov => a ∈ cov) t covers ∧ ∀ i : Nat, i < m → (c[i]? = some true ↔ ∀ a ∈ t, a[i]? = some true) := by
  unfold combineCovers
  rw [(C43_clean_masks _).1, List.mem_map]
  have hlen : ∀ t, List.Forall₂ (fun a cov => a ∈ cov) t covers → ∀ a ∈ t, a.length = m := by
    intro t ht a ha
    obtain ⟨j, hj, rfl⟩ := List.getElem_of_mem ha
    have hj' : j < covers.length := by rw [← ht.length_eq]; exact hj
    exact hl covers[j] (List.getElem_mem hj') _ ((List.forall₂_iff_get.mp ht).2 j hj hj')
  constructor
  · rintro ⟨⟨t, ht, rfl⟩, htrue⟩
    rw [mem_cartesian] at ht
    obtain ⟨h1, h2⟩ := andColumns_get m t (hlen t ht)
    exact ⟨h1, htrue, t, ht, h2⟩
  · rintro ⟨h1, h2, t, ht, h3⟩
    obtain ⟨h4, h5⟩ := andColumns_get m t (hlen t ht)
    exact ⟨⟨t, (mem_cartesian covers t).mpr ht, bool_ext h4 h1 fun i hi => by rw [h5 i hi, h3 i hi]⟩, h2⟩

theorem combine_nodup (m : Nat) (covers : List (List (List Bool))) : (combineCovers m covers).Nodup := (C43_clean_masks _).2.1

/-- The order of the covers is irrelevant. -/
theorem combine_perm (m : Nat) (covers covers' : List (List (List Bool))) (hp : covers.Perm covers') (hl : ∀ cov ∈ covers, ∀ a ∈ cov, a.length = m) :
    (combineCovers m covers).Perm (combineCovers m covers') := by
  have half : ∀ c1 c2 : List (List (List Bool)), c1.Perm c2 → (∀ cov ∈ c1, ∀ a ∈ cov, a.length = m) → ∀ c, c ∈ combineCovers m c1 → c ∈ combineCovers m c2 := by
    intro c1 c2 h12 h1 c hc
    rw [mem_combine m c1 h1] at hc
    rw [mem_combine m c2 fun cov hcov => h1 cov (h12.mem_iff.mpr hcov)]
    obtain ⟨a1, a2, t, ht, hi⟩ := hc
    have : Relation.Comp (List.Forall₂ fun a cov => a ∈ cov) List.Perm t c2 := ⟨c1, ht, h12⟩
    rw [List.forall₂_comp_perm_eq_perm_comp_forall₂] at this
    obtain ⟨t', htt, ht'⟩ := this
    exact ⟨a1, a2, t', ht', fun i h => by rw [hi i h]; exact ⟨fun h a ha => h a (htt.mem_iff.mpr ha), fun h a ha => h a (htt.mem_iff.mp ha)⟩⟩
  refine (List.perm_ext_iff_of_nodup (combine_nodup m covers) (combine_nodup m covers')).mpr fun c => ⟨half _ _ hp hl c, half _ _ hp.symm (fun cov hcov => hl cov (hp.mem_iff.mpr hcov)) c⟩

/-- A choice of members of a sublist. -/
theorem choice_sublist {α : Type} {l l' : List (List α)} (h : l'.Sublist l) : ∀ t, List.Forall₂ (fun a cov => a ∈ cov) t l → ∃ t', List.Forall₂ (fun a cov => a ∈ cov) t' l' ∧ ∀ a ∈ t', a ∈ t := by
  induction h with
  | slnil => exact fun t ht => ⟨t, ht, fun a ha => ha⟩
  | cons b _ ih =>
    intro t ht
    cases ht with
    | cons h1 h2 =>
      obtain ⟨t', h3, h4⟩ := ih _ h2
      exact ⟨t', h3, fun a ha => List.mem_cons_of_mem _ (h4 a ha)⟩
  | cons_cons b _ ih =>
    intro t ht
    cases ht with
    | cons h1 h2 =>
      obtain ⟨t', h3, h4⟩ := ih _ h2
      refine ⟨_ :: t', .cons h1 h3, ?_⟩
      intro a ha
      rcases List.mem_cons.mp ha with rfl | ha
      · exact List.mem_cons_self
      · exact List.mem_cons_of_mem _ (h4 a ha)

/-- Fewer covers give larger sets. -/
theorem combine_sublist (m : Nat) (covers covers' : List (List (List Bool))) (hs : covers'.Sublist covers) (hl : ∀ cov ∈ covers, ∀ a ∈ cov, a.length = m) (c : List Bool)
    (hc : c ∈ combineCovers m covers) : ∃ c' ∈ combineCovers m covers', ∀ i : Nat, c[i]? = some true → c'[i]? = some true := by
  rw [mem_combine m covers hl] at hc
  obtain ⟨a1, a2, t, ht, hi⟩ := hc
  obtain ⟨t', ht', hsub⟩ := choice_sublist hs t ht
  have hl' : ∀ cov ∈ covers', ∀ a ∈ cov, a.length = m := fun cov hcov => hl cov (hs.subset hcov)
  have hlen : ∀ a ∈ t', a.length = m := by
    intro a ha
    obtain ⟨j, hj, rfl⟩ := List.getElem_of_mem ha
    have hj' : j < covers'.length := by rw [← ht'.length_eq]; exact hj
    exact hl' covers'[j] (List.getElem_mem hj') _ ((List.forall₂_iff_get.mp ht').2 j hj hj')
  obtain ⟨b1, b2⟩ := andColumns_get m t' hlen
  have hsubset : ∀ i : Nat, c[i]? = some true → (andColumns m t')[i]? = some true := by
    intro i hic
    have him : i < m := by
      rw [← a1]
      exact (List.getElem?_eq_some_iff.mp hic).1
    rw [b2 i him]
    exact fun a ha => (hi i him).mp hic a (hsub a ha)
  refine ⟨_, (mem_combine m covers' hl' _).mpr ⟨b1, ?_, t', ht', b2⟩, hsubset⟩
  obtain ⟨i, h, hit⟩ := List.getElem_of_mem a2
  exact List.mem_of_getElem? (hsubset i (by rw [List.getElem?_eq_getElem h, hit]))

/-- Each non-empty mask of the first cover is contained in a mask of the second one. -/
def Finer (cov cov' : List (List Bool)) : Prop := ∀ a ∈ cov, true ∈ a → ∃ b ∈ cov', ∀ i : Nat, a[i]? = some true → b[i]? = some true

/-- Finer covers have finer combinations. -/
theorem combine_finer (m : Nat) (covers covers' : List (List (List Bool))) (hf : List.Forall₂ Finer covers covers') (hl : ∀ cov ∈ covers, ∀ a ∈ cov, a.length = m)
    (hl' : ∀ cov ∈ covers', ∀ a ∈ cov, a.length = m) (c : List Bool) (hc : c ∈ combineCovers m covers) :
    ∃ c' ∈ combineCovers m covers', ∀ i : Nat, c[i]? = some true → c'[i]? = some true := by
  rw [mem_combine m covers hl] at hc
  obtain ⟨a1, a2, t, ht, hi⟩ := hc
  obtain ⟨i0, hi0, hit0⟩ := List.getElem_of_mem a2
  have h0 : c[i0]? = some true := by rw [List.getElem?_eq_getElem hi0, hit0]
  have ht0 : ∀ a ∈ t, true ∈ a := fun a ha => List.mem_of_getElem? ((hi i0 (a1 ▸ hi0)).mp h0 a ha)
  have hchoice : ∃ t', List.Forall₂ (fun a cov => a ∈ cov) t' covers' ∧ ∀ i : Nat, (∀ a ∈ t, a[i]? = some true) → ∀ b ∈ t', b[i]? = some true := by
    clear hi hl hl' a1 h0
    induction hf generalizing t with
    | nil => cases ht; exact ⟨[], .nil, fun i _ b hb => absurd hb List.not_mem_nil⟩
    | cons hab _ ih =>
      cases ht with
      | cons h1 h2 =>
        obtain ⟨b, hb1, hb2⟩ := hab _ h1 (ht0 _ List.mem_cons_self)
        obtain ⟨t', h3, h4⟩ := ih _ h2 fun a ha => ht0 a (List.mem_cons_of_mem _ ha)
        refine ⟨b :: t', .cons hb1 h3, ?_⟩
        intro i hall x hx
        rcases List.mem_cons.mp hx with rfl | hx
        · exact hb2 i (hall _ List.mem_cons_self)
        · exact h4 i (fun a ha => hall a (List.mem_cons_of_mem _ ha)) x hx
  obtain ⟨t', ht', hsub⟩ := hchoice
  have hlen : ∀ a ∈ t', a.length = m := by
    intro a ha
    obtain ⟨j, hj, rfl⟩ := List.getElem_of_mem ha
    have hj' : j < covers'.length := by rw [← ht'.length_eq]; exact hj
    exact hl' covers'[j] (List.getElem_mem hj') _ ((List.forall₂_iff_get.mp ht').2 j hj hj')
  obtain ⟨b1, b2⟩ := andColumns_get m t' hlen
  have hsubset : ∀ i : Nat, c[i]? = some true → (andColumns m t')[i]? = some true := by
    intro i hic
    have him : i < m := by
      rw [← a1]
      exact (List.getElem?_eq_some_iff.mp hic).1
    rw [b2 i him]
    exact hsub i ((hi i him).mp hic)
  exact ⟨_, (mem_combine m covers' hl' _).mpr ⟨b1, List.mem_of_getElem? (hsubset i0 h0), t', ht', b2⟩, hsubset⟩

theorem cartesian_length {α : Type} (k : Nat) (ls : List (List α)) (h : ∀ l ∈ ls, l.length ≤ k) : (cartesian ls).length ≤ k ^ ls.length := by
  induction ls with
  | nil => exact le_rfl
  | cons l ls ih =>
    have h1 := ih fun x hx => h x (List.mem_cons_of_mem _ hx)
    have h2 := h l List.mem_cons_self
    simp only [cartesian, List.length_flatMap, List.length_map, List.length_cons, List.map_const', List.sum_replicate, pow_succ]
    rw [Nat.mul_comm (k ^ ls.length)]
    exact Nat.mul_le_mul h2 h1

/-- The number of sets. -/
theorem combine_count (m k : Nat) (covers : List (List (List Bool))) (h : ∀ cov ∈ covers, cov.length ≤ k) : (combineCovers m covers).length ≤ k ^ covers.length := by
  refine le_trans ?_ (cartesian_length k covers h)
  rw [← List.length_map (f := andColumns m)]
  exact (List.subperm_of_subset (combine_nodup m covers) fun c hc => ((C43_clean_masks _).1 c |>.mp hc).1).length_le

/-- The number of sets containing a sample. -/
theorem combine_count_at (m k i : Nat) (covers : List (List (List Bool))) (hl : ∀ cov ∈ covers, ∀ a ∈ cov, a.length = m)
    (h : ∀ cov ∈ covers, (cov.filter fun a => decide (a[i]? = some true)).length ≤ k) :
    ((combineCovers m covers).filter fun c => decide (c[i]? = some true)).length ≤ k ^ covers.length := by
  have h1 := cartesian_length k (covers.map fun cov => cov.filter fun a => decide (a[i]? = some true)) (by
    intro l hlm
    obtain ⟨cov, hcov, rfl⟩ := List.mem_map.mp hlm
    exact h cov hcov)
  rw [List.length_map] at h1
  refine le_trans ?_ h1
  rw [← List.length_map (f := andColumns m)]
  refine (List.subperm_of_subset ((combine_nodup m covers).filter _) ?_).length_le
  intro c hc
  rw [List.mem_filter, decide_eq_true_eq, mem_combine m covers hl] at hc
  obtain ⟨⟨a1, a2, t, ht, hi⟩, hci⟩ := hc
  have him : i < m := by
    rw [← a1]
    exact (List.getElem?_eq_some_iff.mp hci).1
  have hti := (hi i him).mp hci
  have hlen : ∀ a ∈ t, a.length = m := by
    intro a ha
    obtain ⟨j, hj, rfl⟩ := List.getElem_of_mem ha
    have hj' : j < covers.length := by rw [← ht.length_eq]; exact hj
    exact hl covers[j] (List.getElem_mem hj') _ ((List.forall₂_iff_get.mp ht).2 j hj hj')
  obtain ⟨b1, b2⟩ := andColumns_get m t hlen
  rw [List.mem_map]
  refine ⟨t, (mem_cartesian _ t).mpr ?_, bool_ext b1 a1 fun j hj => by rw [b2 j hj, hi j hj]⟩
  rw [List.forall₂_map_right_iff]
  clear h hl h1 b1 b2 hlen hi hci
  induction ht with
  | nil => exact .nil
  | cons h1 _ ih =>
    exact .cons (List.mem_filter.mpr ⟨h1, decide_eq_true (hti _ List.mem_cons_self)⟩) (ih fun a ha => hti a (List.mem_cons_of_mem _ ha))

/-- No two members satisfy `P`. -/
theorem filter_le_one {α : Type} (P : α → Bool) (l : List α) (h : ∀ (i j : Nat) a b, i < j → l[i]? = some a → l[j]? = some b → ¬ (P a = true ∧ P b = true)) : (l.filter P).length ≤ 1 := by
  induction l with
  | nil => exact Nat.zero_le _
  | cons a t ih =>
    have ih' := ih fun i j x y hij hx hy => h (i + 1) (j + 1) x y (by omega) hx hy
    by_cases hP : P a = true
    · rw [List.filter_cons_of_pos hP, List.length_cons]
      have : t.filter P = [] := by
        rw [List.filter_eq_nil_iff]
        intro b hb hPb
        obtain ⟨j, hj⟩ := List.mem_iff_getElem?.mp hb
        exact h 0 (j + 1) a b (by omega) rfl hj ⟨hP, hPb⟩
      rw [this]
      exact le_rfl
    · rw [List.filter_cons_of_neg hP]
      exact ih'

/-- No three members satisfy `P`. -/
theorem filter_le_two {α : Type} (P : α → Bool) (l : List α)
    (h : ∀ (i j k : Nat) a b c, i < j → j < k → l[i]? = some a → l[j]? = some b → l[k]? = some c → ¬ (P a = true ∧ P b = true ∧ P c = true)) : (l.filter P).length ≤ 2 := by
  induction l with
  | nil => exact Nat.zero_le _
  | cons a t ih =>
    by_cases hP : P a = true
    · rw [List.filter_cons_of_pos hP, List.length_cons]
      exact Nat.succ_le_succ (filter_le_one P t fun i j x y hij hx hy hxy => h 0 (i + 1) (j + 1) a x y (by omega) (by omega) rfl hx hy ⟨hP, hxy.1, hxy.2⟩)
    · rw [List.filter_cons_of_neg hP]
      exact ih fun i j k x y z hij hjk hx hy hz => h (i + 1) (j + 1) (k + 1) x y z (by omega) (by omega) hx hy hz

/-! ### The covers of the features -/

variable {K : Type} [Field K] [LinearOrder K] [IsStrictOrderedRing K] [FloorRing K]

/-- Masks of new values `Y` in the intervals learnt from the columns `X`. -/
theorem fit_transform_eq (p : CoverParams K) (s st : CubicalState K) (X Y : List (List K)) (m : Nat) (hX : X ≠ []) (hY : Y.length = X.length) (h : cubicalFit p s X = (st, .ok ())) :
    ∃ ivss, X.mapM (coverFitLimits p) = .ok ivss ∧ st = ⟨some (ivss.map fun ivs => ⟨some ivs⟩)⟩ ∧
      cubicalTransform p st m Y = .ok (combineCovers m (List.zipWith (fun y ivs => coverMasks ivs y) Y ivss)) := by
  unfold cubicalFit at h
  cases hm : X.mapM (coverFitLimits p) with
  | error e => rw [hm] at h; cases h
  | ok ivss =>
    rw [hm] at h
    simp only [Prod.mk.injEq, and_true] at h
    have hl : X.length = ivss.length := mapM_length hm
    refine ⟨ivss, rfl, h.symm, ?_⟩
    rw [← h, ← cubicalMasks_ok m ivss Y (hY.trans hl)]
    unfold cubicalTransform
    simp only [List.length_map, hY.trans hl, ne_eq, not_true_eq_false, if_false]
    cases ivss with
    | nil => exact absurd (List.length_eq_zero_iff.mp hl) hX
    | cons a t => simp

/-- The same, feature by feature. -/
theorem zip_mapM (p : CoverParams K) : ∀ (X Y : List (List K)) ivss, Y.length = X.length → X.mapM (coverFitLimits p) = .ok ivss →
    (X.zip Y).mapM (fun q => (coverFitLimits p q.1).map fun ivs => coverMasks ivs q.2) = .ok (List.zipWith (fun y ivs => coverMasks ivs y) Y ivss) := by
  intro X Y ivss hl h
  rw [mapM_ok_iff] at h ⊢
  induction h generalizing Y with
  | nil =>
    rw [List.length_nil, List.length_eq_zero_iff] at hl
    subst hl
    exact .nil
  | cons h1 _ ih =>
    cases Y with
    | nil => cases hl
    | cons y Y =>
      refine .cons ?_ (ih Y (by simpa using hl))
      rw [h1]
      rfl

/-- Permuting the arguments of `mapM`. -/
theorem mapM_perm {α β : Type} (f : α → PyM β) (l l' : List α) (r : List β) (hp : l.Perm l') (h : l.mapM f = .ok r) : ∃ r', l'.mapM f = .ok r' ∧ r.Perm r' := by
  rw [mapM_ok_iff] at h
  have : Relation.Comp (List.Forall₂ fun y x => f x = .ok y) List.Perm r l' := ⟨l, h.flip, hp⟩
  rw [List.forall₂_comp_perm_eq_perm_comp_forall₂] at this
  obtain ⟨r', h1, h2⟩ := this
  exact ⟨r', mapM_ok_iff.mpr h2.flip, h1⟩

/-- `mapM` on a sublist. -/
theorem mapM_sublist {α β : Type} (f : α → PyM β) {l l' : List α} (hs : l'.Sublist l) : ∀ r : List β, l.mapM f = .ok r → ∃ r', l'.mapM f = .ok r' ∧ r'.Sublist r := by
  simp only [mapM_ok_iff]
  induction hs with
  | slnil => exact fun r h => ⟨r, h, List.Sublist.refl _⟩
  | cons b _ ih =>
    intro r h
    cases h with
    | cons h1 h2 =>
      obtain ⟨r', h3, h4⟩ := ih _ h2
      exact ⟨r', h3, h4.cons _⟩
  | cons_cons b _ ih =>
    intro r h
    cases h with
    | cons h1 h2 =>
      obtain ⟨r', h3, h4⟩ := ih _ h2
      exact ⟨_ :: r', .cons h1 h3, h4.cons_cons _⟩

/-- Lengths of masks. -/
theorem zipMasks_length (m : Nat) (Y : List (List K)) (ivss : List (List (Ival K))) (hm : ∀ y ∈ Y, y.length = m) :
    ∀ cov ∈ List.zipWith (fun y ivs => coverMasks ivs y) Y ivss, ∀ a ∈ cov, a.length = m := by
  intro cov hcov a ha
  obtain ⟨j, hj⟩ := List.mem_iff_getElem?.mp hcov
  rw [List.getElem?_zipWith] at hj
  cases hy : Y[j]? with
  | none => rw [hy] at hj; cases hj
  | some y =>
    cases hI : ivss[j]? with
    | none => rw [hy, hI] at hj; cases hj
    | some I =>
      rw [hy, hI] at hj
      cases hj
      obtain ⟨J, -, rfl⟩ := List.mem_map.mp ha
      rw [List.length_map]
      exact hm y (List.mem_of_getElem? hy)

/-- The masks of one feature that `fit_transform` combines. -/
def trainMasks (p : CoverParams K) (x : List K) : PyM (List (List Bool)) :=
  if p.balanced then (fitTransformBalanced p.n p.f x).map Prod.fst else (coverFitLimits p x).map fun ivs => coverMasks ivs x

theorem zip_self (X : List (List K)) : X.zip X = X.map fun x => (x, x) := by
  induction X with
  | nil => rfl
  | cons x X ih => rw [List.zip_cons_cons, ih, List.map_cons]

theorem mapM_map' {α β γ : Type} (f : α → β) (g : β → PyM γ) (l : List α) : (l.map f).mapM g = l.mapM fun a => g (f a) := by
  induction l with
  | nil => rfl
  | cons a l ih => rw [List.map_cons, List.mapM_cons, List.mapM_cons, ih]

/-- What `fit_transform` returns. -/
theorem training_iff (p : CoverParams K) (s : CubicalState K) (m : Nat) (X : List (List K)) (M : List (List Bool)) :
    (cubicalFitTransform p s m X).2 = .ok M ↔ ∃ covers, X.mapM (trainMasks p) = .ok covers ∧ combineCovers m covers = M := by
  unfold cubicalFitTransform trainMasks
  cases hb : p.balanced with
  | true =>
    simp only [if_true]
    cases hm : X.mapM fun x => (fitTransformBalanced p.n p.f x).map Prod.fst with
    | error e => simp
    | ok covers => simp
  | false =>
    simp only [Bool.false_eq_true, if_false]
    have hz := zip_mapM p X X
    rw [zip_self, mapM_map'] at hz
    cases hm : X.mapM (coverFitLimits p) with
    | ok ivss =>
      rw [hz ivss rfl hm]
      dsimp only
      rw [cubicalMasks_ok m ivss X (mapM_length hm)]
      simp
    | error e =>
      have : ∀ r, X.mapM (fun x => (coverFitLimits p x).map fun ivs => coverMasks ivs x) ≠ .ok r := by
        intro r hr
        have : ∃ ivss, X.mapM (coverFitLimits p) = .ok ivss := by
          rw [mapM_ok_iff] at hr
          simp only [mapM_ok_iff]
          clear hz hm
          induction hr with
          | nil => exact ⟨[], .nil⟩
          | @cons x _ _ _ h1 _ ih =>
            obtain ⟨ivss, h2⟩ := ih
            cases hx : coverFitLimits p x with
            | error e => rw [hx] at h1; cases h1
            | ok ivs => exact ⟨ivs :: ivss, .cons hx h2⟩
        obtain ⟨ivss, h⟩ := this
        rw [hm] at h
        cases h
      constructor
      · intro h
        cases h
      · rintro ⟨covers, h, -⟩
        exact absurd h (this covers)

theorem trainMasks_length (p : CoverParams K) (x : List K) (cov : List (List Bool)) (h : trainMasks p x = .ok cov) : ∀ a ∈ cov, a.length = x.length := by
  unfold trainMasks at h
  split at h
  · unfold fitTransformBalanced at h
    dsimp only at h
    cases hb : balancedLimits p.n p.f (denseRank x) with
    | error e => rw [hb] at h; cases h
    | ok lr =>
      rw [hb] at h
      cases h
      intro a ha
      obtain ⟨q, -, rfl⟩ := List.mem_map.mp ha
      simp [denseRank]
  · cases hc : coverFitLimits p x with
    | error e => rw [hc] at h; cases h
    | ok ivs =>
      rw [hc] at h
      cases h
      intro a ha
      obtain ⟨I, -, rfl⟩ := List.mem_map.mp ha
      exact List.length_map _

theorem coversLength (p : CoverParams K) (m : Nat) (X : List (List K)) (covers : List (List (List Bool))) (hm : ∀ x ∈ X, x.length = m) (h : X.mapM (trainMasks p) = .ok covers) :
    ∀ cov ∈ covers, ∀ a ∈ cov, a.length = m := by
  rw [mapM_ok_iff] at h
  induction h with
  | nil => exact fun cov hc => absurd hc List.not_mem_nil
  | cons h1 _ ih =>
    intro cov hcov a ha
    rcases List.mem_cons.mp hcov with rfl | hcov
    · rw [trainMasks_length p _ _ h1 a ha]
      exact hm _ List.mem_cons_self
    · exact ih (fun x hx => hm x (List.mem_cons_of_mem _ hx)) cov hcov a ha

/-! ### Sizes of the covers of features -/

theorem coverLimits_length (lo hi : K) (n : Nat) (f : K) : (coverLimits lo hi n f).1.length = n ∧ (coverLimits lo hi n f).2.length = n := by
  constructor <;> simp [coverLimits, linspace]

theorem limits_length (p : CoverParams K) (x : List K) (ivs : List (Ival K)) (h : coverFitLimits p x = .ok ivs) : ivs.length ≤ p.n := by
  unfold coverFitLimits at h
  split at h
  · unfold fitBalanced at h
    unfold balancedLimits at h
    cases hr : denseRank x with
    | nil => rw [hr] at h; cases h
    | cons r t =>
      rw [hr] at h
      dsimp only at h
      split at h
      · cases h
      · cases h
        obtain ⟨h1, h2⟩ := coverLimits_length (-(1 / 2) : K) (((t.foldl max r : Nat) : K) + 1 / 2) p.n p.f
        simp only [openEnds, List.length_zip, List.length_set, List.length_map, h1, h2, min_self, le_refl]
  · unfold fitUniform at h
    cases x with
    | nil => cases h
    | cons x t =>
      dsimp only at h
      split at h
      · cases h
      · cases h
        obtain ⟨h1, h2⟩ := coverLimits_length (t.foldl min x) (t.foldl max x) p.n p.f
        simp only [openEnds, List.length_zip, List.length_set, List.length_map, h1, h2, min_self, le_refl]

theorem trainMasks_count (p : CoverParams K) (x : List K) (cov : List (List Bool)) (h : trainMasks p x = .ok cov) : cov.length ≤ p.n := by
  unfold trainMasks at h
  split at h
  · unfold fitTransformBalanced balancedLimits at h
    cases hr : denseRank x with
    | nil => rw [hr] at h; cases h
    | cons r t =>
      rw [hr] at h
      dsimp only at h
      split at h
      · cases h
      · cases h
        obtain ⟨h1, h2⟩ := coverLimits_length (-(1 / 2) : K) (((t.foldl max r : Nat) : K) + 1 / 2) p.n p.f
        simp only [List.length_map, List.length_zip, h1, h2, min_self, le_refl]
  · cases hc : coverFitLimits p x with
    | error e => rw [hc] at h; cases h
    | ok ivs =>
      rw [hc] at h
      cases h
      unfold coverMasks
      rw [List.length_map]
      exact limits_length p x ivs hc

/-- Data on which a uniform cover can be fitted. -/
theorem uniform_valid (n : Nat) (f : K) (x : List K) (ivs : List (Ival K)) (h : fitUniform n f x = .ok ivs) : x ≠ [] ∧ (n ≤ 1 ∨ ∃ a ∈ x, ∃ b ∈ x, a ≠ b) := by
  constructor
  · rintro rfl
    cases h
  · by_contra hc
    push Not at hc
    obtain ⟨h1, h2⟩ := hc
    cases x with
    | nil => cases h
    | cons c t =>
      rw [C40_single_value_raises n h1 f (c :: t) c fun a ha => h2 a ha c List.mem_cons_self] at h
      cases h

/-- Data on which a balanced cover can be fitted. -/
theorem balanced_valid (n : Nat) (f : K) (x : List K) (r : List (List Bool) × (List K × List K)) (h : fitTransformBalanced n f x = .ok r) : x ≠ [] ∧ (n ≤ 1 ∨ ∃ a ∈ x, ∃ b ∈ x, a ≠ b) := by
  constructor
  · rintro rfl
    cases h
  · by_contra hc
    push Not at hc
    obtain ⟨h1, h2⟩ := hc
    cases x with
    | nil => cases h
    | cons c t =>
      have := (C41_single_value_raises n h1 f ⟨none⟩ (c :: t) c fun a ha => h2 a ha c List.mem_cons_self).2
      simp only [coverFitTransform, h] at this
      cases this

/-- A value is in at most two intervals of a uniform cover. -/
theorem uniform_two (n : Nat) (hn : 1 ≤ n) (f : K) (hf0 : 0 < f) (hf : f ≤ 1 / 2) (x y : List K) (ivs : List (Ival K)) (h : fitUniform n f x = .ok ivs) (i : Nat) :
    ((coverMasks ivs y).filter fun a => decide (a[i]? = some true)).length ≤ 2 := by
  obtain ⟨hx, hd⟩ := uniform_valid n f x ivs h
  obtain ⟨c, t, rfl⟩ := List.exists_cons_of_ne_nil hx
  obtain ⟨m1, m2⟩ := foldl_min_spec t c
  obtain ⟨M1, M2⟩ := foldl_max_spec t c
  have hlt : t.foldl min c < t.foldl max c ∨ n = 1 := by
    rcases hd with hd | ⟨a, ha, b, hb, hne⟩
    · exact .inr (by omega)
    · left
      rcases lt_or_gt_of_ne hne with h | h
      · exact lt_of_le_of_lt (m2 a ha) (lt_of_lt_of_le h (M2 b hb))
      · exact lt_of_le_of_lt (m2 b hb) (lt_of_lt_of_le h (M2 a ha))
  obtain ⟨ivs', len, h1, -, -, -, -, -, -, h8⟩ := C40_uniform_cover n hn f hf0 (lt_of_le_of_lt hf (by norm_num)) (c :: t) _ _ ⟨m1, m2⟩ ⟨M1, M2⟩ hlt
  rw [h, Except.ok.injEq] at h1
  subst h1
  refine filter_le_two _ _ ?_
  intro u v w a b d huv hvw ha hb hd habd
  simp only [decide_eq_true_eq] at habd
  unfold coverMasks at ha hb hd
  rw [List.getElem?_map, Option.map_eq_some_iff] at ha hb hd
  obtain ⟨I, hI, rfl⟩ := ha
  obtain ⟨J, hJ, rfl⟩ := hb
  obtain ⟨L, hL, rfl⟩ := hd
  obtain ⟨e1, e2, e3⟩ := habd
  rw [List.getElem?_map, Option.map_eq_some_iff] at e1 e2 e3
  obtain ⟨z, hz, e1⟩ := e1
  obtain ⟨z2, hz2, e2⟩ := e2
  obtain ⟨z3, hz3, e3⟩ := e3
  rw [hz, Option.some.injEq] at hz2 hz3
  subst hz2 hz3
  exact h8 hf u v w I J L huv hvw hI hJ hL z ⟨(inIval_iff I z).mp e1, (inIval_iff J z).mp e2, (inIval_iff L z).mp e3⟩

/-- A sample is in at most two masks of a feature of the training data. -/
theorem train_two (p : CoverParams K) (hn : 1 ≤ p.n) (hf0 : 0 < p.f) (hf : p.f ≤ 1 / 2) (x : List K) (cov : List (List Bool)) (h : trainMasks p x = .ok cov) (i : Nat) :
    (cov.filter fun a => decide (a[i]? = some true)).length ≤ 2 := by
  unfold trainMasks at h
  split at h
  · cases hb : fitTransformBalanced p.n p.f x with
    | error e => rw [hb] at h; cases h
    | ok r =>
      obtain ⟨hx, hd⟩ := balanced_valid p.n p.f x r hb
      obtain ⟨-, lims, len, hlen, -, -, hft, -⟩ := balanced_masks_agree p.n hn p.f hf0 (lt_of_le_of_lt hf (by norm_num)) x hx (hd.imp (fun h => by omega) id)
      rw [hft] at h
      cases h
      refine filter_le_two _ _ ?_
      intro u v w a b d huv hvw ha hb hd habd
      simp only [decide_eq_true_eq] at habd
      rw [List.getElem?_map, Option.map_eq_some_iff] at ha hb hd
      obtain ⟨k1, hk1, rfl⟩ := ha
      obtain ⟨k2, hk2, rfl⟩ := hb
      obtain ⟨k3, hk3, rfl⟩ := hd
      obtain ⟨e1, -, e3⟩ := habd
      have q1 : u = k1 := by
        obtain ⟨q, rfl⟩ := List.getElem?_eq_some_iff.mp hk1
        exact (List.getElem_range _).symm
      have q3 : w = k3 := by
        obtain ⟨q, rfl⟩ := List.getElem?_eq_some_iff.mp hk3
        exact (List.getElem_range _).symm
      subst q1 q3
      unfold rankMask at e1 e3
      rw [List.getElem?_map, Option.map_eq_some_iff] at e1 e3
      obtain ⟨z, hz, e1⟩ := e1
      obtain ⟨z3, hz3, e3⟩ := e3
      rw [hz, Option.some.injEq] at hz3
      subst hz3
      rw [Bool.and_eq_true, decide_eq_true_eq, decide_eq_true_eq] at e1 e3
      have hw : (u : K) + 2 ≤ w := by exact_mod_cast (by omega : u + 2 ≤ w)
      have hs : (1 / 2) * len ≤ (1 - p.f) * len := mul_le_mul_of_nonneg_right (by linarith) hlen.le
      have hs0 : 0 ≤ (1 - p.f) * len := le_trans (by linarith) hs
      have := mul_le_mul_of_nonneg_right hw hs0
      linarith [e1.2, e3.1]
  · next hb =>
    cases hc : coverFitLimits p x with
    | error e => rw [hc] at h; cases h
    | ok ivs =>
      rw [hc] at h
      cases h
      unfold coverFitLimits at hc
      rw [if_neg hb] at hc
      exact uniform_two p.n hn p.f hf0 hf x x ivs hc i

theorem forall₂_mem_right {α β : Type} {R : α → β → Prop} {l : List α} {r : List β} (h : List.Forall₂ R l r) (b : β) (hb : b ∈ r) : ∃ a ∈ l, R a b := by
  obtain ⟨j, hj, rfl⟩ := List.getElem_of_mem hb
  have hj' : j < l.length := by rw [h.length_eq]; exact hj
  exact ⟨l[j], List.getElem_mem hj', (List.forall₂_iff_get.mp h).2 j hj' hj⟩

end Gtda.Props.CubicalResponse

namespace Gtda.Props
open Gtda.Py Gtda.Mapper Gtda.Spec Gtda.TimeSeries Gtda.Props.CubicalResponse Gtda.Props.MapperResponse

section
variable {K : Type} [Field K] [LinearOrder K] [IsStrictOrderedRing K] [FloorRing K]

/-- **C146, order of the features.** `X` and `Y` are the columns of the training data and of the data transformed later. Permuting the features in the same way in both changes at most the order of the returned
sets. -/
theorem C146_feature_order (p : CoverParams K) (s s' st : CubicalState K) (m : Nat) (X Y X' Y' : List (List K)) (hX : X ≠ []) (hY : Y.length = X.length) (hY' : Y'.length = X'.length) (hm : ∀ y ∈ Y, y.length = m)
    (hperm : (X.zip Y).Perm (X'.zip Y')) (hfit : cubicalFit p s X = (st, .ok ())) :
    ∃ st' M M', cubicalFit p s' X' = (st', .ok ()) ∧ cubicalTransform p st m Y = .ok M ∧ cubicalTransform p st' m Y' = .ok M' ∧ M.Perm M' := by
  obtain ⟨ivss, h1, -, h3⟩ := fit_transform_eq p s st X Y m hX hY hfit
  have hXX : X.Perm X' := by
    have := hperm.map Prod.fst
    rwa [List.map_fst_zip hY.ge, List.map_fst_zip hY'.ge] at this
  obtain ⟨ivss', h1', -⟩ := mapM_perm _ X X' ivss hXX h1
  have hfit' : cubicalFit p s' X' = (⟨some (ivss'.map fun ivs => ⟨some ivs⟩)⟩, .ok ()) := by
    unfold cubicalFit
    rw [h1']
  have hX' : X' ≠ [] := by
    rintro rfl
    exact hX hXX.eq_nil
  obtain ⟨ivss2, h4, -, h5⟩ := fit_transform_eq p s' _ X' Y' m hX' hY' hfit'
  rw [h1', Except.ok.injEq] at h4
  subst h4
  refine ⟨_, _, _, hfit', h3, h5, ?_⟩
  obtain ⟨r', h6, h7⟩ := mapM_perm _ _ _ _ hperm (zip_mapM p X Y ivss hY h1)
  rw [zip_mapM p X' Y' ivss' hY' h1', Except.ok.injEq] at h6
  rw [h6]
  exact combine_perm m _ _ h7 (zipMasks_length m Y ivss hm)

/-- The same for `fit_transform`. -/
theorem C146_feature_order_training (p : CoverParams K) (s s' : CubicalState K) (m : Nat) (X X' : List (List K)) (hm : ∀ x ∈ X, x.length = m) (hperm : X.Perm X') (M : List (List Bool))
    (h : (cubicalFitTransform p s m X).2 = .ok M) : ∃ M', (cubicalFitTransform p s' m X').2 = .ok M' ∧ M.Perm M' := by
  obtain ⟨covers, h1, rfl⟩ := (training_iff p s m X M).mp h
  obtain ⟨covers', h2, h3⟩ := mapM_perm _ X X' covers hperm h1
  exact ⟨_, (training_iff p s' m X' _).mpr ⟨covers', h2, rfl⟩, combine_perm m covers covers' h3 (coversLength p m X covers hm h1)⟩

/-- **C146, fewer features.** If a cover can be fitted on all features, then on any of them, and each set returned with all features is contained in a set returned with fewer features. -/
theorem C146_fewer_features (p : CoverParams K) (s s' st : CubicalState K) (m : Nat) (X Y X' Y' : List (List K)) (hX' : X' ≠ []) (hY : Y.length = X.length) (hY' : Y'.length = X'.length) (hm : ∀ y ∈ Y, y.length = m)
    (hsub : (X'.zip Y').Sublist (X.zip Y)) (hfit : cubicalFit p s X = (st, .ok ())) :
    ∃ st' M M', cubicalFit p s' X' = (st', .ok ()) ∧ cubicalTransform p st m Y = .ok M ∧ cubicalTransform p st' m Y' = .ok M' ∧
      ∀ c ∈ M, ∃ c' ∈ M', ∀ i : Nat, c[i]? = some true → c'[i]? = some true := by
  have hXX : X'.Sublist X := by
    have := hsub.map Prod.fst
    rwa [List.map_fst_zip hY.ge, List.map_fst_zip hY'.ge] at this
  have hX : X ≠ [] := by
    rintro rfl
    exact hX' (List.sublist_nil.mp hXX)
  obtain ⟨ivss, h1, -, h3⟩ := fit_transform_eq p s st X Y m hX hY hfit
  obtain ⟨ivss', h1', -⟩ := mapM_sublist _ hXX ivss h1
  have hfit' : cubicalFit p s' X' = (⟨some (ivss'.map fun ivs => ⟨some ivs⟩)⟩, .ok ()) := by
    unfold cubicalFit
    rw [h1']
  obtain ⟨ivss2, h4, -, h5⟩ := fit_transform_eq p s' _ X' Y' m hX' hY' hfit'
  rw [h1', Except.ok.injEq] at h4
  subst h4
  refine ⟨_, _, _, hfit', h3, h5, ?_⟩
  obtain ⟨r', h6, h7⟩ := mapM_sublist _ hsub _ (zip_mapM p X Y ivss hY h1)
  rw [zip_mapM p X' Y' ivss' hY' h1', Except.ok.injEq] at h6
  rw [h6]
  exact combine_sublist m _ _ h7 (zipMasks_length m Y ivss hm)

/-- The same for `fit_transform`. -/
theorem C146_fewer_features_training (p : CoverParams K) (s s' : CubicalState K) (m : Nat) (X X' : List (List K)) (hm : ∀ x ∈ X, x.length = m) (hsub : X'.Sublist X) (M : List (List Bool))
    (h : (cubicalFitTransform p s m X).2 = .ok M) :
    ∃ M', (cubicalFitTransform p s' m X').2 = .ok M' ∧ ∀ c ∈ M, ∃ c' ∈ M', ∀ i : Nat, c[i]? = some true → c'[i]? = some true := by
  obtain ⟨covers, h1, rfl⟩ := (training_iff p s m X M).mp h
  obtain ⟨covers', h2, h3⟩ := mapM_sublist _ hsub covers h1
  exact ⟨_, (training_iff p s' m X' _).mpr ⟨covers', h2, rfl⟩, combine_sublist m covers covers' h3 (coversLength p m X covers hm h1)⟩

/-- **C146, overlap of uniform covers.** If a cover can be fitted, then also with any larger `overlap_frac`, and on any later data each returned set is contained in a set returned with the larger overlap. -/
theorem C146_overlap_uniform (n : Nat) (hn : 1 ≤ n) (f f' : K) (hf0 : 0 < f) (hff : f ≤ f') (hf1 : f' < 1) (s s' st : CubicalState K) (m : Nat) (X Y : List (List K)) (hX : X ≠ []) (hY : Y.length = X.length)
    (hm : ∀ y ∈ Y, y.length = m) (hfit : cubicalFit ⟨false, n, f⟩ s X = (st, .ok ())) :
    ∃ st' M M', cubicalFit ⟨false, n, f'⟩ s' X = (st', .ok ()) ∧ cubicalTransform ⟨false, n, f⟩ st m Y = .ok M ∧ cubicalTransform ⟨false, n, f'⟩ st' m Y = .ok M' ∧
      ∀ c ∈ M, ∃ c' ∈ M', ∀ i : Nat, c[i]? = some true → c'[i]? = some true := by
  obtain ⟨ivss, h1, -, h3⟩ := fit_transform_eq _ s st X Y m hX hY hfit
  have hall : ∃ ivss', X.mapM (coverFitLimits ⟨false, n, f'⟩) = .ok ivss' ∧ List.Forall₂ (fun ivs ivs' => ∀ y : List K, Finer (coverMasks ivs y) (coverMasks ivs' y)) ivss ivss' := by
    rw [mapM_ok_iff] at h1
    simp only [mapM_ok_iff]
    clear hX hY hfit h3
    induction h1 with
    | nil => exact ⟨[], .nil, .nil⟩
    | @cons x ivs _ _ hx _ ih =>
      obtain ⟨ivss', h4, h5⟩ := ih
      have hxu : fitUniform n f x = .ok ivs := by simpa [coverFitLimits] using hx
      obtain ⟨hne, hd⟩ := uniform_valid n f x ivs hxu
      obtain ⟨iv, iv', e1, e2, e3, e4, e5, -⟩ := C144_overlap_uniform n hn f f' hf0 hff hf1 x hne (hd.imp (fun h => by omega) id) ⟨none⟩ ⟨none⟩
      unfold coverFit at e1 e2
      rw [hx] at e1
      cases hx' : coverFitLimits ⟨false, n, f'⟩ x with
      | error e => rw [hx'] at e2; cases e2
      | ok z =>
        rw [hx'] at e2
        cases e1
        cases e2
        refine ⟨_ :: ivss', .cons hx' h4, .cons ?_ h5⟩
        intro y a ha _
        obtain ⟨I, hI, rfl⟩ := List.mem_map.mp ha
        obtain ⟨k, hk, hkI⟩ := List.getElem_of_mem hI
        have hk' : k < iv'.length := by rw [e4, ← e3]; exact hk
        refine ⟨_, List.mem_map_of_mem (List.getElem_mem hk'), ?_⟩
        intro i hi
        rw [List.getElem?_map, Option.map_eq_some_iff] at hi ⊢
        obtain ⟨w, hw, hiv⟩ := hi
        exact ⟨w, hw, (inIval_iff _ w).mpr (e5 k I _ (by rw [List.getElem?_eq_getElem hk, hkI]) (List.getElem?_eq_getElem hk') w ((inIval_iff I w).mp hiv))⟩
  obtain ⟨ivss', h1', hR⟩ := hall
  have hfit' : cubicalFit ⟨false, n, f'⟩ s' X = (⟨some (ivss'.map fun ivs => ⟨some ivs⟩)⟩, .ok ()) := by
    unfold cubicalFit
    rw [h1']
  obtain ⟨ivss2, h4, -, h5⟩ := fit_transform_eq _ s' _ X Y m hX hY hfit'
  rw [h1', Except.ok.injEq] at h4
  subst h4
  refine ⟨_, _, _, hfit', h3, h5, ?_⟩
  refine combine_finer m _ _ ?_ (zipMasks_length m Y ivss hm) (zipMasks_length m Y ivss' hm)
  have hl : Y.length = ivss.length := hY.trans (mapM_length h1)
  clear h1 h3 h1' hfit hfit' h5 hm hY hX
  induction hR generalizing Y with
  | nil =>
    rw [List.length_nil, List.length_eq_zero_iff] at hl
    subst hl
    exact .nil
  | cons h _ ih =>
    cases Y with
    | nil => cases hl
    | cons y Y => exact .cons (h y) (ih Y (by simpa using hl))

/-- **C146, overlap of balanced covers**, for `fit_transform`. -/
theorem C146_overlap_balanced (n : Nat) (hn : 1 ≤ n) (f f' : K) (hf0 : 0 < f) (hff : f ≤ f') (hf1 : f' < 1) (s s' : CubicalState K) (m : Nat) (X : List (List K)) (hm : ∀ x ∈ X, x.length = m)
    (M : List (List Bool)) (h : (cubicalFitTransform ⟨true, n, f⟩ s m X).2 = .ok M) :
    ∃ M', (cubicalFitTransform ⟨true, n, f'⟩ s' m X).2 = .ok M' ∧ ∀ c ∈ M, ∃ c' ∈ M', ∀ i : Nat, c[i]? = some true → c'[i]? = some true := by
  obtain ⟨covers, h1, rfl⟩ := (training_iff _ s m X M).mp h
  have hall : ∃ covers', X.mapM (trainMasks ⟨true, n, f'⟩) = .ok covers' ∧ List.Forall₂ Finer covers covers' := by
    rw [mapM_ok_iff] at h1
    simp only [mapM_ok_iff]
    clear h hm
    induction h1 with
    | nil => exact ⟨[], .nil, .nil⟩
    | @cons x cov _ _ hx _ ih =>
      obtain ⟨covers', h4, h5⟩ := ih
      unfold trainMasks at hx
      simp only [if_true] at hx
      cases hb : fitTransformBalanced n f x with
      | error e => rw [hb] at hx; cases hx
      | ok r =>
        obtain ⟨hne, hd⟩ := balanced_valid n f x r hb
        have hd' : n = 1 ∨ ∃ a ∈ x, ∃ b ∈ x, a ≠ b := hd.imp (fun h => by omega) id
        obtain ⟨-, lims, len, -, q1, -, q2, -⟩ := balanced_masks_agree n hn f hf0 (lt_of_le_of_lt hff hf1) x hne hd'
        obtain ⟨-, lims', len', -, q1', -, q2', -⟩ := balanced_masks_agree n hn f' (lt_of_lt_of_le hf0 hff) hf1 x hne hd'
        rw [q2] at hx
        cases hx
        refine ⟨_ :: covers', .cons (by unfold trainMasks; simp only [if_true]; rw [q2']; rfl) h4, .cons ?_ h5⟩
        intro a ha _
        obtain ⟨k, hk, rfl⟩ := List.mem_map.mp ha
        refine ⟨_, List.mem_map_of_mem hk, ?_⟩
        intro i hi
        obtain ⟨e1, e2⟩ := interval_nested n hn f f' hf0 hff hf1 (x.dedup.length : K) len len' (Nat.cast_nonneg _) q1 q1' k (List.mem_range.mp hk)
        unfold rankMask at hi ⊢
        rw [List.getElem?_map, Option.map_eq_some_iff] at hi ⊢
        obtain ⟨w, hw, hiv⟩ := hi
        refine ⟨w, hw, ?_⟩
        rw [Bool.and_eq_true, decide_eq_true_eq, decide_eq_true_eq] at hiv ⊢
        exact ⟨by linarith [hiv.1], by linarith [hiv.2]⟩
  obtain ⟨covers', h2, h3⟩ := hall
  exact ⟨_, (training_iff _ s' m X _).mpr ⟨covers', h2, rfl⟩, combine_finer m covers covers' h3 (coversLength _ m X covers hm h1) (coversLength _ m X covers' hm h2)⟩

/-- **C146, size.** At most `n_intervals ^ n_features` sets are returned; with `overlap_frac ≤ 1/2` each training sample is in at most `2 ^ n_features` of them. -/
theorem C146_size_training (p : CoverParams K) (s : CubicalState K) (m : Nat) (X : List (List K)) (hm : ∀ x ∈ X, x.length = m) (M : List (List Bool)) (h : (cubicalFitTransform p s m X).2 = .ok M) :
    M.length ≤ p.n ^ X.length ∧
      (1 ≤ p.n → 0 < p.f → p.f ≤ 1 / 2 → ∀ i : Nat, (M.filter fun c => decide (c[i]? = some true)).length ≤ 2 ^ X.length) := by
  obtain ⟨covers, h1, rfl⟩ := (training_iff p s m X M).mp h
  have h2 := mapM_ok_iff.mp h1
  rw [mapM_length h1]
  constructor
  · refine combine_count m p.n covers fun cov hcov => ?_
    obtain ⟨x, -, hx⟩ := forall₂_mem_right h2 cov hcov
    exact trainMasks_count p x cov hx
  · intro hn hf0 hf i
    refine combine_count_at m 2 i covers (coversLength p m X covers hm h1) fun cov hcov => ?_
    obtain ⟨x, -, hx⟩ := forall₂_mem_right h2 cov hcov
    exact train_two p hn hf0 hf x cov hx i

/-- The same for data transformed later; the second part for uniform covers. -/
theorem C146_size (p : CoverParams K) (s st : CubicalState K) (m : Nat) (X Y : List (List K)) (hX : X ≠ []) (hY : Y.length = X.length) (hm : ∀ y ∈ Y, y.length = m) (hfit : cubicalFit p s X = (st, .ok ())) :
    ∃ M, cubicalTransform p st m Y = .ok M ∧ M.length ≤ p.n ^ X.length ∧
      (p.balanced = false → 1 ≤ p.n → 0 < p.f → p.f ≤ 1 / 2 → ∀ i : Nat, (M.filter fun c => decide (c[i]? = some true)).length ≤ 2 ^ X.length) := by
  obtain ⟨ivss, h1, -, h3⟩ := fit_transform_eq p s st X Y m hX hY hfit
  have h2 := mapM_ok_iff.mp (zip_mapM p X Y ivss hY h1)
  have hlen : X.length = (List.zipWith (fun y ivs => coverMasks ivs y) Y ivss).length := by
    rw [List.length_zipWith, hY, ← mapM_length h1, min_self]
  have hcov : ∀ cov ∈ List.zipWith (fun y ivs => coverMasks ivs y) Y ivss, ∃ x y ivs, coverFitLimits p x = .ok ivs ∧ cov = coverMasks ivs y := by
    intro cov hcov
    obtain ⟨q, -, hq⟩ := forall₂_mem_right h2 cov hcov
    cases hc : coverFitLimits p q.1 with
    | error e => rw [hc] at hq; cases hq
    | ok ivs =>
      rw [hc] at hq
      cases hq
      exact ⟨q.1, q.2, ivs, hc, rfl⟩
  refine ⟨_, h3, ?_, ?_⟩
  · rw [hlen]
    refine combine_count m p.n _ fun cov hc => ?_
    obtain ⟨x, y, ivs, h4, rfl⟩ := hcov cov hc
    unfold coverMasks
    rw [List.length_map]
    exact limits_length p x ivs h4
  · intro hb hn hf0 hf i
    rw [hlen]
    refine combine_count_at m 2 i _ (zipMasks_length m Y ivss hm) fun cov hc => ?_
    obtain ⟨x, y, ivs, h4, rfl⟩ := hcov cov hc
    unfold coverFitLimits at h4
    rw [hb] at h4
    exact uniform_two p.n hn p.f hf0 hf x y ivs h4 i

/-- **C146, one feature.** On one feature a `CubicalCover` returns what a `OneDimensionalCover` returns, sets in the same order, or raises the same exception; after `fit` also on later data. -/
theorem C146_one_feature (p : CoverParams K) (s : CubicalState K) (t : CoverState K) (x : List K) :
    (cubicalFitTransform p s x.length [x]).2 = (coverFitTransform p t x).2 ∧ (cubicalFit p s [x]).2 = (coverFit p t x).2 ∧
      ((cubicalFit p s [x]).2 = .ok () → ∀ y : List K, cubicalTransform p (cubicalFit p s [x]).1 y.length [y] = coverTransform (coverFit p t x).1 y) := by
  have hcomb : ∀ (m : Nat) (cov : List (List Bool)), (∀ a ∈ cov, a.length = m) → combineCovers m [cov] = cleanMasks cov := by
    intro m cov hl
    unfold combineCovers
    congr 1
    simp only [cartesian, List.map_cons, List.map_nil]
    rw [← List.map_eq_flatMap, List.map_map]
    conv_rhs => rw [← List.map_id cov]
    refine List.map_congr_left fun a ha => ?_
    obtain ⟨h1, h2⟩ := andColumns_get m [a] (fun c hc => by rw [List.mem_singleton.mp hc]; exact hl a ha)
    exact bool_ext h1 (hl a ha) fun i hi => by
      rw [Function.comp_apply, h2 i hi]
      simp
  have hmasks : ∀ (ivs : List (Ival K)) (y : List K), ∀ a ∈ coverMasks ivs y, a.length = y.length := by
    intro ivs y a ha
    obtain ⟨I, -, rfl⟩ := List.mem_map.mp ha
    exact List.length_map _
  refine ⟨?_, ?_, ?_⟩
  · unfold cubicalFitTransform coverFitTransform
    cases hb : p.balanced with
    | true =>
      simp only [if_true]
      rw [List.mapM_cons]
      cases hc : fitTransformBalanced p.n p.f x with
      | error e => rfl
      | ok r =>
        have := trainMasks_length p x r.1 (by unfold trainMasks; rw [if_pos hb, hc]; rfl)
        exact congrArg Except.ok (hcomb x.length r.1 this)
    | false =>
      simp only [Bool.false_eq_true, if_false]
      rw [List.mapM_cons]
      have e : coverFitLimits p x = fitUniform p.n p.f x := by
        unfold coverFitLimits
        rw [hb]
        rfl
      rw [e]
      cases hc : fitUniform p.n p.f x with
      | error e => rfl
      | ok ivs =>
        change cubicalMasks x.length [⟨some ivs⟩] [x] = .ok (cleanMasks (coverMasks ivs x))
        rw [← hcomb x.length _ (hmasks ivs x)]
        exact cubicalMasks_ok x.length [ivs] [x] rfl
  · unfold cubicalFit coverFit
    rw [List.mapM_cons]
    cases coverFitLimits p x with
    | error e => rfl
    | ok ivs => rfl
  · intro h y
    unfold cubicalFit coverFit at *
    rw [List.mapM_cons] at *
    cases hc : coverFitLimits p x with
    | error e => rw [hc] at h; cases h
    | ok ivs =>
      change cubicalTransform p ⟨some [⟨some ivs⟩]⟩ y.length [y] = .ok (cleanMasks (coverMasks ivs y))
      rw [← hcomb y.length _ (hmasks ivs y), show combineCovers y.length [coverMasks ivs y] = combineCovers y.length (List.zipWith (fun y ivs => coverMasks ivs y) [y] [ivs]) from rfl]
      rw [← cubicalMasks_ok y.length [ivs] [y] rfl]
      unfold cubicalTransform
      simp

end

/-- Non-vacuity of the theorems above, and **the order of the sets does depend on the order of the features**: two features, and the same in opposite order. -/
theorem C146_refuted_set_order :
    (cubicalFitTransform ⟨false, 2, (1 / 10 : ℚ)⟩ ⟨none⟩ 4 [[0, 0, 1, 1], [0, 1, 0, 1]]).2 =
        .ok [[true, false, false, false], [false, true, false, false], [false, false, true, false], [false, false, false, true]] ∧
      (cubicalFitTransform ⟨false, 2, (1 / 10 : ℚ)⟩ ⟨none⟩ 4 [[0, 1, 0, 1], [0, 0, 1, 1]]).2 =
        .ok [[true, false, false, false], [false, false, true, false], [false, true, false, false], [false, false, false, true]] ∧
      (cubicalFitTransform ⟨false, 2, (1 / 10 : ℚ)⟩ ⟨none⟩ 4 [[0, 0, 1, 1]]).2 = .ok [[true, true, false, false], [false, false, true, true]] := by
  refine ⟨?_, ?_, ?_⟩ <;> decide +kernel

/-- Non-vacuity of the theorems on overlap and size: a larger overlap adds the sample in the middle to more sets; **the bound `2 ^ n_features` fails for `overlap_frac = 3/4`**, where the sample in the middle is in three intervals. -/
theorem C146_refuted_large_overlap :
    (cubicalFitTransform ⟨false, 2, (1 / 10 : ℚ)⟩ ⟨none⟩ 3 [[0, 4, 10], [0, 6, 10]]).2 = .ok [[true, false, false], [false, true, false], [false, false, true]] ∧
      (cubicalFitTransform ⟨false, 2, (1 / 2 : ℚ)⟩ ⟨none⟩ 3 [[0, 5, 10], [0, 5, 10]]).2 = .ok [[true, true, false], [false, true, false], [false, true, true]] ∧
      (cubicalFitTransform ⟨false, 3, (3 / 4 : ℚ)⟩ ⟨none⟩ 3 [[0, 5, 10]]).2 = .ok [[true, true, false], [false, true, false], [false, true, true]] := by
  refine ⟨?_, ?_, ?_⟩ <;> decide +kernel

/-- Non-vacuity of `C146_overlap_balanced`, and of `C146_feature_order` for later data. -/
example : (cubicalFitTransform ⟨true, 2, (1 / 10 : ℚ)⟩ ⟨none⟩ 4 [[3, 1, 2, 8], [5, 6, 7, 9]]).2 = .ok [[false, true, false, false], [false, false, true, false], [true, false, false, false], [false, false, false, true]] ∧
    (cubicalFitTransform ⟨true, 2, (1 / 2 : ℚ)⟩ ⟨none⟩ 4 [[3, 1, 2, 8], [5, 6, 7, 9]]).2 = .ok [[true, true, true, false], [false, true, true, false], [true, false, true, false], [false, false, true, true]] ∧
    ([[0, 0, 1], [0, 1, 2]].zip [[7], [(8 : ℚ)]]).Perm ([[0, 1, 2], [0, 0, 1]].zip [[8], [7]]) ∧ (cubicalFit ⟨true, 2, (1 / 10 : ℚ)⟩ ⟨none⟩ [[0, 0, 1], [0, 1, 2]]).2 = .ok () := by
  refine ⟨?_, ?_, ?_, ?_⟩ <;> decide +kernel

end Gtda.Props
