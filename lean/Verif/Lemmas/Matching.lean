import Verif.Spec.Matching
import Verif.Lemmas.Distances
import Verif.Props.Amplitudes
import Mathlib.Data.Fintype.List
import Mathlib.Data.Set.Finite.List

set_option autoImplicit false
set_option linter.unusedSectionVars false

/-!
# Matchings of diagrams: gluing, minimum, norms
-/

namespace Gtda.Props
open Gtda.Py Gtda.Parallel Gtda.Diagrams

variable {Q : Type}

theorem gap_nonneg (x y : Option (Pt ℝ Q)) : 0 ≤ gap x y := by
  cases x <;> cases y <;> simp only [gap]
  · exact le_rfl
  · positivity
  · positivity
  · exact le_trans (abs_nonneg _) (le_max_left _ _)

theorem gap_symm (x y : Option (Pt ℝ Q)) : gap x y = gap y x := by
  cases x <;> cases y <;> simp only [gap]
  rw [abs_sub_comm, abs_sub_comm (Pt.d _)]

theorem gap_triangle (x y z : Option (Pt ℝ Q)) (h : y = none → x = none ∨ z = none) :
    gap x z ≤ gap x y + gap y z := by
  cases y with
  | none =>
      rcases h rfl with rfl | rfl
      · cases z <;> simp [gap]
      · cases x <;> simp [gap]
  | some y =>
      have key : ∀ u v : Pt ℝ Q, |u.d - u.b| / 2 ≤ max |u.b - v.b| |u.d - v.d| + |v.d - v.b| / 2 := by
        intro u v
        have h1 := le_max_left |u.b - v.b| |u.d - v.d|
        have h2 := le_max_right |u.b - v.b| |u.d - v.d|
        have h3 : |u.d - u.b| ≤ |u.d - v.d| + |v.d - v.b| + |u.b - v.b| := by
          have e : u.d - u.b = (u.d - v.d) + (v.d - v.b) - (u.b - v.b) := by ring
          rw [e]
          exact le_trans (abs_sub _ _) (add_le_add_left (abs_add_le _ _) _)
        linarith
      cases x with
      | none =>
          cases z with
          | none =>
              simp only [gap]
              positivity
          | some z =>
              simp only [gap]
              have := key z y
              rw [abs_sub_comm z.b, abs_sub_comm z.d y.d] at this
              linarith
      | some x =>
          cases z with
          | none =>
              simp only [gap]
              exact key x y
          | some z =>
              simp only [gap]
              apply max_le
              · exact le_trans (abs_sub_le _ y.b _) (add_le_add (le_max_left _ _) (le_max_left _ _))
              · exact le_trans (abs_sub_le _ y.d _) (add_le_add (le_max_right _ _) (le_max_right _ _))

/-! ### Norms -/

theorem lpNorm_perm (p : ENNReal) (hp : 0 < p) {u v : List ℝ} (h : u.Perm v) : lpNorm p u = lpNorm p v := by
  rw [← pNorm_eq p hp, ← pNorm_eq p hp, pNorm_perm p h]

theorem lpNorm_zeros (p : ENNReal) (hp : 0 < p) (v : List ℝ) (n : Nat) :
    lpNorm p (v ++ List.replicate n 0) = lpNorm p v := by
  rw [← pNorm_eq p hp, ← pNorm_eq p hp, pNorm_zeros p hp]

theorem lpNorm_perm_zeros (p : ENNReal) (hp : 0 < p) {u v : List ℝ} (n : Nat)
    (h : u.Perm (v ++ List.replicate n 0)) : lpNorm p u = lpNorm p v := by
  rw [lpNorm_perm p hp h, lpNorm_zeros p hp]

theorem mem_le_lpNorm (p : ENNReal) (hp : 0 < p) (v : List ℝ) (x : ℝ) (hx : x ∈ v) : |x| ≤ lpNorm p v := by
  obtain ⟨s, t, rfl⟩ := List.append_of_mem hx
  have h1 : lpNorm p [|x|] ≤ lpNorm p ((s ++ x :: t).map fun y => |y|) := by
    have e : ([|x|] ++ List.replicate (s ++ t).length 0 : List ℝ) =
        |x| :: (s ++ t).map fun _ => (0 : ℝ) := by
      rw [List.map_const']
      rfl
    have e2 : ((s ++ x :: t).map fun y => |y|).Perm (|x| :: (s ++ t).map fun y => |y|) := by
      simp
    rw [← lpNorm_zeros p hp [|x|] (s ++ t).length, e, lpNorm_perm p hp e2]
    apply lpNorm_mono p hp
    refine List.Forall₂.cons ⟨abs_nonneg x, le_rfl⟩ ?_
    rw [List.forall₂_map_left_iff, List.forall₂_map_right_iff, List.forall₂_same]
    intro y _
    exact ⟨le_rfl, abs_nonneg y⟩
  have h2 : ∀ w : List ℝ, lpNorm p (w.map fun y => |y|) = lpNorm p w := by
    intro w
    rw [← pNorm_eq p hp, ← pNorm_eq p hp]
    unfold pNorm
    simp [Function.comp_def]
  have h3 : lpNorm p [|x|] = |x| := by
    rw [← pNorm_eq p hp]
    unfold pNorm
    split
    · simp
    · rename_i hne
      have : p.toReal ≠ 0 := (ENNReal.toReal_pos hp.ne' hne).ne'
      simp only [List.map_cons, List.map_nil, List.sum_cons, List.sum_nil, add_zero, abs_abs]
      rw [← Real.rpow_mul (abs_nonneg x), mul_one_div_cancel this, Real.rpow_one]
  rw [h3, h2] at h1
  exact h1

/-! ### Gluing matchings -/

theorem filterMap_cons_perm {α β : Type} (f : α → Option β) (l : List α) (b : β) (t : List β)
    (h : (l.filterMap f).Perm (b :: t)) :
    ∃ a l', f a = some b ∧ l.Perm (a :: l') ∧ (l'.filterMap f).Perm t := by
  have hb : b ∈ l.filterMap f := h.mem_iff.mpr (by simp)
  obtain ⟨a, ha, hab⟩ := List.mem_filterMap.mp hb
  obtain ⟨s, r, rfl⟩ := List.append_of_mem ha
  refine ⟨a, s ++ r, hab, by simp, ?_⟩
  have h2 : ((s ++ a :: r).filterMap f).Perm (b :: (s ++ r).filterMap f) := by
    have : (s ++ a :: r).Perm (a :: (s ++ r)) := by simp
    have := this.filterMap f
    rwa [List.filterMap_cons, hab] at this
  exact (List.perm_cons b).mp (h2.symm.trans h)

theorem filterMap_nil_none {α β : Type} (f : α → Option β) (l : List α) (h : l.filterMap f = []) :
    ∀ a ∈ l, f a = none := by
  rwa [List.filterMap_eq_nil_iff] at h

/-- Two matchings with a common diagram in the middle, glued along it. -/
theorem glue (E : List (Pt ℝ Q)) : ∀ (M N : List (Option (Pt ℝ Q) × Option (Pt ℝ Q))),
    (M.filterMap Prod.snd).Perm E → (N.filterMap Prod.fst).Perm E →
    ∃ C : List (Option (Pt ℝ Q) × Option (Pt ℝ Q) × Option (Pt ℝ Q)),
      (C.filterMap fun c => c.1).Perm (M.filterMap Prod.fst) ∧
      (C.filterMap fun c => c.2.2).Perm (N.filterMap Prod.snd) ∧
      (∀ c ∈ C, c.2.1 = none → c.1 = none ∨ c.2.2 = none) ∧
      (∃ n, (C.map fun c => gap c.1 c.2.1).Perm ((M.map fun m => gap m.1 m.2) ++ List.replicate n 0)) ∧
      (∃ n, (C.map fun c => gap c.2.1 c.2.2).Perm
        ((N.map fun m => gap m.1 m.2) ++ List.replicate n 0)) := by
  induction E with
  | nil =>
      intro M N hM hN
      have hM' := filterMap_nil_none _ M (List.perm_nil.mp hM)
      have hN' := filterMap_nil_none _ N (List.perm_nil.mp hN)
      refine ⟨(M.map fun m => (m.1, none, none)) ++ (N.map fun m => (none, none, m.2)), ?_, ?_, ?_,
        ⟨N.length, ?_⟩, ⟨M.length, ?_⟩⟩
      · simp [List.filterMap_append, List.filterMap_map]
      · simp [List.filterMap_append, List.filterMap_map]
      · intro c hc _
        rcases List.mem_append.mp hc with hc | hc
        · obtain ⟨m, _, rfl⟩ := List.mem_map.mp hc
          exact .inr rfl
        · obtain ⟨m, _, rfl⟩ := List.mem_map.mp hc
          exact .inl rfl
      · rw [List.map_append, List.map_map, List.map_map]
        have e1 : (M.map ((fun c : Option (Pt ℝ Q) × Option (Pt ℝ Q) × Option (Pt ℝ Q) => gap c.1 c.2.1) ∘
            fun m => (m.1, none, none))) = M.map fun m => gap m.1 m.2 := by
          apply List.map_congr_left
          intro m hm
          simp only [Function.comp]
          rw [hM' m hm]
        have e2 : (N.map ((fun c : Option (Pt ℝ Q) × Option (Pt ℝ Q) × Option (Pt ℝ Q) => gap c.1 c.2.1) ∘
            fun m => (none, none, m.2))) = List.replicate N.length 0 := by
          rw [← List.map_const']
          rfl
        rw [e1, e2]
      · rw [List.map_append, List.map_map, List.map_map]
        have e1 : (N.map ((fun c : Option (Pt ℝ Q) × Option (Pt ℝ Q) × Option (Pt ℝ Q) => gap c.2.1 c.2.2) ∘
            fun m => (none, none, m.2))) = N.map fun m => gap m.1 m.2 := by
          apply List.map_congr_left
          intro m hm
          simp only [Function.comp]
          rw [hN' m hm]
        have e2 : (M.map ((fun c : Option (Pt ℝ Q) × Option (Pt ℝ Q) × Option (Pt ℝ Q) => gap c.2.1 c.2.2) ∘
            fun m => (m.1, none, none))) = List.replicate M.length 0 := by
          rw [← List.map_const']
          rfl
        rw [e1, e2]
        exact List.perm_append_comm
  | cons e E ih =>
      intro M N hM hN
      obtain ⟨⟨x, y⟩, M', hy, pM, hM'⟩ := filterMap_cons_perm _ M e E hM
      obtain ⟨⟨y', z⟩, N', hy', pN, hN'⟩ := filterMap_cons_perm _ N e E hN
      simp only at hy hy'
      subst hy hy'
      obtain ⟨C, c1, c2, c3, ⟨n1, c4⟩, ⟨n2, c5⟩⟩ := ih M' N' hM' hN'
      refine ⟨(x, some e, z) :: C, ?_, ?_, ?_, ⟨n1, ?_⟩, ⟨n2, ?_⟩⟩
      · refine List.Perm.trans ?_ (pM.filterMap _).symm
        rw [List.filterMap_cons, List.filterMap_cons]
        cases x with
        | none => exact c1
        | some x => exact c1.cons x
      · refine List.Perm.trans ?_ (pN.filterMap _).symm
        rw [List.filterMap_cons, List.filterMap_cons]
        cases z with
        | none => exact c2
        | some z => exact c2.cons z
      · intro c hc
        rcases List.mem_cons.mp hc with rfl | hc
        · intro h
          cases h
        · exact c3 c hc
      · refine List.Perm.trans ?_ ((pM.map _).symm.append_right _)
        rw [List.map_cons, List.map_cons, List.cons_append]
        exact c4.cons _
      · refine List.Perm.trans ?_ ((pN.map _).symm.append_right _)
        rw [List.map_cons, List.map_cons, List.cons_append]
        exact c5.cons _

theorem totalPrice_glue (p : ENNReal) (hp : 1 ≤ p) (D E F : List (Pt ℝ Q))
    (M N : List (Option (Pt ℝ Q) × Option (Pt ℝ Q))) (hM : IsMatching D E M) (hN : IsMatching E F N) :
    ∃ P, IsMatching D F P ∧ totalPrice p P ≤ totalPrice p M + totalPrice p N := by
  have hpos : 0 < p := lt_of_lt_of_le one_pos hp
  obtain ⟨C, c1, c2, c3, ⟨n1, c4⟩, ⟨n2, c5⟩⟩ := glue E M N hM.right hN.left
  refine ⟨C.map fun c => (c.1, c.2.2), ⟨?_, ?_⟩, ?_⟩
  · rw [List.filterMap_map]
    exact c1.trans hM.left
  · rw [List.filterMap_map]
    exact c2.trans hN.right
  · unfold totalPrice
    rw [← lpNorm_perm_zeros p hpos n1 c4, ← lpNorm_perm_zeros p hpos n2 c5, List.map_map]
    refine le_trans (lpNorm_mono p hpos ?_) (lpNorm_add_le p hp C _ _)
    rw [List.forall₂_map_left_iff, List.forall₂_map_right_iff, List.forall₂_same]
    intro c hc
    exact ⟨gap_nonneg _ _, gap_triangle _ _ _ (c3 c hc)⟩

/-! ### The minimum -/

theorem isMatching_apart (D E : List (Pt ℝ Q)) :
    IsMatching D E ((D.map fun x => (some x, none)) ++ (E.map fun y => (none, some y))) := by
  constructor <;> simp [List.filterMap_append, List.filterMap_map]

theorem isMatching_swap {D E : List (Pt ℝ Q)} {M : List (Option (Pt ℝ Q) × Option (Pt ℝ Q))}
    (h : IsMatching D E M) : IsMatching E D (M.map Prod.swap) := by
  constructor
  · rw [List.filterMap_map]
    exact h.right
  · rw [List.filterMap_map]
    exact h.left

theorem totalPrice_swap (p : ENNReal) (M : List (Option (Pt ℝ Q) × Option (Pt ℝ Q))) :
    totalPrice p (M.map Prod.swap) = totalPrice p M := by
  unfold totalPrice
  rw [List.map_map]
  congr 1
  apply List.map_congr_left
  intro m _
  exact gap_symm _ _

/-- Without the pairs of nothing with nothing. -/
def proper (M : List (Option (Pt ℝ Q) × Option (Pt ℝ Q))) : List (Option (Pt ℝ Q) × Option (Pt ℝ Q)) :=
  M.filter fun m => m.1.isSome || m.2.isSome

theorem proper_spec (M : List (Option (Pt ℝ Q) × Option (Pt ℝ Q))) :
    (proper M).filterMap Prod.fst = M.filterMap Prod.fst ∧
    (proper M).filterMap Prod.snd = M.filterMap Prod.snd ∧
    (proper M).length ≤ (M.filterMap Prod.fst).length + (M.filterMap Prod.snd).length ∧
    ∃ n, (M.map fun m => gap m.1 m.2).Perm (((proper M).map fun m => gap m.1 m.2) ++ List.replicate n 0) := by
  induction M with
  | nil => exact ⟨rfl, rfl, le_rfl, 0, List.Perm.refl _⟩
  | cons m M ih =>
      obtain ⟨h1, h2, h3, n, h4⟩ := ih
      have hc : proper (m :: M) = if m.1.isSome || m.2.isSome then m :: proper M else proper M := by
        unfold proper
        rw [List.filter_cons]
      obtain ⟨x, y⟩ := m
      cases x with
      | none =>
          cases y with
          | none =>
              rw [hc]
              simp only [Option.isSome_none, Bool.or_self, Bool.false_eq_true, if_false]
              refine ⟨by simpa using h1, by simpa using h2, by simpa using h3, n + 1, ?_⟩
              rw [List.map_cons, List.replicate_succ]
              exact (h4.cons _).trans List.perm_middle.symm
          | some y =>
              rw [hc]
              simp only [Option.isSome_none, Option.isSome_some, Bool.or_true, if_true]
              refine ⟨by simpa using h1, by simpa using h2, ?_, n, ?_⟩
              · simp only [List.length_cons, List.filterMap_cons]
                omega
              · rw [List.map_cons, List.map_cons, List.cons_append]
                exact h4.cons _
      | some x =>
          rw [hc]
          simp only [Option.isSome_some, Bool.true_or, if_true]
          refine ⟨by simpa using h1, ?_, ?_, n, ?_⟩
          · cases y with
            | none => simpa using h2
            | some y => simpa using h2
          · cases y with
            | none =>
                simp only [List.length_cons, List.filterMap_cons]
                omega
            | some y =>
                simp only [List.length_cons, List.filterMap_cons]
                omega
          · rw [List.map_cons, List.map_cons, List.cons_append]
            exact h4.cons _

theorem isMatching_proper {D E : List (Pt ℝ Q)} {M : List (Option (Pt ℝ Q) × Option (Pt ℝ Q))}
    (h : IsMatching D E M) : IsMatching D E (proper M) := by
  obtain ⟨h1, h2, _⟩ := proper_spec M
  exact ⟨by rw [h1]; exact h.left, by rw [h2]; exact h.right⟩

theorem totalPrice_proper (p : ENNReal) (hp : 0 < p) (M : List (Option (Pt ℝ Q) × Option (Pt ℝ Q))) :
    totalPrice p (proper M) = totalPrice p M := by
  obtain ⟨_, _, _, n, h⟩ := proper_spec M
  unfold totalPrice
  rw [lpNorm_perm_zeros p hp n h]

/-- The finitely many things that can be on one side of a pair. -/
def sides (D : List (Pt ℝ Q)) : Set (Option (Pt ℝ Q)) := {o | ∀ x, o = some x → x ∈ D}

theorem sides_finite (D : List (Pt ℝ Q)) : (sides D).Finite := by
  have : sides D ⊆ {o | o ∈ none :: D.map some} := by
    intro o ho
    cases o with
    | none => simp
    | some x =>
        have := ho x rfl
        simpa using this
  exact (List.finite_toSet _).subset this

theorem exists_min (p : ENNReal) (hp : 0 < p) (D E : List (Pt ℝ Q)) :
    ∃ M, IsMatching D E M ∧ ∀ N, IsMatching D E N → totalPrice p M ≤ totalPrice p N := by
  have hT : (sides D ×ˢ sides E).Finite := (sides_finite D).prod (sides_finite E)
  have hfin : {M : List (Option (Pt ℝ Q) × Option (Pt ℝ Q)) |
      M.length ≤ D.length + E.length ∧ ∀ m ∈ M, m ∈ sides D ×ˢ sides E}.Finite := by
    have : Finite (sides D ×ˢ sides E) := hT
    refine ((List.finite_length_le (sides D ×ˢ sides E) (D.length + E.length)).image
      (List.map Subtype.val)).subset ?_
    rintro M ⟨h1, h2⟩
    refine ⟨M.attach.map fun m => ⟨m.1, h2 m.1 m.2⟩, ?_, ?_⟩
    · simpa using h1
    · rw [List.map_map]
      exact List.attach_map_subtype_val M
  have hin : ∀ N, IsMatching D E N → proper N ∈ {M : List (Option (Pt ℝ Q) × Option (Pt ℝ Q)) |
      M.length ≤ D.length + E.length ∧ ∀ m ∈ M, m ∈ sides D ×ˢ sides E} := by
    intro N hN
    obtain ⟨h1, h2, h3, _⟩ := proper_spec N
    refine ⟨?_, ?_⟩
    · rw [hN.left.length_eq, hN.right.length_eq] at h3
      exact h3
    · intro m hm
      have hN' := isMatching_proper hN
      refine ⟨fun x hx => ?_, fun x hx => ?_⟩
      · exact hN'.left.mem_iff.mp (List.mem_filterMap.mpr ⟨m, hm, hx⟩)
      · exact hN'.right.mem_iff.mp (List.mem_filterMap.mpr ⟨m, hm, hx⟩)
  have hfin2 : {M | ∃ N, IsMatching D E N ∧ proper N = M}.Finite := hfin.subset (by
    rintro M ⟨N, hN, rfl⟩
    exact hin N hN)
  obtain ⟨M, ⟨M₀, hM₀, rfl⟩, hmin⟩ := Set.exists_min_image _ (totalPrice p) hfin2
    ⟨_, _, isMatching_apart D E, rfl⟩
  refine ⟨proper M₀, isMatching_proper hM₀, fun N hN => ?_⟩
  have := hmin (proper N) ⟨N, hN, rfl⟩
  rwa [totalPrice_proper p hp N] at this

theorem matchingDistance_isLeast (p : ENNReal) (hp : 0 < p) (D E : List (Pt ℝ Q)) :
    IsLeast {r | ∃ M, IsMatching D E M ∧ r = totalPrice p M} (matchingDistance p D E) := by
  obtain ⟨M, hM, hmin⟩ := exists_min p hp D E
  have h : IsLeast {r | ∃ M, IsMatching D E M ∧ r = totalPrice p M} (totalPrice p M) :=
    ⟨⟨M, hM, rfl⟩, by
      rintro r ⟨N, hN, rfl⟩
      exact hmin N hN⟩
  unfold matchingDistance
  rw [h.csInf_eq]
  exact h

theorem matchingDistance_le (p : ENNReal) (hp : 0 < p) {D E : List (Pt ℝ Q)}
    {M : List (Option (Pt ℝ Q) × Option (Pt ℝ Q))} (h : IsMatching D E M) :
    matchingDistance p D E ≤ totalPrice p M := (matchingDistance_isLeast p hp D E).2 ⟨M, h, rfl⟩

theorem matchingDistance_attained (p : ENNReal) (hp : 0 < p) (D E : List (Pt ℝ Q)) :
    ∃ M, IsMatching D E M ∧ matchingDistance p D E = totalPrice p M :=
  (matchingDistance_isLeast p hp D E).1

theorem matchingDistance_nonneg (p : ENNReal) (hp : 0 < p) (D E : List (Pt ℝ Q)) :
    0 ≤ matchingDistance p D E := by
  obtain ⟨M, _, h⟩ := matchingDistance_attained p hp D E
  rw [h]
  exact lpNorm_nonneg _ _

theorem matchingDistance_triangle (p : ENNReal) (hp : 1 ≤ p) (D E F : List (Pt ℝ Q)) :
    matchingDistance p D F ≤ matchingDistance p D E + matchingDistance p E F := by
  have hpos : 0 < p := lt_of_lt_of_le one_pos hp
  obtain ⟨M, hM, e1⟩ := matchingDistance_attained p hpos D E
  obtain ⟨N, hN, e2⟩ := matchingDistance_attained p hpos E F
  obtain ⟨P, hP, h⟩ := totalPrice_glue p hp D E F M N hM hN
  rw [e1, e2]
  exact le_trans (matchingDistance_le p hpos hP) h

theorem matchingDistance_symm (p : ENNReal) (hp : 0 < p) (D E : List (Pt ℝ Q)) :
    matchingDistance p D E = matchingDistance p E D := by
  have key : ∀ D E : List (Pt ℝ Q), matchingDistance p D E ≤ matchingDistance p E D := by
    intro D E
    obtain ⟨M, hM, e⟩ := matchingDistance_attained p hp E D
    rw [e, ← totalPrice_swap]
    exact matchingDistance_le p hp (isMatching_swap hM)
  exact le_antisymm (key D E) (key E D)

/-- Births and deaths of the points off the diagonal. -/
noncomputable def features (D : List (Pt ℝ Q)) : List (ℝ × ℝ) := (offDiag D).map fun x => (x.b, x.d)

theorem features_perm {D E : List (Pt ℝ Q)} (h : D.Perm E) : (features D).Perm (features E) :=
  (h.filter _).map _

theorem totalPrice_zero (p : ENNReal) (hp : 0 < p) (M : List (Option (Pt ℝ Q) × Option (Pt ℝ Q))) :
    totalPrice p M = 0 ↔ ∀ m ∈ M, gap m.1 m.2 = 0 := by
  constructor
  · intro h m hm
    have := mem_le_lpNorm p hp (M.map fun m => gap m.1 m.2) (gap m.1 m.2) (List.mem_map.mpr ⟨m, hm, rfl⟩)
    unfold totalPrice at h
    rw [h] at this
    exact abs_eq_zero.mp (le_antisymm this (abs_nonneg _))
  · intro h
    apply lpNorm_of_zero p hp
    intro x hx
    obtain ⟨m, hm, rfl⟩ := List.mem_map.mp hx
    exact h m hm

theorem features_of_zero (M : List (Option (Pt ℝ Q) × Option (Pt ℝ Q)))
    (h : ∀ m ∈ M, gap m.1 m.2 = 0) :
    features (M.filterMap Prod.fst) = features (M.filterMap Prod.snd) := by
  induction M with
  | nil => rfl
  | cons m M ih =>
      have ih' := ih fun m hm => h m (by simp [hm])
      have hm := h m (by simp)
      unfold features offDiag at ih' ⊢
      obtain ⟨x, y⟩ := m
      have half : ∀ u : Pt ℝ Q, |u.d - u.b| / 2 = 0 → u.b = u.d := by
        intro u hu
        have : u.d - u.b = 0 := abs_eq_zero.mp (by linarith)
        linarith
      cases x with
      | none =>
          cases y with
          | none => simpa using ih'
          | some y =>
              have := half y hm
              simp only [List.filterMap_cons, List.filter_cons, this, ne_eq, not_true_eq_false,
                decide_false, Bool.false_eq_true, if_false]
              exact ih'
      | some x =>
          cases y with
          | none =>
              have := half x hm
              simp only [List.filterMap_cons, List.filter_cons, this, ne_eq, not_true_eq_false,
                decide_false, Bool.false_eq_true, if_false]
              exact ih'
          | some y =>
              simp only [gap] at hm
              have h1 : |x.b - y.b| ≤ 0 := hm ▸ le_max_left _ _
              have h2 : |x.d - y.d| ≤ 0 := hm ▸ le_max_right _ _
              have e1 : x.b = y.b := by
                have := abs_eq_zero.mp (le_antisymm h1 (abs_nonneg _))
                linarith
              have e2 : x.d = y.d := by
                have := abs_eq_zero.mp (le_antisymm h2 (abs_nonneg _))
                linarith
              simp only [List.filterMap_cons, List.filter_cons, e1, e2]
              by_cases hd : y.b = y.d
              · simp only [hd, ne_eq, not_true_eq_false, decide_false, Bool.false_eq_true, if_false]
                exact ih'
              · simp only [hd, ne_eq, not_false_eq_true, decide_true, if_true, List.map_cons, e1, e2,
                  ih']

/-- Lists of points with pairwise the same coordinates match at no price. -/
theorem matching_of_same (D E : List (Pt ℝ Q)) :
    ((D.map fun x => (x.b, x.d)).Perm (E.map fun x => (x.b, x.d))) →
    ∃ M, IsMatching D E M ∧ ∀ m ∈ M, gap m.1 m.2 = 0 := by
  induction D generalizing E with
  | nil =>
      intro h
      have : E = [] := by simpa using h
      subst this
      exact ⟨[], ⟨List.Perm.refl _, List.Perm.refl _⟩, by simp⟩
  | cons x D ih =>
      intro h
      have hx : (x.b, x.d) ∈ E.map fun x => (x.b, x.d) := h.mem_iff.mp (by simp)
      obtain ⟨y, hy, e⟩ := List.mem_map.mp hx
      obtain ⟨s, t, rfl⟩ := List.append_of_mem hy
      have p1 : (s ++ y :: t).Perm (y :: (s ++ t)) := by simp
      have h' := h.trans (p1.map _)
      rw [List.map_cons, List.map_cons, e, List.perm_cons] at h'
      obtain ⟨M, hM, hz⟩ := ih (s ++ t) h'
      refine ⟨(some x, some y) :: M, ⟨?_, ?_⟩, ?_⟩
      · exact hM.left.cons x
      · exact (hM.right.cons y).trans p1.symm
      · intro m hm
        rcases List.mem_cons.mp hm with rfl | hm
        · simp only [Prod.mk.injEq] at e
          simp [gap, e.1, e.2]
        · exact hz m hm

theorem matchingDistance_zero (p : ENNReal) (hp : 0 < p) (D E : List (Pt ℝ Q)) :
    matchingDistance p D E = 0 ↔ (features D).Perm (features E) := by
  constructor
  · intro h
    obtain ⟨M, hM, e⟩ := matchingDistance_attained p hp D E
    rw [e, totalPrice_zero p hp] at h
    have := features_of_zero M h
    refine (features_perm hM.left).symm.trans ?_
    rw [this]
    exact features_perm hM.right
  · intro h
    obtain ⟨M, hM, hz⟩ := matching_of_same (offDiag D) (offDiag E) h
    have hD := perm_offDiag D
    have hE := perm_offDiag E
    have hm : IsMatching D E (M ++
        ((D.filter fun x => decide (x.b = x.d)).map fun x => (some x, none)) ++
        ((E.filter fun x => decide (x.b = x.d)).map fun y => (none, some y))) := by
      constructor
      · simp only [List.filterMap_append, List.filterMap_map, Function.comp_def]
        refine List.Perm.trans ?_ ((hD.trans List.perm_append_comm).symm)
        simpa using hM.left.append_right _
      · simp only [List.filterMap_append, List.filterMap_map, Function.comp_def]
        refine List.Perm.trans ?_ ((hE.trans List.perm_append_comm).symm)
        simpa using hM.right.append_right _
    refine le_antisymm (le_trans (matchingDistance_le p hp hm) (le_of_eq ?_))
      (matchingDistance_nonneg p hp D E)
    rw [totalPrice_zero p hp]
    intro m hm
    rcases List.mem_append.mp hm with hm | hm
    · rcases List.mem_append.mp hm with hm | hm
      · exact hz m hm
      · obtain ⟨x, hx, rfl⟩ := List.mem_map.mp hm
        have := (List.mem_filter.mp hx).2
        simp only [decide_eq_true_eq] at this
        simp [gap, this]
    · obtain ⟨x, hx, rfl⟩ := List.mem_map.mp hm
      have := (List.mem_filter.mp hx).2
      simp only [decide_eq_true_eq] at this
      simp [gap, this]

/-- Only the points off the diagonal matter. -/
theorem matchingDistance_congr (p : ENNReal) (hp : 1 ≤ p) {D D' E E' : List (Pt ℝ Q)}
    (h : (features D).Perm (features D')) (h' : (features E).Perm (features E')) :
    matchingDistance p D E = matchingDistance p D' E' := by
  have hpos : 0 < p := lt_of_lt_of_le one_pos hp
  have key : ∀ {D D' E E' : List (Pt ℝ Q)}, (features D).Perm (features D') →
      (features E).Perm (features E') → matchingDistance p D E ≤ matchingDistance p D' E' := by
    intro D D' E E' h h'
    have h1 := matchingDistance_triangle p hp D D' E
    have h2 := matchingDistance_triangle p hp D' E' E
    rw [(matchingDistance_zero p hpos D D').mpr h] at h1
    rw [(matchingDistance_zero p hpos E' E).mpr h'.symm] at h2
    linarith
  exact le_antisymm (key h h') (key h.symm h'.symm)

theorem offDiag_offDiag (D : List (Pt ℝ Q)) : features (offDiag D) = features D := by
  unfold features offDiag
  rw [List.filter_filter]
  simp

/-- The distance to the empty diagram. -/
theorem matchingDistance_nil (p : ENNReal) (hp : 0 < p) (D : List (Pt ℝ Q)) :
    matchingDistance p D [] = lpNorm p (D.map fun x => |x.d - x.b| / 2) := by
  have key : ∀ M, IsMatching D [] M → totalPrice p M = lpNorm p (D.map fun x => |x.d - x.b| / 2) := by
    intro M hM
    rw [← totalPrice_proper p hp]
    have hM' := isMatching_proper hM
    have hn := filterMap_nil_none _ _ (List.perm_nil.mp hM'.right)
    have e : (proper M).map (fun m => gap m.1 m.2) =
        ((proper M).filterMap Prod.fst).map fun x => |x.d - x.b| / 2 := by
      have : ∀ L : List (Option (Pt ℝ Q) × Option (Pt ℝ Q)), (∀ m ∈ L, m.2 = none) →
          (∀ m ∈ L, m.1.isSome = true) →
          L.map (fun m => gap m.1 m.2) = (L.filterMap Prod.fst).map fun x => |x.d - x.b| / 2 := by
        intro L
        induction L with
        | nil => intros; rfl
        | cons m L ih =>
            intro h1 h2
            obtain ⟨x, y⟩ := m
            have hy : y = none := h1 _ (List.mem_cons_self ..)
            have hx : x.isSome = true := h2 _ (List.mem_cons_self ..)
            obtain ⟨x, rfl⟩ := Option.isSome_iff_exists.mp hx
            subst hy
            rw [List.map_cons, ih (fun m hm => h1 m (by simp [hm])) (fun m hm => h2 m (by simp [hm]))]
            rfl
      apply this _ hn
      intro m hm
      have h1 := (List.mem_filter.mp hm).2
      rw [hn m hm] at h1
      simpa using h1
    unfold totalPrice
    rw [e]
    exact lpNorm_perm p hp (hM'.left.map _)
  obtain ⟨M, hM, e⟩ := matchingDistance_attained p hp D []
  rw [e, key M hM]

end Gtda.Props
