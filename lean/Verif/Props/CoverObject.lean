import Verif.Spec.CoverObject
import Verif.Props.Cover

/-!
# C121: covers as objects
-/

set_option autoImplicit false
set_option linter.unusedSectionVars false

namespace Gtda.Props.CoverObject

open Py Mapper Gtda.CoverObject Gtda.Spec.CoverObject

section
variable {K : Type} [Field K] [LinearOrder K] [IsStrictOrderedRing K] [FloorRing K]

theorem validate_valid (p : Params K) (h : Valid p) : ∃ v, validate p = .ok v ∧ 1 ≤ v.n ∧ 0 < v.f ∧ v.f < 1 ∧ p.n = some (v.n : Int) ∧ p.f = some v.f ∧
    (v.balanced = true → p.kind = some "balanced") ∧ (v.balanced = false → p.kind = some "uniform") := by
  obtain ⟨k, n, f, rfl, hk, hn, h0, h1⟩ := h
  have hcast : ((n.toNat : Nat) : Int) = n := by omega
  rcases hk with rfl | rfl
  · refine ⟨⟨false, n.toNat, f⟩, ?_, by show 1 ≤ n.toNat; omega, h0, h1, by rw [hcast], rfl, by simp, by simp⟩
    unfold validate
    dsimp only
    rw [if_neg (by simp), if_neg (by omega), if_pos ⟨h0, h1⟩]
    rfl
  · refine ⟨⟨true, n.toNat, f⟩, ?_, by show 1 ≤ n.toNat; omega, h0, h1, by rw [hcast], rfl, by simp, by simp⟩
    unfold validate
    dsimp only
    rw [if_neg (by simp), if_neg (by omega), if_pos ⟨h0, h1⟩]
    rfl

theorem validate_invalid (p : Params K) (h : ¬ Valid p) : validate p = .error .typeError ∨ validate p = .error .valueError := by
  unfold validate
  obtain ⟨k, n, f⟩ := p
  cases k with
  | none => exact Or.inl rfl
  | some k =>
    dsimp only
    by_cases hk : k ∉ ["uniform", "balanced"]
    · rw [if_pos hk]
      exact Or.inr rfl
    rw [if_neg hk]
    cases n with
    | none => exact Or.inl rfl
    | some n =>
      dsimp only
      by_cases hn : n < 1
      · rw [if_pos hn]
        exact Or.inr rfl
      rw [if_neg hn]
      cases f with
      | none => exact Or.inl rfl
      | some f =>
        dsimp only
        by_cases hf : 0 < f ∧ f < 1
        · exact absurd ⟨k, n, f, rfl, (by simp only [List.mem_cons, List.not_mem_nil, or_false, not_not] at hk; exact hk), by omega, hf.1, hf.2⟩ h
        · rw [if_neg hf]
          exact Or.inr rfl

theorem columns_ok (X : Data K) (h : HasData X) (hr : Rectangular X) : ∃ m, columns X = .ok (m, cols X) ∧ 0 < m ∧ cols X ≠ [] ∧ ∀ x ∈ cols X, x.length = m := by
  cases X with
  | one x =>
    have : x.length ≠ 0 := fun h0 => h (List.length_eq_zero_iff.1 h0)
    refine ⟨x.length, ?_, by omega, by simp [cols], ?_⟩
    · exact if_neg this
    · intro y hy
      rw [List.mem_singleton.1 hy]
  | two m c =>
    refine ⟨m, ?_, Nat.pos_of_ne_zero h.1, h.2, hr⟩
    exact if_neg (by rintro (h0 | h0); exacts [h.1 h0, h.2 (List.length_eq_zero_iff.1 h0)])

theorem columns_none (X : Data K) (h : ¬ HasData X) : columns X = .error .valueError := by
  cases X with
  | one x =>
    exact if_pos (by simpa [HasData] using h)
  | two m c =>
    exact if_pos (by unfold HasData at h; simp only [List.length_eq_zero_iff]; tauto)

/-- What the algorithms do with one column. -/
theorem column_fit (v : CoverParams K) (hn : 1 ≤ v.n) (hf0 : 0 < v.f) (hf1 : v.f < 1) (x : List K) (hx : x ≠ []) (n : Option Int) (hnn : n = some (v.n : Int)) :
    (Coverable n x → ∃ ivs, coverFitLimits v x = .ok ivs ∧ (v.balanced = true → ∃ covers lims, fitTransformBalanced v.n v.f x = .ok (covers, lims) ∧
      cleanMasks covers = cleanMasks (coverMasks ivs x) ∧ ∀ c ∈ covers, c.length = x.length)) ∧
    (¬ Coverable n x → coverFitLimits v x = .error .valueError ∧ (v.balanced = true → fitTransformBalanced v.n v.f x = .error .valueError)) := by
  obtain ⟨b, N, f⟩ := v
  subst hnn
  dsimp only at hn hf0 hf1 ⊢
  constructor
  · intro h
    have hd : N = 1 ∨ ∃ a ∈ x, ∃ b ∈ x, a ≠ b := by
      rcases h with h | h
      · left
        have := Option.some.inj h
        omega
      · exact Or.inr h
    cases b with
    | true =>
      obtain ⟨ivs, lims, len, -, -, hfit, hft, hag, -, -⟩ := balanced_masks_agree N hn f hf0 hf1 x hx hd
      refine ⟨ivs, hfit, fun _ => ⟨_, _, hft, hag.symm, ?_⟩⟩
      intro c hc
      obtain ⟨k, -, rfl⟩ := List.mem_map.1 hc
      simp [rankMask]
    | false =>
      obtain ⟨ivss, h1, -⟩ := C44_fit_transform ⟨false, N, f⟩ hn hf0 hf1 ⟨none⟩ x.length [x] (by simp) (by simp) (List.length_pos_iff.2 hx) (hd.imp id fun h => by simpa using h)
      cases h1 with
      | cons h1 h2 =>
        rename_i ivs _
        refine ⟨ivs, ?_, by simp⟩
        unfold coverFit at h1
        cases hc : coverFitLimits ⟨false, N, f⟩ x with
        | error e => rw [hc] at h1; cases h1
        | ok l => rw [hc] at h1; cases h1; rfl
  · intro h
    unfold Coverable at h
    have hN : 1 < N := by
      by_contra h0
      exact h (Or.inl (by congr 1; omega))
    have hall : ∀ y ∈ x, y = x.head hx := by
      intro y hy
      by_contra hne
      exact h (Or.inr ⟨y, hy, _, List.head_mem hx, hne⟩)
    cases b with
    | true =>
      obtain ⟨e1, e2⟩ := C41_single_value_raises N hN f ⟨none⟩ x _ hall
      constructor
      · unfold coverFit at e1
        cases hc : coverFitLimits ⟨true, N, f⟩ x with
        | error e => rw [hc] at e1; cases e1; rfl
        | ok l => rw [hc] at e1; cases e1
      · intro _
        unfold coverFitTransform at e2
        rw [if_pos rfl] at e2
        dsimp only at e2
        cases hc : fitTransformBalanced N f x with
        | error e => rw [hc] at e2; cases e2; rfl
        | ok l => rw [hc] at e2; cases e2
    | false => exact ⟨C40_single_value_raises N hN f x _ hall, by simp⟩

/-- `prepare` on data of the right shape. -/
theorem prepare_eq (p : Params K) (X : Data K) (hr : Rectangular X) :
    (Valid p ∧ HasData X ∧ (cols X).length = 1 → ∃ v x, prepare p X = .ok (v, x) ∧ validate p = .ok v ∧ cols X = [x] ∧ x ≠ []) ∧
    (¬ (Valid p ∧ HasData X ∧ (cols X).length = 1) → prepare p X = .error .typeError ∨ prepare p X = .error .valueError) := by
  unfold prepare
  constructor
  · rintro ⟨hv, hd, hl⟩
    obtain ⟨v, hv, -⟩ := validate_valid p hv
    obtain ⟨m, hc, hm, -, hlen⟩ := columns_ok X hd hr
    obtain ⟨x, hx⟩ := List.length_eq_one_iff.1 hl
    refine ⟨v, x, ?_, hv, hx, ?_⟩
    · rw [hc, hv, ok_bind, ok_bind]
      dsimp only
      rw [hx]
      rfl
    · rintro rfl
      have := hlen [] (by rw [hx]; simp)
      simp at this
      omega
  · intro h
    by_cases hd : HasData X
    · obtain ⟨m, hc, hm, hne, -⟩ := columns_ok X hd hr
      rw [hc, ok_bind]
      by_cases hv : Valid p
      · obtain ⟨v, hv', -⟩ := validate_valid p hv
        rw [hv', ok_bind]
        right
        have : (cols X).length > 1 := by
          have h1 : (cols X).length ≠ 1 := fun h1 => h ⟨hv, hd, h1⟩
          have h2 : (cols X).length ≠ 0 := fun h2 => hne (List.length_eq_zero_iff.1 h2)
          omega
        unfold oneColumn
        rw [if_pos this]
        rfl
      · rcases validate_invalid p hv with h | h
        · left; rw [h]; rfl
        · right; rw [h]; rfl
    · right
      rw [columns_none X hd]
      rfl

/-- What the loop over the columns does. -/
theorem applyToColumns_eq {β : Type} (f : List K → PyM β) (n : Nat) (good : List K → Prop) (l : List (List K)) (hg : ∀ x ∈ l, good x → ∃ b, f x = .ok b) (hb : ∀ x ∈ l, ¬ good x → f x = .error .valueError) :
    ∀ i, ((∀ x ∈ l, good x) → ∃ r, applyToColumns f n i l = .ok r ∧ l.mapM f = .ok r) ∧
      ∀ j x, l[j]? = some x → ¬ good x → (∀ k y, k < j → l[k]? = some y → good y) → applyToColumns f n i l = .error (.oneValueAlong (i + j) n) := by
  induction l with
  | nil => exact fun i => ⟨fun _ => ⟨[], rfl, rfl⟩, by simp⟩
  | cons a t ih =>
    intro i
    have ih' := ih (fun x hx => hg x (List.mem_cons_of_mem _ hx)) (fun x hx => hb x (List.mem_cons_of_mem _ hx)) (i + 1)
    constructor
    · intro h
      obtain ⟨b, hfb⟩ := hg a List.mem_cons_self (h a List.mem_cons_self)
      obtain ⟨r, h1, h2⟩ := ih'.1 fun x hx => h x (List.mem_cons_of_mem _ hx)
      refine ⟨b :: r, ?_, ?_⟩
      · rw [applyToColumns, hfb]
        dsimp only
        rw [h1]
      · rw [List.mapM_cons, hfb, ok_bind, h2, ok_bind]
        rfl
    · intro j x hx hbad hbefore
      cases j with
      | zero =>
        simp only [List.getElem?_cons_zero, Option.some.injEq] at hx
        subst hx
        rw [applyToColumns, hb a List.mem_cons_self hbad]
        rfl
      | succ j =>
        obtain ⟨b, hfb⟩ := hg a List.mem_cons_self (hbefore 0 a (by omega) rfl)
        have := ih'.2 j x (by simpa using hx) hbad fun k y hk hy => hbefore (k + 1) y (by omega) (by simpa using hy)
        rw [applyToColumns, hfb]
        dsimp only
        rw [this, show i + 1 + j = i + (j + 1) by omega]

/-- Either all elements are good or there is a first one that is not. -/
theorem first_bad {α : Type} (good : α → Prop) (l : List α) : (∀ x ∈ l, good x) ∨ ∃ (j : Nat) (x : α), l[j]? = some x ∧ ¬ good x ∧ ∀ (k : Nat) (y : α), k < j → l[k]? = some y → good y := by
  classical
  induction l with
  | nil => left; simp
  | cons a t ih =>
    by_cases ha : good a
    · rcases ih with h | ⟨j, x, h1, h2, h3⟩
      · left
        intro x hx
        rcases List.mem_cons.1 hx with rfl | hx
        · exact ha
        · exact h x hx
      · right
        refine ⟨j + 1, x, by simpa using h1, h2, ?_⟩
        intro k y hk hy
        cases k with
        | zero =>
          simp only [List.getElem?_cons_zero, Option.some.injEq] at hy
          rwa [← hy]
        | succ k => exact h3 k y (by omega) (by simpa using hy)
    · right
      exact ⟨0, a, rfl, ha, by omega⟩

theorem cubPrepare_eq (p : Params K) (X : Data K) (hr : Rectangular X) :
    (Valid p ∧ HasData X → ∃ v m, cubPrepare p X = .ok (v, m, cols X) ∧ validate p = .ok v ∧ 0 < m ∧ cols X ≠ [] ∧ ∀ x ∈ cols X, x.length = m) ∧
    (¬ (Valid p ∧ HasData X) → cubPrepare p X = .error .typeError ∨ cubPrepare p X = .error .valueError) := by
  unfold cubPrepare
  constructor
  · rintro ⟨hv, hd⟩
    obtain ⟨v, hv, -⟩ := validate_valid p hv
    obtain ⟨m, hc, hm, hne, hlen⟩ := columns_ok X hd hr
    exact ⟨v, m, by rw [hc, hv]; rfl, hv, hm, hne, hlen⟩
  · intro h
    by_cases hd : HasData X
    · obtain ⟨m, hc, -⟩ := columns_ok X hd hr
      rw [hc, ok_bind]
      rcases validate_invalid p (fun hv => h ⟨hv, hd⟩) with h | h
      · left; rw [h]; rfl
      · right; rw [h]; rfl
    · right
      rw [columns_none X hd]
      rfl

/-- `fit` of a `CubicalCover`. -/
theorem cubFit_eq (o : CubObj K) (X : Data K) (hr : Rectangular X) :
    (Valid o.params ∧ HasData X →
      ((∀ x ∈ cols X, Coverable o.params.n x) → ∃ v r, validate o.params = .ok v ∧ (cols X).mapM (coverFitLimits v) = .ok r ∧ cubFit o X = ({ o with coverers := some (r.map fun ivs => ⟨some ivs⟩) }, .ok ())) ∧
      ∀ j x, (cols X)[j]? = some x → ¬ Coverable o.params.n x → (∀ k y, k < j → (cols X)[k]? = some y → Coverable o.params.n y) →
        ∃ n : Nat, o.params.n = some (n : Int) ∧ cubFit o X = (o, .error (.oneValueAlong j n))) ∧
    (¬ (Valid o.params ∧ HasData X) → cubFit o X = (o, .error (.other .typeError)) ∨ cubFit o X = (o, .error (.other .valueError))) := by
  constructor
  · intro h
    obtain ⟨v, m, hp, hv, hm, hne, hlen⟩ := (cubPrepare_eq o.params X hr).1 h
    obtain ⟨v', hv', hn, hf0, hf1, hpn, -, -⟩ := validate_valid o.params h.1
    rw [hv] at hv'
    cases hv'
    have hx : ∀ x ∈ cols X, x ≠ [] := by
      rintro x hx rfl
      have := hlen [] hx
      simp at this
      omega
    have key := applyToColumns_eq (coverFitLimits v) v.n (Coverable o.params.n) (cols X)
      (fun x hx' hg => by
        obtain ⟨ivs, h1, -⟩ := (column_fit v hn hf0 hf1 x (hx x hx') _ hpn).1 hg
        exact ⟨ivs, h1⟩)
      (fun x hx' hg => ((column_fit v hn hf0 hf1 x (hx x hx') _ hpn).2 hg).1) 0
    unfold cubFit
    rw [hp]
    dsimp only
    constructor
    · intro hc
      obtain ⟨r, h1, h2⟩ := key.1 hc
      refine ⟨v, r, hv, h2, ?_⟩
      rw [h1]
    · intro j x h1 h2 h3
      refine ⟨v.n, hpn, ?_⟩
      rw [key.2 j x h1 h2 h3, Nat.zero_add]
  · intro h
    unfold cubFit
    rcases (cubPrepare_eq o.params X hr).2 h with h | h
    · left; rw [h]
    · right; rw [h]

/-- `fit_transform` of a `CubicalCover`. -/
theorem cubFitTransform_eq (o : CubObj K) (X : Data K) (hr : Rectangular X) :
    (Valid o.params ∧ HasData X →
      ((∀ x ∈ cols X, Coverable o.params.n x) → ∃ masks, (cubFitTransform o X).2 = .ok masks) ∧
      ∀ j x, (cols X)[j]? = some x → ¬ Coverable o.params.n x → (∀ k y, k < j → (cols X)[k]? = some y → Coverable o.params.n y) →
        ∃ n : Nat, o.params.n = some (n : Int) ∧ cubFitTransform o X = (o, .error (.oneValueAlong j n))) ∧
    (¬ (Valid o.params ∧ HasData X) → cubFitTransform o X = (o, .error (.other .typeError)) ∨ cubFitTransform o X = (o, .error (.other .valueError))) := by
  constructor
  · intro h
    obtain ⟨v, m, hp, hv, hm, hne, hlen⟩ := (cubPrepare_eq o.params X hr).1 h
    obtain ⟨v', hv', hn, hf0, hf1, hpn, -, -⟩ := validate_valid o.params h.1
    rw [hv] at hv'
    cases hv'
    have hx : ∀ x ∈ cols X, x ≠ [] := by
      rintro x hx rfl
      have := hlen [] hx
      simp at this
      omega
    unfold cubFitTransform
    rw [hp]
    dsimp only
    cases hb : v.balanced with
    | true =>
      rw [if_pos rfl]
      have key := applyToColumns_eq (fun x => Prod.fst <$> fitTransformBalanced v.n v.f x) v.n (Coverable o.params.n) (cols X)
        (fun x hx' hg => by
          obtain ⟨ivs, -, h1⟩ := (column_fit v hn hf0 hf1 x (hx x hx') _ hpn).1 hg
          obtain ⟨c, l, h2, -⟩ := h1 hb
          exact ⟨c, by rw [h2]; rfl⟩)
        (fun x hx' hg => by
          rw [((column_fit v hn hf0 hf1 x (hx x hx') _ hpn).2 hg).2 hb]
          rfl) 0
      constructor
      · intro hc
        obtain ⟨r, h1, -⟩ := key.1 hc
        rw [h1]
        exact ⟨_, rfl⟩
      · intro j x h1 h2 h3
        refine ⟨v.n, hpn, ?_⟩
        rw [key.2 j x h1 h2 h3, Nat.zero_add]
    | false =>
      rw [if_neg (by simp)]
      have key := applyToColumns_eq (coverFitLimits v) v.n (Coverable o.params.n) (cols X)
        (fun x hx' hg => by
          obtain ⟨ivs, h1, -⟩ := (column_fit v hn hf0 hf1 x (hx x hx') _ hpn).1 hg
          exact ⟨ivs, h1⟩)
        (fun x hx' hg => ((column_fit v hn hf0 hf1 x (hx x hx') _ hpn).2 hg).1) 0
      constructor
      · intro hc
        obtain ⟨r, h1, h2⟩ := key.1 hc
        rw [h1]
        dsimp only
        rw [cubicalMasks_ok m r (cols X) (Gtda.Props.mapM_length h2)]
        exact ⟨_, rfl⟩
      · intro j x h1 h2 h3
        refine ⟨v.n, hpn, ?_⟩
        rw [key.2 j x h1 h2 h3, Nat.zero_add]
  · intro h
    unfold cubFitTransform
    rcases (cubPrepare_eq o.params X hr).2 h with h | h
    · left; rw [h]
    · right; rw [h]

theorem combine_one (m : Nat) (l : List (List Bool)) (h : ∀ c ∈ l, c.length = m) : combineCovers m [l] = cleanMasks l := by
  unfold combineCovers
  congr 1
  rw [cartesian]
  induction l with
  | nil => rfl
  | cons a t ih =>
    rw [List.flatMap_cons, List.map_append, ih fun c hc => h c (List.mem_cons_of_mem _ hc)]
    have : andColumns m [a] = a := by
      unfold andColumns
      rw [List.foldl_cons, List.foldl_nil]
      have hl := h a List.mem_cons_self
      subst hl
      clear h ih
      induction a with
      | nil => rfl
      | cons b a ih =>
        rw [List.length_cons, List.replicate_succ, List.zipWith_cons_cons, ih, Bool.true_and]
    simp [cartesian, this]

end

end Gtda.Props.CoverObject

namespace Gtda.Props

open Py Mapper Gtda.Spec Gtda.CoverObject Gtda.Spec.CoverObject Gtda.Props.CoverObject

section
variable {K : Type} [Field K] [LinearOrder K] [IsStrictOrderedRing K] [FloorRing K]

/-- **C121.** When `OneDimensionalCover.fit` and `fit_transform` succeed: for valid parameters and data of one column, whatever its shape, that has two distinct values unless one interval is asked for. Otherwise both
raise `TypeError` or `ValueError` and leave the object unchanged. -/
theorem C121_fit_iff (o : Obj K) (X : Data K) (hr : Rectangular X) :
    ((Valid o.params ∧ HasData X ∧ (cols X).length = 1 ∧ ∀ x ∈ cols X, Coverable o.params.n x) → (fit o X).2 = .ok () ∧ ∃ masks, (fitTransform o X).2 = .ok masks) ∧
    (¬ (Valid o.params ∧ HasData X ∧ (cols X).length = 1 ∧ ∀ x ∈ cols X, Coverable o.params.n x) →
      ∃ e, (e = .typeError ∨ e = .valueError) ∧ fit o X = (o, .error e) ∧ fitTransform o X = (o, .error e)) := by
  by_cases h : Valid o.params ∧ HasData X ∧ (cols X).length = 1
  · obtain ⟨v, x, hp, hv, hc, hx⟩ := (prepare_eq o.params X hr).1 h
    obtain ⟨v', hv', hn, hf0, hf1, hpn, -, -⟩ := validate_valid o.params h.1
    rw [hv] at hv'
    cases hv'
    have hcol := column_fit v hn hf0 hf1 x hx _ hpn
    have hiff : (∀ x ∈ cols X, Coverable o.params.n x) ↔ Coverable o.params.n x := by
      rw [hc]
      simp
    constructor
    · rintro ⟨-, -, -, hg⟩
      obtain ⟨ivs, h1, h2⟩ := hcol.1 (hiff.1 hg)
      unfold fit fitTransform
      rw [hp]
      dsimp only
      constructor
      · unfold coverFit
        rw [h1]
      · unfold coverFitTransform
        cases hb : v.balanced with
        | true =>
          obtain ⟨c, l, h3, -⟩ := h2 hb
          rw [if_pos rfl, h3]
          exact ⟨_, rfl⟩
        | false =>
          unfold coverFitLimits at h1
          rw [hb, if_neg (by simp)] at h1
          rw [if_neg (by simp), h1]
          exact ⟨_, rfl⟩
    · intro hbad
      have hg : ¬ Coverable o.params.n x := fun hg => hbad ⟨h.1, h.2.1, h.2.2, hiff.2 hg⟩
      obtain ⟨h1, h2⟩ := hcol.2 hg
      refine ⟨.valueError, Or.inr rfl, ?_, ?_⟩
      · unfold fit coverFit
        rw [hp]
        dsimp only
        rw [h1]
      · unfold fitTransform coverFitTransform
        rw [hp]
        dsimp only
        cases hb : v.balanced with
        | true =>
          rw [if_pos rfl, h2 hb]
        | false =>
          unfold coverFitLimits at h1
          rw [hb, if_neg (by simp)] at h1
          rw [if_neg (by simp), h1]
  · constructor
    · rintro ⟨h1, h2, h3, -⟩
      exact absurd ⟨h1, h2, h3⟩ h
    · intro _
      unfold fit fitTransform
      rcases (prepare_eq o.params X hr).2 h with h | h
      · exact ⟨.typeError, Or.inl rfl, by rw [h], by rw [h]⟩
      · exact ⟨.valueError, Or.inr rfl, by rw [h], by rw [h]⟩

/-- **C121.** The same for `CubicalCover`: there may be several columns, each must have two distinct values unless one interval is asked for. -/
theorem C121_cubical_fit_iff (o : CubObj K) (X : Data K) (hr : Rectangular X) :
    ((Valid o.params ∧ HasData X ∧ ∀ x ∈ cols X, Coverable o.params.n x) → (cubFit o X).2 = .ok () ∧ ∃ masks, (cubFitTransform o X).2 = .ok masks) ∧
    (¬ (Valid o.params ∧ HasData X ∧ ∀ x ∈ cols X, Coverable o.params.n x) →
      (cubFit o X).1 = o ∧ (cubFitTransform o X).1 = o ∧ (∃ e, (cubFit o X).2 = .error e) ∧ ∃ e, (cubFitTransform o X).2 = .error e) := by
  have hf := cubFit_eq o X hr
  have ht := cubFitTransform_eq o X hr
  constructor
  · rintro ⟨h1, h2, h3⟩
    obtain ⟨v, r, -, -, h4⟩ := (hf.1 ⟨h1, h2⟩).1 h3
    exact ⟨by rw [h4], (ht.1 ⟨h1, h2⟩).1 h3⟩
  · intro h
    by_cases h1 : Valid o.params ∧ HasData X
    · rcases first_bad (Coverable o.params.n) (cols X) with h2 | ⟨j, x, h2, h3, h4⟩
      · exact absurd ⟨h1.1, h1.2, h2⟩ h
      · obtain ⟨n, -, h5⟩ := (hf.1 h1).2 j x h2 h3 h4
        obtain ⟨n', -, h6⟩ := (ht.1 h1).2 j x h2 h3 h4
        rw [h5, h6]
        exact ⟨rfl, rfl, ⟨_, rfl⟩, ⟨_, rfl⟩⟩
    · rcases hf.2 h1 with h2 | h2 <;> rcases ht.2 h1 with h3 | h3 <;> rw [h2, h3] <;> exact ⟨rfl, rfl, ⟨_, rfl⟩, ⟨_, rfl⟩⟩

/-- **C121.** For valid parameters and data, `CubicalCover.fit` and `fit_transform` raise an exception that names the first feature with one distinct value and the number of intervals, and no other. -/
theorem C121_names_feature (o : CubObj K) (X : Data K) (hr : Rectangular X) (hv : Valid o.params) (hd : HasData X) (e : CubErr) :
    ((cubFit o X).2 = .error e ↔ ∃ (i n : Nat) (x : List K), e = .oneValueAlong i n ∧ o.params.n = some (n : Int) ∧ (cols X)[i]? = some x ∧ ¬ Coverable o.params.n x ∧
      ∀ k y, k < i → (cols X)[k]? = some y → Coverable o.params.n y) ∧
    ((cubFitTransform o X).2 = .error e ↔ (cubFit o X).2 = .error e) := by
  have hf := (cubFit_eq o X hr).1 ⟨hv, hd⟩
  have ht := (cubFitTransform_eq o X hr).1 ⟨hv, hd⟩
  rcases first_bad (Coverable o.params.n) (cols X) with h2 | ⟨j, x, h2, h3, h4⟩
  · obtain ⟨v, r, -, -, h5⟩ := hf.1 h2
    obtain ⟨masks, h6⟩ := ht.1 h2
    rw [h5, h6]
    refine ⟨⟨nofun, ?_⟩, ⟨nofun, nofun⟩⟩
    rintro ⟨i, n, x, -, -, h7, h8, -⟩
    exact absurd (h2 x (List.mem_of_getElem? h7)) h8
  · obtain ⟨n, hn, h5⟩ := hf.2 j x h2 h3 h4
    obtain ⟨n', hn', h6⟩ := ht.2 j x h2 h3 h4
    have hnn : n' = n := by
      rw [hn] at hn'
      have := Option.some.inj hn'
      omega
    subst hnn
    rw [h5, h6]
    refine ⟨⟨?_, ?_⟩, ⟨fun h => (by cases h; rfl), fun h => (by cases h; rfl)⟩⟩
    · intro h
      cases h
      exact ⟨j, n', x, rfl, hn, h2, h3, h4⟩
    · rintro ⟨i, n, y, rfl, h7, h8, h9, h10⟩
      have hij : i = j := by
        rcases Nat.lt_trichotomy i j with h | h | h
        · exact absurd (h4 i y h h8) h9
        · exact h
        · exact absurd (h10 j x h h2) h3
      subst hij
      have : n = n' := by
        rw [hn] at h7
        have := Option.some.inj h7
        omega
      rw [this]

/-- **C121.** After any history, a `OneDimensionalCover` has the parameters set last and the intervals of a new cover on which only the last call that stores intervals was made, with the parameters at that time.
(Calls that store intervals: `fit`, and `fit_transform` for uniform covers, if they succeed.) -/
theorem C121_history (p : Params K) (history : List (Op K)) :
    run ⟨p, none⟩ history = ⟨lastParams p history, match lastStoring p none history with | none => none | some (q, op) => (step ⟨q, none⟩ op).limits⟩ := by
  have hfit : ∀ (q : Params K) (l : Option (List (Ival K))) (X : Data K), (stores q (.fit X) = true → step ⟨q, l⟩ (.fit X) = ⟨q, (step ⟨q, none⟩ (.fit X)).limits⟩) ∧
      (¬ stores q (.fit X) = true → step ⟨q, l⟩ (.fit X) = ⟨q, l⟩) := by
    intro q l X
    unfold stores step fit
    dsimp only
    cases prepare q X with
    | error e => exact ⟨nofun, fun _ => rfl⟩
    | ok r =>
      dsimp only
      unfold coverFit
      cases coverFitLimits r.1 r.2 with
      | error e => exact ⟨nofun, fun _ => rfl⟩
      | ok ivs => exact ⟨fun _ => rfl, fun h => absurd rfl h⟩
  have htr : ∀ (q : Params K) (l : Option (List (Ival K))) (X : Data K), (stores q (.fitTransform X) = true → step ⟨q, l⟩ (.fitTransform X) = ⟨q, (step ⟨q, none⟩ (.fitTransform X)).limits⟩) ∧
      (¬ stores q (.fitTransform X) = true → step ⟨q, l⟩ (.fitTransform X) = ⟨q, l⟩) := by
    intro q l X
    unfold stores step fitTransform
    dsimp only
    by_cases hv : Valid q
    · obtain ⟨v, hv', -, -, -, -, -, hb1, hb2⟩ := validate_valid q hv
      cases hp : prepare q X with
      | error e => exact ⟨nofun, fun _ => rfl⟩
      | ok r =>
        have hr : r.1 = v := by
          unfold prepare at hp
          cases hc : columns X with
          | error e => rw [hc] at hp; cases hp
          | ok c =>
            rw [hc, hv', ok_bind, ok_bind] at hp
            cases ho : oneColumn c.2 with
            | error e => rw [ho] at hp; cases hp
            | ok x => rw [ho] at hp; cases hp; rfl
        dsimp only
        unfold coverFitTransform
        cases hb : r.1.balanced with
        | true =>
          have hk : q.kind ≠ some "uniform" := by
            rw [hb1 (by rw [← hr]; exact hb)]
            exact fun h => absurd (Option.some.inj h) (by decide)
          simp only [if_true, hk, decide_false, Bool.and_false, Bool.false_eq_true, false_implies, true_and, not_false_eq_true, true_implies]
          cases fitTransformBalanced r.1.n r.1.f r.2 <;> rfl
        | false =>
          have hk : q.kind = some "uniform" := hb2 (by rw [← hr]; exact hb)
          simp only [Bool.false_eq_true, if_false, hk, decide_true, Bool.and_true]
          cases fitUniform r.1.n r.1.f r.2 with
          | error e => exact ⟨nofun, fun _ => rfl⟩
          | ok ivs => exact ⟨fun _ => rfl, fun h => absurd rfl h⟩
    · have : ∃ e, prepare q X = .error e := by
        unfold prepare
        cases columns X with
        | error e => exact ⟨e, rfl⟩
        | ok c =>
          rw [ok_bind]
          rcases validate_invalid q hv with h | h <;> rw [h] <;> exact ⟨_, rfl⟩
      obtain ⟨e, he⟩ := this
      rw [he]
      exact ⟨nofun, fun _ => rfl⟩
  have key : ∀ (history : List (Op K)) (p : Params K) (best : Option (Params K × Op K)),
      run ⟨p, match best with | none => none | some (q, op) => (step ⟨q, none⟩ op).limits⟩ history =
        ⟨lastParams p history, match lastStoring p best history with | none => none | some (q, op) => (step ⟨q, none⟩ op).limits⟩ := by
    intro history
    induction history with
    | nil => intro p best; rfl
    | cons op t ih =>
      intro p best
      unfold run at ih ⊢
      rw [List.foldl_cons]
      cases op with
      | setParams q => exact ih q best
      | fit X =>
        rw [lastParams, lastStoring, ← ih]
        by_cases h : stores p (.fit X) = true
        · rw [(hfit p _ X).1 h, if_pos h]
        · rw [(hfit p _ X).2 h, if_neg h]
      | fitTransform X =>
        rw [lastParams, lastStoring, ← ih]
        by_cases h : stores p (.fitTransform X) = true
        · rw [(htr p _ X).1 h, if_pos h]
        · rw [(htr p _ X).2 h, if_neg h]
  exact key history p none

/-- **C121.** `transform` and `get_fitted_intervals` do not depend on the parameters, only on the stored intervals: `get_fitted_intervals` returns those, and for data of one column `transform` returns the sets of
samples that lie in them, each non-empty set once. Both raise `NotFittedError` if there are none. Data of several columns is rejected. -/
theorem C121_intervals (o : Obj K) (Y : Data K) (hr : Rectangular Y) (hY : HasData Y) :
    (o.limits = none → getFittedIntervals o = .error .notFitted ∧ transform o Y = .error .notFitted) ∧
    ∀ ivs, o.limits = some ivs → getFittedIntervals o = .ok ivs ∧
      (2 ≤ (cols Y).length → transform o Y = .error .valueError) ∧
      ∀ y, cols Y = [y] → ∃ masks, transform o Y = .ok masks ∧ masks.Nodup ∧
        ∀ c, c ∈ masks ↔ c.length = y.length ∧ true ∈ c ∧ ∃ I ∈ ivs, ∀ (i : Nat) x, y[i]? = some x → (c[i]? = some true ↔ InOpen I x) := by
  obtain ⟨p, l⟩ := o
  constructor
  · intro h
    dsimp only at h
    subst h
    exact ⟨rfl, rfl⟩
  · intro ivs h
    dsimp only at h
    subst h
    obtain ⟨m, hc, -, -, -⟩ := columns_ok Y hY hr
    have hchk : ∀ {β : Type} (k : PyM β), (if p.kind = some "balanced" then (checkLimits (⟨p, some ivs⟩ : Obj K) >>= fun _ => k) else k) = k := by
      intro β k
      unfold checkLimits
      by_cases hb : p.kind = some "balanced"
      · rw [if_pos hb]
        rfl
      · rw [if_neg hb]
    refine ⟨?_, ?_, ?_⟩
    · unfold getFittedIntervals
      rw [if_neg (by simp)]
      exact hchk _
    · intro h2
      unfold transform
      rw [if_neg (by simp), hc, ok_bind]
      unfold oneColumn
      rw [if_pos (by dsimp only; omega)]
      rfl
    · intro y hy
      obtain ⟨masks, h1, h2⟩ := C40_transform_masks ivs y
      refine ⟨masks, ?_, ?_, h2⟩
      · unfold transform
        rw [if_neg (by simp), hc, ok_bind]
        have : oneColumn (cols Y) = .ok y := by rw [hy]; rfl
        rw [this, ok_bind]
        rw [← h1]
        exact hchk _
      · cases h1
        exact (C43_clean_masks _).2.1

/-- **C121.** After any history, a `CubicalCover` has the parameters set last, and its fitted state is that of a new cover on which only the last call that returned normally was made, with the parameters at that time. -/
theorem C121_cubical_history (p : Params K) (history : List (Op K)) :
    cubRun ⟨p, none⟩ history = ⟨lastParams p history, match lastCub p none history with | none => none | some (q, op) => (cubStep ⟨q, none⟩ op).coverers⟩ := by
  have hmask : ∀ (v : CoverParams K) (m : Nat) (X : List (List K)) (r : List (List (Ival K))) (n i : Nat), applyToColumns (coverFitLimits v) n i X = .ok r →
      ∃ masks, cubicalMasks m (r.map fun ivs => ⟨some ivs⟩) X = .ok masks := by
    intro v m X r n i h
    refine ⟨_, cubicalMasks_ok m r X ?_⟩
    induction X generalizing r i with
    | nil => cases h; rfl
    | cons a t ih =>
      rw [applyToColumns] at h
      cases ha : coverFitLimits v a with
      | error e => rw [ha] at h; cases e <;> cases h
      | ok b =>
        rw [ha] at h
        dsimp only at h
        cases ht : applyToColumns (coverFitLimits v) n (i + 1) t with
        | error e => rw [ht] at h; cases h
        | ok bs =>
          rw [ht] at h
          cases h
          rw [List.length_cons, List.length_cons, ih bs (i + 1) ht]
  have hfit : ∀ (q : Params K) (l : Option (List (CoverState K))) (X : Data K), (cubOk q (.fit X) = true → cubStep ⟨q, l⟩ (.fit X) = ⟨q, (cubStep ⟨q, none⟩ (.fit X)).coverers⟩) ∧
      (¬ cubOk q (.fit X) = true → cubStep ⟨q, l⟩ (.fit X) = ⟨q, l⟩) := by
    intro q l X
    unfold cubOk cubStep cubFit
    dsimp only
    cases cubPrepare q X with
    | error e => exact ⟨nofun, fun _ => rfl⟩
    | ok r =>
      dsimp only
      cases applyToColumns (coverFitLimits r.1) r.1.n 0 r.2.2 with
      | error e => exact ⟨nofun, fun _ => rfl⟩
      | ok ivs => exact ⟨fun _ => rfl, fun h => absurd rfl h⟩
  have htr : ∀ (q : Params K) (l : Option (List (CoverState K))) (X : Data K), (cubOk q (.fitTransform X) = true → cubStep ⟨q, l⟩ (.fitTransform X) = ⟨q, (cubStep ⟨q, none⟩ (.fitTransform X)).coverers⟩) ∧
      (¬ cubOk q (.fitTransform X) = true → cubStep ⟨q, l⟩ (.fitTransform X) = ⟨q, l⟩) := by
    intro q l X
    unfold cubOk cubStep cubFitTransform
    dsimp only
    cases cubPrepare q X with
    | error e => exact ⟨nofun, fun _ => rfl⟩
    | ok r =>
      dsimp only
      by_cases hb : r.1.balanced = true
      · simp only [if_pos hb]
        cases applyToColumns (fun x => Prod.fst <$> fitTransformBalanced r.1.n r.1.f x) r.1.n 0 r.2.2 with
        | error e => exact ⟨nofun, fun _ => rfl⟩
        | ok ivs => exact ⟨fun _ => rfl, fun h => absurd rfl h⟩
      · simp only [if_neg hb]
        cases ha : applyToColumns (coverFitLimits r.1) r.1.n 0 r.2.2 with
        | error e => exact ⟨nofun, fun _ => rfl⟩
        | ok s =>
          obtain ⟨masks, hm⟩ := hmask r.1 r.2.1 r.2.2 s _ _ ha
          dsimp only
          rw [hm]
          exact ⟨fun _ => rfl, fun h => absurd rfl h⟩
  have key : ∀ (history : List (Op K)) (p : Params K) (best : Option (Params K × Op K)),
      cubRun ⟨p, match best with | none => none | some (q, op) => (cubStep ⟨q, none⟩ op).coverers⟩ history =
        ⟨lastParams p history, match lastCub p best history with | none => none | some (q, op) => (cubStep ⟨q, none⟩ op).coverers⟩ := by
    intro history
    induction history with
    | nil => intro p best; rfl
    | cons op t ih =>
      intro p best
      unfold cubRun at ih ⊢
      rw [List.foldl_cons]
      cases op with
      | setParams q => exact ih q best
      | fit X =>
        rw [lastParams, lastCub, ← ih]
        by_cases h : cubOk p (.fit X) = true
        · rw [(hfit p _ X).1 h, if_pos h]
        · rw [(hfit p _ X).2 h, if_neg h]
      | fitTransform X =>
        rw [lastParams, lastCub, ← ih]
        by_cases h : cubOk p (.fitTransform X) = true
        · rw [(htr p _ X).1 h, if_pos h]
        · rw [(htr p _ X).2 h, if_neg h]
  exact key history p none

/-- **C121.** For data of one column, whatever its shape, `CubicalCover` and `OneDimensionalCover` with the same parameters agree: `fit_transform` returns the same sets (or both raise), and so does `transform` of
any data of one column after `fit`. -/
theorem C121_one_feature (p : Params K) (X : Data K) (hX : Rectangular X) (x : List K) (hx : cols X = [x]) :
    (∀ masks, (cubFitTransform ⟨p, none⟩ X).2 = .ok masks ↔ (fitTransform ⟨p, none⟩ X).2 = .ok masks) ∧
    ((cubFit ⟨p, none⟩ X).2 = .ok () ↔ (fit ⟨p, none⟩ X).2 = .ok ()) ∧
    ((fit ⟨p, none⟩ X).2 = .ok () → ∀ (Y : Data K) (y : List K), Rectangular Y → HasData Y → cols Y = [y] → cubTransform (cubFit ⟨p, none⟩ X).1 Y = transform (fit ⟨p, none⟩ X).1 Y) := by
  have h1 := C121_fit_iff (⟨p, none⟩ : Obj K) X hX
  have h2 := C121_cubical_fit_iff (⟨p, none⟩ : CubObj K) X hX
  have hl : (cols X).length = 1 := by rw [hx]; rfl
  by_cases h : Valid p ∧ HasData X ∧ ∀ x ∈ cols X, Coverable p.n x
  · obtain ⟨hv, hd, hg⟩ := h
    obtain ⟨v, z, hp, hvv, hc, hz⟩ := (prepare_eq p X hX).1 ⟨hv, hd, hl⟩
    rw [hx] at hc
    cases hc
    obtain ⟨v', m, hp', hvv', hm, -, hlen⟩ := (cubPrepare_eq p X hX).1 ⟨hv, hd⟩
    rw [hvv] at hvv'
    cases hvv'
    obtain ⟨v', hv', hn, hf0, hf1, hpn, -, -, -⟩ := validate_valid p hv
    rw [hvv] at hv'
    cases hv'
    obtain ⟨ivs, hi, hbal⟩ := (column_fit v hn hf0 hf1 x hz _ hpn).1 (hg x (by rw [hx]; simp))
    have hxm : x.length = m := hlen x (by rw [hx]; simp)
    obtain ⟨f1, mk1, f2⟩ := h1.1 ⟨hv, hd, hl, hg⟩
    obtain ⟨g1, mk2, g2⟩ := h2.1 ⟨hv, hd, hg⟩
    have happ : applyToColumns (coverFitLimits v) v.n 0 (cols X) = .ok [ivs] := by
      rw [hx, applyToColumns, hi]
      rfl
    have hcl : ∀ (k : Nat) (y : List K), y.length = k → ∀ c ∈ coverMasks ivs y, c.length = k := by
      intro k y hy c hc
      obtain ⟨I, -, rfl⟩ := List.mem_map.1 hc
      rw [List.length_map, hy]
    refine ⟨?_, ⟨fun _ => f1, fun _ => g1⟩, ?_⟩
    · have : (cubFitTransform ⟨p, none⟩ X).2 = plain (fitTransform ⟨p, none⟩ X).2 := by
        unfold cubFitTransform fitTransform
        rw [hp, hp']
        dsimp only
        unfold coverFitTransform
        cases hb : v.balanced with
        | true =>
          obtain ⟨covers, lims, h3, h4, h5⟩ := hbal hb
          rw [if_pos rfl, if_pos rfl, h3, hx, applyToColumns, h3]
          show Except.ok (combineCovers m [covers]) = _
          rw [combine_one m covers (by rw [← hxm]; exact h5)]
          rfl
        | false =>
          rw [if_neg (by simp), if_neg (by simp), happ]
          have hi' := hi
          unfold coverFitLimits at hi'
          rw [hb, if_neg (by simp)] at hi'
          rw [hi']
          dsimp only
          rw [cubicalMasks_ok m [ivs] (cols X) (by rw [hx]; rfl), hx]
          show plain (.ok (combineCovers m [coverMasks ivs x])) = _
          rw [combine_one m _ (hcl m x hxm)]
      intro masks
      rw [this]
      cases (fitTransform ⟨p, none⟩ X).2 with
      | error e => exact ⟨nofun, nofun⟩
      | ok a => exact ⟨fun h => by cases h; rfl, fun h => by cases h; rfl⟩
    · intro _ Y y hrY hY hy
      have e1 : (cubFit ⟨p, none⟩ X).1 = ⟨p, some [⟨some ivs⟩]⟩ := by
        unfold cubFit
        rw [hp']
        dsimp only
        rw [happ]
        rfl
      have e2 : (fit ⟨p, none⟩ X).1 = ⟨p, some ivs⟩ := by
        unfold fit coverFit
        rw [hp]
        dsimp only
        rw [hi]
      rw [e1, e2]
      obtain ⟨k, hc, -, -, hk⟩ := columns_ok Y hY hrY
      unfold cubTransform transform
      dsimp only
      rw [if_neg (by simp), hc, ok_bind, ok_bind]
      dsimp only
      rw [if_neg (by rw [hy]; simp), if_neg (by simp), hy]
      have e3 := cubicalMasks_ok k [ivs] [y] rfl
      rw [List.map_singleton] at e3
      rw [e3]
      show Except.ok (combineCovers k [coverMasks ivs y]) = _
      rw [combine_one k _ (hcl k y (hk y (by rw [hy]; simp)))]
      show _ = (if p.kind = some "balanced" then (checkLimits (⟨p, some ivs⟩ : Obj K) >>= fun _ => coverTransform ⟨some ivs⟩ y) else coverTransform ⟨some ivs⟩ y)
      unfold checkLimits
      by_cases hb : p.kind = some "balanced"
      · rw [if_pos hb]
        rfl
      · rw [if_neg hb]
        rfl
  · obtain ⟨e, -, h3, h4⟩ := h1.2 fun ⟨a, b, _, c⟩ => h ⟨a, b, c⟩
    obtain ⟨-, -, ⟨e1, h5⟩, ⟨e2, h6⟩⟩ := h2.2 h
    rw [h3, h4, h5, h6]
    exact ⟨fun _ => ⟨nofun, nofun⟩, ⟨nofun, nofun⟩, nofun⟩

end

example : Valid (⟨some "balanced", some 2, some (1 / 3)⟩ : Params ℚ) := ⟨"balanced", 2, 1 / 3, rfl, Or.inr rfl, by norm_num, by norm_num, by norm_num⟩

example : (fitTransform ⟨⟨some "balanced", some 2, some (1 / 3)⟩, none⟩ (.two 3 [[(5 : ℚ), 1, 9]])).2 = .ok [[true, true, false], [true, false, true]] ∧
    (cubFit ⟨⟨some "uniform", some 2, some (1 / 3)⟩, none⟩ (.two 2 [[(5 : ℚ), 1], [3, 3], [4, 4]])).2 = .error (.oneValueAlong 1 2) ∧
    (fit ⟨⟨some "uniform", some 0, none⟩, none⟩ (.one [(5 : ℚ), 1])).2 = .error .valueError ∧
    (run ⟨⟨some "uniform", some 2, some (1 / 3)⟩, none⟩ [.fit (.one [(0 : ℚ), 5]), .setParams ⟨some "balanced", some 1, some (1 / 2)⟩, .fitTransform (.one [7, 8])]).limits = some [(none, some 3), (some 2, none)] := by
  refine ⟨?_, ?_, ?_, ?_⟩ <;> decide +kernel

/-- **C121, false of `CubicalCover`**: `transform` should raise `NotFittedError` when the intervals are not known. After `fit_transform` of a balanced cover and a change of `kind` it raises `AttributeError`. -/
theorem C121_refuted_attribute_error : ∃ (p q : Params ℚ) (X : Data ℚ), Valid p ∧ Valid q ∧ (cubFitTransform ⟨p, none⟩ X).2.isOk = true ∧
    cubTransform (cubRun ⟨p, none⟩ [.fitTransform X]) X = .error .notFitted ∧ cubTransform (cubRun ⟨p, none⟩ [.fitTransform X, .setParams q]) X = .error .attributeError := by
  refine ⟨⟨some "balanced", some 2, some (1 / 3)⟩, ⟨some "uniform", some 2, some (1 / 3)⟩, .two 2 [[5, 1], [3, 7]], ⟨"balanced", 2, 1 / 3, rfl, Or.inr rfl, by norm_num, by norm_num, by norm_num⟩,
    ⟨"uniform", 2, 1 / 3, rfl, Or.inl rfl, by norm_num, by norm_num, by norm_num⟩, ?_, ?_, ?_⟩ <;> decide +kernel

end Gtda.Props
