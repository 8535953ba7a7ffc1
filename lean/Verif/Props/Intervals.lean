import Verif.Spec.Intervals
import Mathlib.Order.Hom.WithTopBot
import Mathlib.Algebra.Order.Group.OrderIso
import Mathlib.Algebra.Order.Field.Basic
import Mathlib.Algebra.Order.GroupWithZero.OrderIso
import Mathlib.Tactic.NormNum
import Mathlib.Data.Rat.Floor

set_option autoImplicit false
set_option linter.unusedSectionVars false

/-!
# C76, C77: intervals
-/

namespace Gtda.Props
open Gtda.Py Gtda.Intervals Gtda.Spec

section
variable {α : Type} [LinearOrder α]

theorem parse_str (c : Closed) : parseClosed c.str = some c := by cases c <;> rfl

theorem mkInterval_val (l r : α) (c : Closed) : mkInterval (.val l) (.val r) c.str = if l ≤ r then .ok ⟨l, r, c⟩ else .error .valueError := by
  unfold mkInterval
  rw [parse_str]

theorem parse_some {s : String} {c : Closed} (h : parseClosed s = some c) : s = c.str := by
  unfold parseClosed at h
  split at h <;> cases h <;> rfl

/-- **C76.** An interval is constructed iff both end points are real numbers (not NaN), `closed` is one of the four strings and the left end point is at most the right one; its
members are then exactly the numbers between the end points, with the end points that `closed` names. Every other argument is a `ValueError`; NaN is never a member. -/
theorem C76_members (l r : Endpoint α) (closed : String) :
    (∀ I, mkInterval l r closed = .ok I → ∃ x y, l = .val x ∧ r = .val y ∧ x ≤ y ∧ closed ∈ ["left", "right", "both", "neither"] ∧
      (∀ k, contains I (.val k) = true ↔ k ∈ members closed x y) ∧ contains I .nan = false) ∧
    (∀ e, mkInterval l r closed = .error e → e = .valueError ∧
      ¬ ∃ x y, l = .val x ∧ r = .val y ∧ x ≤ y ∧ closed ∈ ["left", "right", "both", "neither"]) := by
  constructor
  · intro I hI
    cases hc : parseClosed closed with
    | none =>
      exfalso
      unfold mkInterval at hI
      rw [hc] at hI
      cases l <;> cases r <;> simp at hI
    | some c =>
      have hs := parse_some hc
      subst hs
      cases l with
      | notReal => simp [mkInterval] at hI
      | nan => cases r <;> simp [mkInterval, hc] at hI
      | val x =>
        cases r with
        | notReal => simp [mkInterval] at hI
        | nan => simp [mkInterval, hc] at hI
        | val y =>
          rw [mkInterval_val] at hI
          by_cases hxy : x ≤ y
          · rw [if_pos hxy] at hI
            cases hI
            refine ⟨x, y, rfl, rfl, hxy, by cases c <;> simp [Closed.str], ?_, rfl⟩
            intro k
            cases c <;> simp [contains, closedLeft, closedRight, members, Closed.str]
          · rw [if_neg hxy] at hI; cases hI
  · intro e he
    constructor
    · unfold mkInterval at he
      split at he <;> first | (cases he; rfl) | skip
      split at he <;> cases he; rfl
    · rintro ⟨x, y, rfl, rfl, hxy, hc⟩
      simp only [List.mem_cons, List.not_mem_nil, or_false] at hc
      rcases hc with rfl | rfl | rfl | rfl <;> simp [mkInterval, parseClosed, hxy] at he

/-- An interval as the constructor returns it. -/
def ValidInterval (I : Interval α) : Prop := I.left ≤ I.right

theorem valid_of_mk {l r : Endpoint α} {c : String} {I : Interval α} (h : mkInterval l r c = .ok I) : ValidInterval I := by
  unfold mkInterval at h
  split at h <;> first | cases h | skip
  split at h
  · rename_i hxy; cases h; exact hxy
  · cases h

/-- **C76.** Over a dense order `is_empty` is true iff no number belongs to the interval. -/
theorem C76_is_empty [DenselyOrdered α] (l r : Endpoint α) (c : String) (I : Interval α) (h : mkInterval l r c = .ok I) :
    isEmpty I = true ↔ ∀ k, contains I k = false := by
  have hv := valid_of_mk h
  obtain ⟨x, y, c⟩ := I
  simp only [ValidInterval] at hv
  constructor
  · intro he k
    cases k with
    | notReal => rfl
    | nan => rfl
    | val k =>
      cases c <;> simp [isEmpty] at he
      all_goals subst he
      all_goals simp [contains, closedLeft, closedRight]
      exact fun h => h.le
  · intro hno
    have hx := hno (.val x)
    have hy := hno (.val y)
    rcases hv.lt_or_eq with hlt | heq
    · exfalso
      obtain ⟨z, hz1, hz2⟩ := exists_between hlt
      have := hno (.val z)
      cases c <;> simp [contains, closedLeft, closedRight, hz1, hz2, hz1.le, hz2.le] at this
    · subst heq
      cases c <;> simp [contains, closedLeft, closedRight, isEmpty] at hx ⊢

theorem contains_iff (I : Interval α) (k : α) :
    contains I (.val k) = true ↔ (I.left < k ∨ (closedLeft I = true ∧ I.left = k)) ∧ (k < I.right ∨ (closedRight I = true ∧ k = I.right)) := by
  unfold contains
  cases closedLeft I <;> cases closedRight I <;> simp [le_iff_lt_or_eq]

theorem intersects_iff (I J : Interval α) :
    intersects I J = true ↔ (I.left < J.right ∨ (closedLeft I = true ∧ closedRight J = true ∧ I.left = J.right)) ∧
      (J.left < I.right ∨ (closedLeft J = true ∧ closedRight I = true ∧ J.left = I.right)) := by
  unfold intersects
  cases closedLeft I <;> cases closedRight I <;> cases closedLeft J <;> cases closedRight J <;> simp [le_iff_lt_or_eq]

/-- **C76.** Over a dense order, for intervals that are not empty, `intersects` is true iff the intervals share a point. Missing: empty intervals, see
`C76_refuted_intersects_empty`. -/
theorem C76_intersects_partial [DenselyOrdered α] (I J : Interval α) (hI : ∃ k, contains I k = true) (hJ : ∃ k, contains J k = true) :
    intersects I J = true ↔ ∃ k, contains I k = true ∧ contains J k = true := by
  have val : ∀ (I : Interval α) k, contains I k = true → ∃ v, k = .val v := by
    intro I k h
    cases k with
    | notReal => simp [contains] at h
    | nan => simp [contains] at h
    | val v => exact ⟨v, rfl⟩
  obtain ⟨u, hu⟩ := hI
  obtain ⟨v, hv⟩ := hJ
  obtain ⟨u, rfl⟩ := val I u hu
  obtain ⟨v, rfl⟩ := val J v hv
  rw [contains_iff] at hu hv
  have hIlr : I.left < I.right ∨ (closedLeft I = true ∧ closedRight I = true ∧ I.left = I.right) := by
    obtain ⟨h1 | ⟨c1, h1⟩, h2 | ⟨c2, h2⟩⟩ := hu
    · exact .inl (h1.trans h2)
    · exact .inl (h2 ▸ h1)
    · exact .inl (h1 ▸ h2)
    · exact .inr ⟨c1, c2, h1.trans h2⟩
  have hJlr : J.left < J.right ∨ (closedLeft J = true ∧ closedRight J = true ∧ J.left = J.right) := by
    obtain ⟨h1 | ⟨c1, h1⟩, h2 | ⟨c2, h2⟩⟩ := hv
    · exact .inl (h1.trans h2)
    · exact .inl (h2 ▸ h1)
    · exact .inl (h1 ▸ h2)
    · exact .inr ⟨c1, c2, h1.trans h2⟩
  rw [intersects_iff]
  constructor
  · rintro ⟨h1, h2⟩
    -- the largest left end point and the smallest right one
    have key : ∀ a b, (a = I.left ∨ a = J.left) → (b = I.right ∨ b = J.right) → I.left ≤ a → J.left ≤ a → b ≤ I.right → b ≤ J.right →
        ∃ k, contains I k = true ∧ contains J k = true := by
      intro a b ha hb l1 l2 r1 r2
      rcases lt_trichotomy a b with hlt | heq | hgt
      · obtain ⟨z, hz1, hz2⟩ := exists_between hlt
        refine ⟨.val z, ?_, ?_⟩ <;> rw [contains_iff]
        · exact ⟨.inl (l1.trans_lt hz1), .inl (hz2.trans_le r1)⟩
        · exact ⟨.inl (l2.trans_lt hz1), .inl (hz2.trans_le r2)⟩
      · subst heq
        have q1 : I.left < a ∨ (closedLeft I = true ∧ I.left = a) := by
          rcases l1.lt_or_eq with h | h
          · exact .inl h
          · refine .inr ⟨?_, h⟩
            rcases hb with hb | hb
            · rcases hIlr with h' | h'
              · rw [h, hb] at h'; exact absurd h' (lt_irrefl _)
              · exact h'.1
            · rcases h1 with h' | h'
              · rw [h, hb] at h'; exact absurd h' (lt_irrefl _)
              · exact h'.1
        have q2 : J.left < a ∨ (closedLeft J = true ∧ J.left = a) := by
          rcases l2.lt_or_eq with h | h
          · exact .inl h
          · refine .inr ⟨?_, h⟩
            rcases hb with hb | hb
            · rcases h2 with h' | h'
              · rw [h, hb] at h'; exact absurd h' (lt_irrefl _)
              · exact h'.1
            · rcases hJlr with h' | h'
              · rw [h, hb] at h'; exact absurd h' (lt_irrefl _)
              · exact h'.1
        have q3 : a < I.right ∨ (closedRight I = true ∧ a = I.right) := by
          rcases r1.lt_or_eq with h | h
          · exact .inl h
          · refine .inr ⟨?_, h⟩
            rcases ha with ha | ha
            · rcases hIlr with h' | h'
              · rw [← h, ha] at h'; exact absurd h' (lt_irrefl _)
              · exact h'.2.1
            · rcases h2 with h' | h'
              · rw [← h, ha] at h'; exact absurd h' (lt_irrefl _)
              · exact h'.2.1
        have q4 : a < J.right ∨ (closedRight J = true ∧ a = J.right) := by
          rcases r2.lt_or_eq with h | h
          · exact .inl h
          · refine .inr ⟨?_, h⟩
            rcases ha with ha | ha
            · rcases h1 with h' | h'
              · rw [← h, ha] at h'; exact absurd h' (lt_irrefl _)
              · exact h'.2.1
            · rcases hJlr with h' | h'
              · rw [← h, ha] at h'; exact absurd h' (lt_irrefl _)
              · exact h'.2.1
        exact ⟨.val a, (contains_iff I a).2 ⟨q1, q3⟩, (contains_iff J a).2 ⟨q2, q4⟩⟩
      · exfalso
        have w1 : I.left ≤ I.right := hIlr.elim le_of_lt fun h => h.2.2.le
        have w2 : J.left ≤ J.right := hJlr.elim le_of_lt fun h => h.2.2.le
        have w3 : I.left ≤ J.right := h1.elim le_of_lt fun h => h.2.2.le
        have w4 : J.left ≤ I.right := h2.elim le_of_lt fun h => h.2.2.le
        rcases ha with rfl | rfl <;> rcases hb with rfl | rfl
        · exact absurd w1 (not_le.2 hgt)
        · exact absurd w3 (not_le.2 hgt)
        · exact absurd w4 (not_le.2 hgt)
        · exact absurd w2 (not_le.2 hgt)
    exact key (max I.left J.left) (min I.right J.right) (max_choice _ _) (min_choice _ _) (le_max_left _ _) (le_max_right _ _) (min_le_left _ _) (min_le_right _ _)
  · rintro ⟨k, h1, h2⟩
    obtain ⟨k, rfl⟩ := val I k h1
    rw [contains_iff] at h1 h2
    obtain ⟨a1, a2⟩ := h1
    obtain ⟨b1, b2⟩ := h2
    constructor
    · rcases a1 with h | ⟨c, h⟩ <;> rcases b2 with h' | ⟨c', h'⟩
      · exact .inl (h.trans h')
      · exact .inl (h' ▸ h)
      · exact .inl (h ▸ h')
      · exact .inr ⟨c, c', h.trans h'⟩
    · rcases b1 with h | ⟨c, h⟩ <;> rcases a2 with h' | ⟨c', h'⟩
      · exact .inl (h.trans h')
      · exact .inl (h' ▸ h)
      · exact .inl (h ▸ h')
      · exact .inr ⟨c, c', h.trans h'⟩

/-- Non-vacuity: `[0, 1)` and `[1, 2]` do not intersect, `[0, 1]` and `[1, 2]` do. -/
example : intersects (⟨0, 1, .left⟩ : Interval ℚ) ⟨1, 2, .both⟩ = false ∧ intersects (⟨0, 1, .both⟩ : Interval ℚ) ⟨1, 2, .both⟩ = true ∧
    contains (⟨0, 1, .left⟩ : Interval ℚ) (.val 0) = true ∧ contains (⟨1, 2, .both⟩ : Interval ℚ) (.val 2) = true := by decide +kernel

/-- **C76, false for empty intervals.** `[1, 1)` is empty and yet intersects `[0, 2]`. -/
theorem C76_refuted_intersects_empty :
    ∃ I J : Interval ℚ, mkInterval (.val 1) (.val 1) "left" = .ok I ∧ mkInterval (.val 0) (.val 2) "both" = .ok J ∧ isEmpty I = true ∧ intersects I J = true :=
  ⟨⟨1, 1, .left⟩, ⟨0, 2, .both⟩, by decide +kernel⟩

/-! ### C77 -/

/-- **C77, false.** Unpickling or copying any interval raises a `TypeError`. -/
theorem C77_refuted_pickling (I : Interval α) : unpickle I = .error .typeError := rfl

/-- The arguments that `__reduce__` returns would do if the last one were passed by keyword. -/
theorem C77_keyword_would_do (I : Interval α) (h : ValidInterval I) : construct [.num I.left, .num I.right] (some I.closed.str) = .ok I := by
  have h' : I.left ≤ I.right := h
  show mkInterval (.val I.left) (.val I.right) I.closed.str = .ok I
  rw [mkInterval_val, if_pos h']

example : unpickle (⟨0, 1, .left⟩ : Interval ℚ) = .error .typeError ∧ mkInterval (.val (0 : ℚ)) (.val 1) "left" = .ok ⟨0, 1, .left⟩ := by decide +kernel

end

/-! ### Arithmetic -/

section
variable {K : Type} [Field K] [LinearOrder K] [IsStrictOrderedRing K]

/-- Applying an order isomorphism to the end points applies it to the members. -/
theorem map_members {α : Type} [LinearOrder α] (e : α ≃o α) (I : Interval α) (h : ValidInterval I) :
    ∃ J, mkInterval (.val (e I.left)) (.val (e I.right)) I.closed.str = .ok J ∧ ValidInterval J ∧
      ∀ z, contains J (.val z) = true ↔ ∃ x, contains I (.val x) = true ∧ e x = z := by
  refine ⟨⟨e I.left, e I.right, I.closed⟩, ?_, e.monotone h, ?_⟩
  · rw [mkInterval_val, if_pos (e.monotone h)]
  · have key : ∀ x, contains (⟨e I.left, e I.right, I.closed⟩ : Interval α) (.val (e x)) = contains I (.val x) := by
      intro x
      unfold contains closedLeft closedRight
      simp only [e.le_iff_le, e.lt_iff_lt]
    intro z
    constructor
    · intro hz
      refine ⟨e.symm z, ?_, e.apply_symm_apply z⟩
      rw [← key, e.apply_symm_apply]; exact hz
    · rintro ⟨x, hx, rfl⟩
      rw [key]; exact hx

/-- Translation of the extended numbers. -/
def shiftIso (y : K) : Ext K ≃o Ext K := (OrderIso.addRight y).withTopCongr.withBotCongr

/-- Positive scaling of the extended numbers. -/
def scaleIso (y : K) (hy : 0 < y) : Ext K ≃o Ext K := (OrderIso.mulRight₀ y hy).withTopCongr.withBotCongr

theorem extAdd_eq (y : K) (x : Ext K) : extAdd y x = .val (shiftIso y x) := by
  rcases x with _ | _ | x <;> rfl

theorem extMul_eq (y : K) (hy : 0 < y) (x : Ext K) : extMul y x = .val (scaleIso y hy x) := by
  rcases x with _ | _ | x
  · exact if_pos hy
  · exact if_pos hy
  · rfl

theorem extSum_iff (y : K) (x z : Ext K) : ExtSum y x z ↔ shiftIso y x = z := by
  constructor
  · rintro (_ | _ | x) <;> rfl
  · rintro rfl
    rcases x with _ | _ | x
    · exact .negInf
    · exact .posInf
    · exact .finite x

theorem extProd_iff (y : K) (hy : 0 < y) (x z : Ext K) : ExtProd y x z ↔ scaleIso y hy x = z := by
  constructor
  · rintro (_ | _ | x) <;> rfl
  · rintro rfl
    rcases x with _ | _ | x
    · exact .negInf
    · exact .posInf
    · exact .finite x

/-- **C76.** `I + y` and `I - y` are the intervals of all sums and differences. -/
theorem C76_translate (I : Interval (Ext K)) (h : I.left ≤ I.right) (y : K) :
    (∃ J, pyAdd (.ivl I) (.num y) = .ok (.ivl J) ∧ ∀ z, contains J (.val z) = true ↔ ∃ x, contains I (.val x) = true ∧ ExtSum y x z) ∧
    (∃ J, pySub (.ivl I) (.num y) = .ok (.ivl J) ∧ ∀ z, contains J (.val z) = true ↔ ∃ x, contains I (.val x) = true ∧ ExtSum (-y) x z) := by
  constructor
  · obtain ⟨J, h1, -, h2⟩ := map_members (shiftIso y) I h
    refine ⟨J, ?_, ?_⟩
    · show (mkInterval (extAdd y I.left) (extAdd y I.right) I.closed.str).map Operand.ivl = _
      rw [extAdd_eq, extAdd_eq, h1]; rfl
    · simpa only [extSum_iff] using h2
  · obtain ⟨J, h1, -, h2⟩ := map_members (shiftIso (-y)) I h
    refine ⟨J, ?_, ?_⟩
    · show (mkInterval (extAdd (-y) I.left) (extAdd (-y) I.right) I.closed.str).map Operand.ivl = _
      rw [extAdd_eq, extAdd_eq, h1]; rfl
    · simpa only [extSum_iff] using h2

/-- **C76.** For `y > 0`, `I * y` and `I / y` are the intervals of all products and quotients. -/
theorem C76_scale (I : Interval (Ext K)) (h : I.left ≤ I.right) (y : K) (hy : 0 < y) :
    (∃ J, pyMul (.ivl I) (.num y) = .ok (.ivl J) ∧ ∀ z, contains J (.val z) = true ↔ ∃ x, contains I (.val x) = true ∧ ExtProd y x z) ∧
    (∃ J, pyDiv (.ivl I) (.num y) = .ok (.ivl J) ∧ ∀ z, contains J (.val z) = true ↔ ∃ x, contains I (.val x) = true ∧ ExtProd y⁻¹ x z) := by
  constructor
  · obtain ⟨J, h1, -, h2⟩ := map_members (scaleIso y hy) I h
    refine ⟨J, ?_, ?_⟩
    · show (mkInterval (extMul y I.left) (extMul y I.right) I.closed.str).map Operand.ivl = _
      rw [extMul_eq y hy, extMul_eq y hy, h1]; rfl
    · simpa only [extProd_iff y hy] using h2
  · have hy' := inv_pos.2 hy
    obtain ⟨J, h1, -, h2⟩ := map_members (scaleIso y⁻¹ hy') I h
    refine ⟨J, ?_, ?_⟩
    · show (if y = 0 then _ else (mkInterval (extMul y⁻¹ I.left) (extMul y⁻¹ I.right) I.closed.str).map Operand.ivl) = _
      rw [if_neg hy.ne', extMul_eq _ hy', extMul_eq _ hy', h1]; rfl
    · simpa only [extProd_iff _ hy'] using h2

/-- Non-vacuity: `[0, inf) + 1` and `[0, 1] * 2`. -/
example : pyAdd (.ivl ⟨fin (0 : ℚ), ⊤, .left⟩) (.num 1) = .ok (.ivl ⟨fin 1, ⊤, .left⟩) ∧ pyMul (.ivl ⟨fin (0 : ℚ), fin 1, .both⟩) (.num 2) = .ok (.ivl ⟨fin 0, fin 2, .both⟩) := by
  constructor
  · show (mkInterval (.val (fin (0 + 1 : ℚ))) (.val ⊤) "left").map Operand.ivl = _
    simp [mkInterval, parseClosed, Except.map]
  · show (mkInterval (.val (fin (0 * 2 : ℚ))) (.val (fin (1 * 2 : ℚ))) "both").map Operand.ivl = _
    have : fin (0 : ℚ) ≤ fin (2 : ℚ) := WithBot.coe_le_coe.2 (WithTop.coe_le_coe.2 (by norm_num))
    simp [mkInterval, parseClosed, Except.map, this]

/-- **C76, other factors.** Multiplying an interval with finite end points `a < b` by a negative number raises a `ValueError`. -/
theorem C76_refuted_negative_factor (a b : K) (hab : a < b) (c : Closed) (y : K) (hy : y < 0) : pyMul (.ivl ⟨fin a, fin b, c⟩) (.num y) = .error .valueError := by
  show (mkInterval (.val (fin (a * y))) (.val (fin (b * y))) c.str).map Operand.ivl = _
  have : ¬ fin (a * y) ≤ fin (b * y) := by
    unfold fin
    rw [WithBot.coe_le_coe, WithTop.coe_le_coe, not_le]
    exact mul_lt_mul_of_neg_right hab hy
  rw [mkInterval_val, if_neg this]; rfl

/-- **C76, factor zero.** The product of `(0, 1)` and `0` contains nothing, although the products of its members with zero are zero. -/
theorem C76_refuted_factor_zero (a b : K) (hab : a < b) : (∃ k, contains (⟨fin a, fin b, .neither⟩ : Interval (Ext K)) k = true) ∧
    ∃ J, pyMul (.ivl ⟨fin a, fin b, .neither⟩) (.num 0) = .ok (.ivl J) ∧ ∀ k, contains J k = false := by
  refine ⟨?_, ⟨fin (a * 0), fin (b * 0), .neither⟩, ?_, ?_⟩
  · obtain ⟨z, h1, h2⟩ := exists_between hab
    refine ⟨.val (fin z), (contains_iff _ _).2 ⟨.inl ?_, .inl ?_⟩⟩
    · exact WithBot.coe_lt_coe.2 (WithTop.coe_lt_coe.2 h1)
    · exact WithBot.coe_lt_coe.2 (WithTop.coe_lt_coe.2 h2)
  · show (mkInterval (.val (fin (a * 0))) (.val (fin (b * 0))) "neither").map Operand.ivl = _
    simp [mkInterval, parseClosed, Except.map]
  · intro k
    cases k with
    | notReal => rfl
    | nan => rfl
    | val k =>
      simp only [mul_zero]
      by_contra hc
      rw [Bool.not_eq_false, contains_iff] at hc
      simp only [closedLeft, closedRight] at hc
      rcases hc with ⟨h1 | ⟨h1, -⟩, h2 | ⟨h2, -⟩⟩
      · exact lt_irrefl _ (h1.trans h2)
      · exact absurd h2 (by decide)
      · exact absurd h1 (by decide)
      · exact absurd h1 (by decide)

/-- **C76, commutativity fails.** A number on the left of `+` or `*` raises a `TypeError`, although the methods have branches for it. -/
theorem C76_refuted_number_on_the_left (I : Interval (Ext K)) (y : K) : pyAdd (.num y) (.ivl I) = .error .typeError ∧ pyMul (.num y) (.ivl I) = .error .typeError := ⟨rfl, rfl⟩

end

end Gtda.Props
