import Verif.Model.IntervalsMore
import Verif.Props.Intervals
import Mathlib.Tactic.Linarith
import Mathlib.Tactic.Ring
import Mathlib.Tactic.FieldSimp

set_option autoImplicit false
set_option linter.unusedSectionVars false

/-!
# C127: midpoint, length, floor division, text forms and identity of intervals
-/

namespace Gtda.Props.IntervalsMore
open Gtda.Py Gtda.Intervals Gtda.IntervalsMore Gtda.Spec

/-- Text before the first comma is determined. -/
theorem split_comma {a b c d : List Char} (ha : ',' ∉ a) (hc : ',' ∉ c) (h : a ++ ',' :: b = c ++ ',' :: d) : a = c ∧ b = d := by
  induction a generalizing c with
  | nil =>
    cases c with
    | nil => exact ⟨rfl, by simpa using h⟩
    | cons x c =>
      exfalso
      rw [List.nil_append, List.cons_append, List.cons.injEq] at h
      exact hc (by rw [← h.1]; exact List.mem_cons_self)
  | cons x a ih =>
    cases c with
    | nil =>
      exfalso
      rw [List.nil_append, List.cons_append, List.cons.injEq] at h
      exact ha (by rw [h.1]; exact List.mem_cons_self)
    | cons y c =>
      rw [List.cons_append, List.cons_append, List.cons.injEq] at h
      obtain ⟨h1, h2⟩ := ih (fun hm => ha (List.mem_cons_of_mem _ hm)) (fun hm => hc (List.mem_cons_of_mem _ hm)) h.2
      exact ⟨by rw [h.1, h1], h2⟩

theorem str_inj {c c' : Closed} (h : c.str = c'.str) : c = c' := by
  have := congrArg parseClosed h
  rw [parse_str, parse_str] at this
  exact Option.some.inj this

section
variable {K : Type} [Field K] [LinearOrder K] [IsStrictOrderedRing K]

theorem fin_le {a b : K} : fin a ≤ fin b ↔ a ≤ b := by
  unfold fin
  rw [WithBot.coe_le_coe, WithTop.coe_le_coe]

theorem fin_lt {a b : K} : fin a < fin b ↔ a < b := by
  unfold fin
  rw [WithBot.coe_lt_coe, WithTop.coe_lt_coe]

theorem contains_fin (a b k : K) (c : Closed) : contains (⟨fin a, fin b, c⟩ : Interval (Ext K)) (.val (fin k)) = true ↔ contains (⟨a, b, c⟩ : Interval K) (.val k) = true := by
  unfold contains closedLeft closedRight
  simp only [fin_le, fin_lt]

theorem contains_range {a b k : K} {c : Closed} (h : contains (⟨a, b, c⟩ : Interval K) (.val k) = true) : a ≤ k ∧ k ≤ b := by
  obtain ⟨h1, h2⟩ := (contains_iff _ _).1 h
  refine ⟨?_, ?_⟩
  · rcases h1 with h1 | ⟨-, h1⟩
    · exact h1.le
    · first | exact h1 | exact h1.le | exact h1.ge
  · rcases h2 with h2 | ⟨-, h2⟩
    · exact h2.le
    · first | exact h2 | exact h2.le | exact h2.ge

theorem contains_inside {a b k : K} {c : Closed} (h1 : a < k) (h2 : k < b) : contains (⟨a, b, c⟩ : Interval K) (.val k) = true := (contains_iff _ _).2 ⟨.inl h1, .inl h2⟩

/-- A finite member of an interval with finite ends. -/
theorem member_fin {a b : K} {c : Closed} {k : Endpoint (Ext K)} (h : contains (⟨fin a, fin b, c⟩ : Interval (Ext K)) k = true) :
    ∃ x : K, k = .val (fin x) ∧ contains (⟨a, b, c⟩ : Interval K) (.val x) = true := by
  cases k with
  | notReal => cases h
  | nan => cases h
  | val z =>
    have hz := (contains_iff _ _).1 h
    have h1 : fin a ≤ z := by
      rcases hz.1 with h | ⟨-, h⟩
      · exact h.le
      · first | exact h | exact h.le | exact h.ge
    have h2 : z ≤ fin b := by
      rcases hz.2 with h | ⟨-, h⟩
      · exact h.le
      · first | exact h | exact h.le | exact h.ge
    rcases z with _ | _ | z
    · exact absurd h1 (by unfold fin; exact not_le.2 (WithBot.bot_lt_coe _))
    · exact absurd h2 (by unfold fin; exact not_le.2 (WithBot.coe_lt_coe.2 (WithTop.coe_lt_top _)))
    · exact ⟨z, rfl, (contains_fin a b z c).1 h⟩

end

end Gtda.Props.IntervalsMore

namespace Gtda.Props
open Gtda.Py Gtda.Intervals Gtda.IntervalsMore Gtda.Spec Gtda.Props.IntervalsMore

section
variable {K : Type} [Field K] [LinearOrder K] [IsStrictOrderedRing K]

/-- **C127.** The midpoint of an interval with finite end points is as far from one end as from the other, and is a member exactly if the interval is not reported to be empty. -/
theorem C127_mid (a b : K) (hab : a ≤ b) (c : Closed) :
    ∃ m : K, mid (⟨fin a, fin b, c⟩ : Interval (Ext K)) = .val (fin m) ∧ m - a = b - m ∧ contains (⟨fin a, fin b, c⟩ : Interval (Ext K)) (.val (fin m)) = !(isEmpty (⟨fin a, fin b, c⟩ : Interval (Ext K))) := by
  refine ⟨(a + b) * 2⁻¹, rfl, by field_simp; ring, ?_⟩
  have hemp : isEmpty (⟨fin a, fin b, c⟩ : Interval (Ext K)) = true ↔ a = b ∧ c ≠ .both := by
    unfold isEmpty
    rw [Bool.and_eq_true, decide_eq_true_iff]
    constructor
    · rintro ⟨h1, h2⟩
      exact ⟨le_antisymm hab (fin_le.1 h1.le), by simpa using h2⟩
    · rintro ⟨rfl, h2⟩
      exact ⟨rfl, by simpa using h2⟩
  rw [Bool.eq_iff_iff, contains_fin, Bool.not_eq_true', ← Bool.not_eq_true, hemp]
  rcases hab.lt_or_eq with h | rfl
  · refine ⟨fun _ hc => h.ne hc.1, fun _ => contains_inside ?_ ?_⟩
    · rw [← div_eq_mul_inv]; linarith
    · rw [← div_eq_mul_inv]; linarith
  · have hm : (a + a) * (2 : K)⁻¹ = a := by field_simp; ring
    rw [hm]
    unfold contains closedLeft closedRight
    cases c <;> simp

/-- **C127.** The length of an interval with finite end points is nonnegative and, if the interval has members, the supremum of the distances of two of its members. -/
theorem C127_length (a b : K) (hab : a ≤ b) (c : Closed) :
    ∃ d : K, IntervalsMore.length (⟨fin a, fin b, c⟩ : Interval (Ext K)) = .val (fin d) ∧ 0 ≤ d ∧
      (∀ x y, contains (⟨fin a, fin b, c⟩ : Interval (Ext K)) (.val (fin x)) = true → contains (⟨fin a, fin b, c⟩ : Interval (Ext K)) (.val (fin y)) = true → |x - y| ≤ d) ∧
      ((∃ k, contains (⟨fin a, fin b, c⟩ : Interval (Ext K)) k = true) →
        ∀ e, e < d → ∃ x y, contains (⟨fin a, fin b, c⟩ : Interval (Ext K)) (.val (fin x)) = true ∧ contains (⟨fin a, fin b, c⟩ : Interval (Ext K)) (.val (fin y)) = true ∧ e < |x - y|) := by
  refine ⟨b + -a, rfl, by linarith, ?_, ?_⟩
  · intro x y hx hy
    obtain ⟨h1, h2⟩ := contains_range ((contains_fin a b x c).1 hx)
    obtain ⟨h3, h4⟩ := contains_range ((contains_fin a b y c).1 hy)
    rw [abs_le]
    constructor <;> linarith
  · rintro ⟨k, hk⟩ e he
    obtain ⟨x, -, hx⟩ := member_fin hk
    rcases hab.lt_or_eq with h | rfl
    · obtain ⟨δ, hδ0, hδ⟩ : ∃ δ : K, 0 < δ ∧ 2 * δ < b - a ∧ 2 * δ < b - a - e := by
        refine ⟨min (b - a) (b - a - e) / 4, ?_, ?_, ?_⟩
        · exact div_pos (lt_min (by linarith) (by linarith)) (by norm_num)
        · have hp : 0 < min (b - a) (b - a - e) := lt_min (by linarith) (by linarith)
          have := min_le_left (b - a) (b - a - e)
          linarith
        · have hp : 0 < min (b - a) (b - a - e) := lt_min (by linarith) (by linarith)
          have := min_le_right (b - a) (b - a - e)
          linarith
      refine ⟨b - δ, a + δ, (contains_fin a b _ c).2 (contains_inside (by linarith) (by linarith)), (contains_fin a b _ c).2 (contains_inside (by linarith) (by linarith)), ?_⟩
      refine lt_of_lt_of_le ?_ (le_abs_self _)
      linarith
    · refine ⟨x, x, (contains_fin a a x c).2 hx, (contains_fin a a x c).2 hx, ?_⟩
      rw [sub_self, abs_zero]
      linarith

/-- **C127, infinite end points.** The midpoint of the whole line is NaN and its length infinite; half-lines have an infinite midpoint and an infinite length; an interval made of one infinity has a midpoint, but its length is NaN. -/
theorem C127_infinite (a : K) (c : Closed) :
    (mid (⟨⊥, ⊤, c⟩ : Interval (Ext K)) = .nan ∧ IntervalsMore.length (⟨⊥, ⊤, c⟩ : Interval (Ext K)) = .val ⊤) ∧
    (mid (⟨fin a, ⊤, c⟩ : Interval (Ext K)) = .val ⊤ ∧ IntervalsMore.length (⟨fin a, ⊤, c⟩ : Interval (Ext K)) = .val ⊤) ∧
    (mid (⟨⊥, fin a, c⟩ : Interval (Ext K)) = .val ⊥ ∧ IntervalsMore.length (⟨⊥, fin a, c⟩ : Interval (Ext K)) = .val ⊤) ∧
    (mid (⟨⊤, ⊤, c⟩ : Interval (Ext K)) = .val ⊤ ∧ IntervalsMore.length (⟨⊤, ⊤, c⟩ : Interval (Ext K)) = .nan) ∧
    (mid (⟨⊥, ⊥, c⟩ : Interval (Ext K)) = .val ⊥ ∧ IntervalsMore.length (⟨⊥, ⊥, c⟩ : Interval (Ext K)) = .nan) := by
  have h2 : (0 : K) < 2⁻¹ := by norm_num
  refine ⟨⟨rfl, rfl⟩, ⟨if_pos h2, rfl⟩, ⟨if_pos h2, rfl⟩, ⟨if_pos h2, rfl⟩, ⟨if_pos h2, rfl⟩⟩

/-- **C127.** `open_left` and `open_right` say, for an interval with members, that the end point is not a member. -/
theorem C127_open {α : Type} [LinearOrder α] (I : Interval α) (h : ∃ k, contains I k = true) :
    (openLeft I = true ↔ contains I (.val I.left) = false) ∧ (openRight I = true ↔ contains I (.val I.right) = false) := by
  obtain ⟨k, hk⟩ := h
  cases k with
  | notReal => cases hk
  | nan => cases hk
  | val k =>
    obtain ⟨l, r, c⟩ := I
    have hlr : l ≤ r ∧ (c ≠ .both → l < r) := by
      unfold contains closedLeft closedRight at hk
      cases c <;> simp at hk <;> refine ⟨?_, ?_⟩ <;> first | exact hk.1.trans hk.2 | exact (hk.1.trans_lt hk.2).le | exact (hk.1.trans_le hk.2).le | exact (hk.1.trans hk.2).le | (intro; first | exact hk.1.trans_lt hk.2 | exact hk.1.trans_le hk.2 | exact hk.1.trans hk.2 | contradiction)
    unfold openLeft openRight contains closedLeft closedRight
    cases c
    · have := hlr.2 (by decide); simp [this]
    · have := hlr.2 (by decide); simp [this]
    · simp [hlr.1]
    · simp

/-- **C127.** `str` and `repr` distinguish intervals: if numbers are written differently and without commas, then intervals with the same text have the same end points and the same closed sides. -/
theorem C127_text {α : Type} [LinearOrder α] (sh : α → List Char) (hinj : Function.Injective sh) (hcomma : ∀ x, ',' ∉ sh x) : Function.Injective (strOf sh) ∧ Function.Injective (reprOf sh) := by
  constructor
  · rintro ⟨l, r, c⟩ ⟨l', r', c'⟩ h
    unfold strOf at h
    dsimp only at h
    rw [List.cons.injEq, List.append_assoc, List.append_assoc, List.append_assoc, List.append_assoc] at h
    obtain ⟨h0, h⟩ := h
    obtain ⟨h1, h⟩ := split_comma (hcomma l) (hcomma l') h
    obtain ⟨h2, h3⟩ := List.append_inj' (s₁ := sh r) (s₂ := sh r') (List.append_cancel_left (as := [' ']) h) rfl
    cases hinj h1
    cases hinj h2
    have h3 := List.singleton_inj.1 h3
    unfold closedLeft at h0
    unfold closedRight at h3
    dsimp only at h0 h3
    cases c <;> cases c' <;> first | rfl | (exfalso; simp at h0; done) | (exfalso; simp at h3; done)
  · rintro ⟨l, r, c⟩ ⟨l', r', c'⟩ h
    unfold reprOf at h
    dsimp only at h
    simp only [List.append_assoc] at h
    have h := List.append_cancel_left h
    obtain ⟨h1, h⟩ := split_comma (hcomma l) (hcomma l') h
    obtain ⟨h2, h⟩ := split_comma (hcomma r) (hcomma r') (List.append_cancel_left (as := [' ']) h)
    have h := List.append_cancel_right (List.append_cancel_left (as := [' ', 'c', 'l', 'o', 's', 'e', 'd', '=', '\'']) h)
    rw [hinj h1, hinj h2, str_inj (String.toList_inj.1 h)]

/-- Text of `[0, 1)`, numbers being written in unary. -/
example : strOf (fun n : Nat => List.replicate n 'I') ⟨0, 1, .left⟩ = "[, I)".toList ∧ reprOf (fun n : Nat => List.replicate n 'I') ⟨0, 1, .left⟩ = "Interval(, I, closed='left')".toList ∧
    Function.Injective (fun n : Nat => List.replicate n 'I') ∧ ∀ n : Nat, ',' ∉ List.replicate n 'I' := by
  refine ⟨by decide, by decide, ?_, ?_⟩
  · intro m n h
    simpa using congrArg List.length h
  · intro n hn
    exact absurd (List.eq_of_mem_replicate hn) (by decide)

/-- **C127.** Asking whether an interval contains an interval is a `TypeError`. -/
theorem C127_interval_in_interval {α : Type} [LinearOrder α] (I : Interval α) : containsKey I .intervalLike = .error .typeError ∧ ∀ x, containsKey I (.number x) = .ok (contains I x) := ⟨rfl, fun _ => rfl⟩

/-- **C127.** Intervals with the same end points and closed sides have the same hash, and if triples are hashed without collisions only these; but intervals are equal only if they are one and the same object. -/
theorem C127_hash {α H : Type} [LinearOrder α] (h : α × α × Closed → H) (o o' : Object α) :
    (o.value = o'.value → hashOf h o = hashOf h o') ∧ (Function.Injective h → hashOf h o = hashOf h o' → o.value = o'.value) ∧ (eqOf o o' = true ↔ o.address = o'.address) := by
  refine ⟨fun e => ?_, fun hi e => ?_, beq_iff_eq⟩
  · unfold hashOf
    rw [e]
  · have := hi e
    obtain ⟨n, l, r, c⟩ := o
    obtain ⟨n', l', r', c'⟩ := o'
    simp only [Prod.mk.injEq] at this
    obtain ⟨rfl, rfl, rfl⟩ := this
    rfl

/-- **C127 refuted.** Intervals are not compared by value: an interval constructed anew is found in no dictionary whose keys are other objects, even if it has the value of a key. -/
theorem C127_refuted_equality {α β H : Type} [LinearOrder α] [DecidableEq H] (h : α × α × Closed → H) (d : List (Object α × β)) (key : Object α) (hnew : ∀ e ∈ d, e.1.address ≠ key.address) : lookup h d key = none := by
  unfold lookup
  rw [Option.map_eq_none_iff, List.find?_eq_none]
  intro e he
  unfold eqOf
  simp [hnew e he]

/-- `{Interval(0, 1, closed='both'): 5}[Interval(0, 1, closed='both')]` finds nothing; the original key is found. -/
example : lookup (fun t => t) [((⟨1, ⟨0, 1, .both⟩⟩ : Object Nat), 5)] ⟨2, ⟨0, 1, .both⟩⟩ = none ∧ lookup (fun t => t) [((⟨1, ⟨0, 1, .both⟩⟩ : Object Nat), 5)] ⟨1, ⟨0, 1, .both⟩⟩ = some 5 := by decide

variable [FloorRing K]

/-- **C127 (partial: closed on both sides, finite, positive divisor).** `I // y` contains the integer quotients of all members, and its end points are such quotients. -/
theorem C127_floordiv_partial (a b y : K) (hab : a ≤ b) (hy : 0 < y) :
    ∃ J, floorDiv (.ivl (⟨fin a, fin b, .both⟩ : Interval (Ext K))) (.num y) = .ok (.ivl J) ∧ J.left = fin (⌊a / y⌋ : K) ∧ J.right = fin (⌊b / y⌋ : K) ∧
      ∀ x : K, contains (⟨fin a, fin b, .both⟩ : Interval (Ext K)) (.val (fin x)) = true → contains J (.val (fin (⌊x / y⌋ : K))) = true := by
  have mono : ∀ {u v : K}, u ≤ v → (⌊u / y⌋ : K) ≤ (⌊v / y⌋ : K) := fun h => Int.cast_le.2 (Int.floor_le_floor (div_le_div_of_nonneg_right h hy.le))
  refine ⟨⟨fin (⌊a / y⌋ : K), fin (⌊b / y⌋ : K), .both⟩, ?_, rfl, rfl, ?_⟩
  · unfold floorDiv
    dsimp only
    rw [if_neg hy.ne']
    unfold extFloorDiv
    change Except.map _ (mkInterval (.val (fin (⌊a / y⌋ : K))) (.val (fin (⌊b / y⌋ : K))) Closed.both.str) = _
    rw [mkInterval_val, if_pos (fin_le.2 (mono hab))]
    rfl
  · intro x hx
    obtain ⟨h1, h2⟩ := contains_range ((contains_fin a b x .both).1 hx)
    rw [contains_fin]
    unfold contains closedLeft closedRight
    simp [Int.floor_le_floor (div_le_div_of_nonneg_right h1 hy.le), Int.floor_le_floor (div_le_div_of_nonneg_right h2 hy.le)]

/-- **C127.** Division by zero is refused, of numbers and of intervals; a number is divided as usual; nothing can be divided by an interval. -/
theorem C127_floordiv_numbers (x y : K) (I : Interval (Ext K)) (o : Operand K) :
    (y ≠ 0 → floorDiv (.num x) (.num y) = .ok (.num (⌊x / y⌋ : K))) ∧ floorDiv (.num x) (.num 0) = .error .zeroDivision ∧ floorDiv (.ivl I) (.num (0 : K)) = .error .zeroDivision ∧
      floorDiv o (.ivl I) = .error .typeError := by
  refine ⟨fun h => if_neg h, if_pos rfl, if_pos rfl, ?_⟩
  cases o <;> rfl

/-- **C127 refuted for open intervals.** With an open left end, the quotients of members need not be members: `1/2 + 1/4` is in `(1/2, 3/2)`, but its integer part is not in `(1/2, 3/2) // 1`. -/
theorem C127_refuted_floordiv_open : ∃ J, floorDiv (.ivl (⟨fin (1 / 2 : ℚ), fin (3 / 2), .neither⟩ : Interval (Ext ℚ))) (.num 1) = .ok (.ivl J) ∧
    contains (⟨fin (1 / 2 : ℚ), fin (3 / 2), .neither⟩ : Interval (Ext ℚ)) (.val (fin (3 / 4))) = true ∧ contains J (.val (fin ((⌊(3 / 4 : ℚ) / 1⌋ : ℤ) : ℚ))) = false := by
  refine ⟨⟨fin ((⌊(1 / 2 : ℚ) / 1⌋ : ℤ) : ℚ), fin ((⌊(3 / 2 : ℚ) / 1⌋ : ℤ) : ℚ), .neither⟩, ?_, ?_, ?_⟩
  · unfold floorDiv
    dsimp only
    rw [if_neg one_ne_zero]
    change Except.map _ (mkInterval (.val (fin ((⌊(1 / 2 : ℚ) / 1⌋ : ℤ) : ℚ))) (.val (fin ((⌊(3 / 2 : ℚ) / 1⌋ : ℤ) : ℚ))) Closed.neither.str) = _
    rw [mkInterval_val, if_pos (fin_le.2 (Int.cast_le.2 (Int.floor_le_floor (by norm_num))))]
    rfl
  · rw [contains_fin]; decide +kernel
  · rw [← Bool.not_eq_true, contains_fin]; decide +kernel

/-- **C127 refuted for infinite end points.** Floor division of an interval with an infinite end point is a `ValueError`, whatever the divisor other than zero. -/
theorem C127_refuted_floordiv_infinite (I : Interval (Ext K)) (h : I.left = ⊥ ∨ I.right = ⊤) (y : K) (hy : y ≠ 0) : floorDiv (.ivl I) (.num y) = .error .valueError := by
  unfold floorDiv
  dsimp only
  rw [if_neg hy]
  have : mkInterval (extFloorDiv y I.left) (extFloorDiv y I.right) I.closed.str = .error .valueError := by
    rcases h with h | h <;> rw [h]
    · change mkInterval .nan _ _ = _
      unfold mkInterval
      rw [parse_str]
      rcases I.right with _ | _ | x <;> rfl
    · change mkInterval _ .nan _ = _
      unfold mkInterval
      rw [parse_str]
      rcases I.left with _ | _ | x <;> rfl
  rw [this]
  rfl

/-- **C127 refuted for negative divisors.** Floor division by a negative number raises a `ValueError`, unless the quotients of both ends are the same. -/
theorem C127_refuted_floordiv_negative (a b y : K) (hab : a ≤ b) (hy : y < 0) (c : Closed) (hne : ⌊a / y⌋ ≠ ⌊b / y⌋) : floorDiv (.ivl (⟨fin a, fin b, c⟩ : Interval (Ext K))) (.num y) = .error .valueError := by
  unfold floorDiv
  dsimp only
  rw [if_neg hy.ne]
  change Except.map _ (mkInterval (.val (fin (⌊a / y⌋ : K))) (.val (fin (⌊b / y⌋ : K))) c.str) = _
  have hle : ⌊b / y⌋ ≤ ⌊a / y⌋ := Int.floor_le_floor (div_le_div_of_nonpos_of_le hy.le hab)
  rw [mkInterval_val, if_neg ?_]
  · rfl
  · rw [fin_le, Int.cast_le]
    omega

example : ⌊(0 : ℚ) / -1⌋ ≠ ⌊(1 : ℚ) / -1⌋ := by decide +kernel

/-- `[0, 1]` has midpoint 1/2, and dividing `[1/2, 7/2]` by one gives `[0, 3]`. -/
example : mid (⟨fin (0 : ℚ), fin 1, .both⟩ : Interval (Ext ℚ)) = .val (fin ((0 + 1) * 2⁻¹)) ∧ ((0 + 1) * 2⁻¹ : ℚ) = 1 / 2 ∧ ⌊(1 / 2 : ℚ) / 1⌋ = 0 ∧ ⌊(7 / 2 : ℚ) / 1⌋ = 3 := by
  refine ⟨rfl, by norm_num, by decide +kernel, by decide +kernel⟩

end

end Gtda.Props
