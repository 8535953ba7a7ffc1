import Verif.Lemmas.CoverMasks
import Verif.Spec.Cover
import Mathlib.Tactic.FieldSimp
import Mathlib.Tactic.Ring
import Mathlib.Tactic.NormNum
import Mathlib.Data.Finset.Max

set_option autoImplicit false

/-!
# Helper lemmas: limits of covers
-/

namespace Gtda.Mapper
open Gtda.Py Gtda.Spec

section
variable {K : Type} [Field K] [LinearOrder K]

theorem inIval_iff (I : Ival K) (x : K) : inIval I x = true ↔ InOpen I x := by
  obtain ⟨l, r⟩ := I
  unfold inIval InOpen
  cases l <;> cases r <;> simp

theorem foldl_min_spec (t : List K) (x : K) : t.foldl min x ∈ x :: t ∧ ∀ y ∈ x :: t, t.foldl min x ≤ y := by
  induction t generalizing x with
  | nil => simp
  | cons a t ih =>
    obtain ⟨h1, h2⟩ := ih (min x a)
    rw [List.foldl_cons]
    constructor
    · rw [List.mem_cons] at h1
      rcases h1 with h | h
      · rw [h]
        rcases le_total x a with h' | h'
        · rw [min_eq_left h']; simp
        · rw [min_eq_right h']; simp
      · simp [h]
    · intro y hy
      rw [List.mem_cons, List.mem_cons] at hy
      rcases hy with rfl | rfl | h
      · exact (h2 _ List.mem_cons_self).trans (min_le_left _ _)
      · exact (h2 _ List.mem_cons_self).trans (min_le_right _ _)
      · exact h2 y (by simp [h])

theorem foldl_max_spec {L : Type} [LinearOrder L] (t : List L) (x : L) : t.foldl max x ∈ x :: t ∧ ∀ y ∈ x :: t, y ≤ t.foldl max x := by
  induction t generalizing x with
  | nil => simp
  | cons a t ih =>
    obtain ⟨h1, h2⟩ := ih (max x a)
    rw [List.foldl_cons]
    constructor
    · rw [List.mem_cons] at h1
      rcases h1 with h | h
      · rw [h]
        rcases le_total x a with h' | h'
        · rw [max_eq_right h']; simp
        · rw [max_eq_left h']; simp
      · simp [h]
    · intro y hy
      rw [List.mem_cons, List.mem_cons] at hy
      rcases hy with rfl | rfl | h
      · exact (le_max_left _ _).trans (h2 _ List.mem_cons_self)
      · exact (le_max_right _ _).trans (h2 _ List.mem_cons_self)
      · exact h2 y (by simp [h])

variable [IsStrictOrderedRing K]

/-- Length of the intervals. -/
def ilen (a b : K) (n : Nat) (f : K) : K := (b - a) / ((n : K) - ((n : K) - 1) * f)

theorem denom_pos (n : Nat) (hn : 1 ≤ n) (f : K) (hf0 : 0 < f) (hf1 : f < 1) : 1 ≤ (n : K) - ((n : K) - 1) * f := by
  have h1 : (1 : K) ≤ n := by exact_mod_cast hn
  have : ((n : K) - 1) * f ≤ ((n : K) - 1) * 1 := mul_le_mul_of_nonneg_left hf1.le (by linarith)
  linarith

theorem ilen_mul (a b : K) (n : Nat) (hn : 1 ≤ n) (f : K) (hf0 : 0 < f) (hf1 : f < 1) :
    ilen a b n f * ((n : K) - ((n : K) - 1) * f) = b - a := by
  unfold ilen
  have := denom_pos n hn f hf0 hf1
  rw [div_mul_cancel₀]; linarith

/-- The limits computed by `_cover_limits`. -/
theorem coverLimits_get (a b : K) (n : Nat) (f : K) :
    (coverLimits a b n f).1.length = n ∧ (coverLimits a b n f).2.length = n ∧
    ∀ k, k < n → (coverLimits a b n f).1[k]? = some (a + k * ((1 - f) * ilen a b n f)) ∧
      (coverLimits a b n f).2[k]? = some (a + k * ((1 - f) * ilen a b n f) + ilen a b n f) := by
  unfold coverLimits linspace
  simp only
  refine ⟨by simp, by simp, ?_⟩
  intro k hk
  have key : a + (k : K) * ((a + ((n : K) - 1) * (1 - f) * ((b - a) / ((n : K) - ((n : K) - 1) * f)) - a) / ((n : K) - 1)) =
      a + k * ((1 - f) * ilen a b n f) := by
    by_cases h1 : n = 1
    · have : k = 0 := by omega
      subst this; simp
    · have hn1 : ((n : K) - 1) ≠ 0 := by
        have : (n : K) ≠ 1 := by exact_mod_cast h1
        exact sub_ne_zero.2 this
      unfold ilen
      rw [add_sub_cancel_left, mul_assoc, mul_div_cancel_left₀ _ hn1]
  constructor
  · rw [List.getElem?_map, List.getElem?_range hk]; simp only [Option.map_some]; rw [key]
  · rw [List.getElem?_map, List.getElem?_map, List.getElem?_range hk]; simp only [Option.map_some]; rw [key]; rfl

theorem exists_interval (L R : Nat → Prop) (n : Nat) (hn : 1 ≤ n) (h0 : L 0) (hR : R (n - 1))
    (step : ∀ k, k + 1 < n → ¬ L (k + 1) → R k) : ∃ k, k < n ∧ L k ∧ R k := by
  classical
  induction n with
  | zero => omega
  | succ n ih =>
    rcases Nat.eq_zero_or_pos n with rfl | hpos
    · exact ⟨0, by omega, h0, hR⟩
    · by_cases hL : L n
      · exact ⟨n, by omega, hL, by simpa using hR⟩
      · have hs := step (n - 1) (by omega) (by rwa [Nat.sub_add_cancel hpos])
        obtain ⟨k, hk, h1, h2⟩ := ih hpos hs (fun k hk => step k (by omega))
        exact ⟨k, by omega, h1, h2⟩

theorem openEnds_get (ls rs : List (Option K)) (n : Nat) (hn : 1 ≤ n) (hl : ls.length = n) (hr : rs.length = n) :
    (openEnds ls rs).length = n ∧ ∀ k l r, ls[k]? = some l → rs[k]? = some r →
      (openEnds ls rs)[k]? = some (if k = 0 then none else l, if k + 1 = n then none else r) := by
  unfold openEnds
  refine ⟨by simp [hl, hr], ?_⟩
  intro k l r hkl hkr
  have hk : k < n := by
    by_contra hh; rw [List.getElem?_eq_none (by omega)] at hkl; cases hkl
  rw [List.getElem?_zip_eq_some]
  constructor
  · by_cases h0 : k = 0
    · subst h0; rw [List.getElem?_set_self (by omega)]; simp
    · rw [List.getElem?_set_ne (by omega), hkl]; simp [h0]
  · by_cases h0 : k + 1 = n
    · have : rs.length - 1 = k := by omega
      rw [this, List.getElem?_set_self (by omega)]; simp [h0]
    · rw [List.getElem?_set_ne (by omega), hkr]; simp [h0]

/-! ### Dense ranks -/

/-- Number of distinct smaller values. -/
def rankIn (X : List K) (x : K) : Nat := ((X.filter (· < x)).dedup).length

omit [IsStrictOrderedRing K] in
theorem rankIn_eq_card (X : List K) (x : K) : rankIn X x = (X.toFinset.filter (· < x)).card := by
  unfold rankIn
  rw [← List.toFinset_card_of_nodup (List.nodup_dedup _)]
  congr 1
  ext y; simp

omit [IsStrictOrderedRing K] in
theorem rankIn_lt {X : List K} {x y : K} (hx : x ∈ X) (hxy : x < y) : rankIn X x < rankIn X y := by
  rw [rankIn_eq_card, rankIn_eq_card]
  apply Finset.card_lt_card
  rw [Finset.ssubset_iff_of_subset]
  · exact ⟨x, by simp [hx, hxy], by simp⟩
  · intro z hz
    simp only [Finset.mem_filter, List.mem_toFinset] at hz ⊢
    exact ⟨hz.1, hz.2.trans hxy⟩

omit [IsStrictOrderedRing K] in
theorem rankIn_lt_iff {X : List K} {x y : K} (hx : x ∈ X) (hy : y ∈ X) : rankIn X x < rankIn X y ↔ x < y := by
  constructor
  · intro h
    rcases lt_trichotomy x y with h1 | h1 | h1
    · exact h1
    · subst h1; omega
    · have := rankIn_lt hy h1; omega
  · exact rankIn_lt hx

omit [IsStrictOrderedRing K] in
theorem exists_rank {X : List K} : ∀ (m : Nat) (x : K), x ∈ X → rankIn X x = m → ∀ q, q ≤ m → ∃ y ∈ X, rankIn X y = q := by
  intro m
  induction m with
  | zero =>
    intro x hx hm q hq
    exact ⟨x, hx, by omega⟩
  | succ m ih =>
    intro x hx hm q hq
    by_cases h : q = m + 1
    · exact ⟨x, hx, by omega⟩
    · have hcard : (X.toFinset.filter (· < x)).card = m + 1 := by rw [← rankIn_eq_card, hm]
      have hne : (X.toFinset.filter (· < x)).Nonempty := Finset.card_pos.1 (by omega)
      obtain ⟨y, hy, hmax⟩ := (X.toFinset.filter (· < x)).exists_max_image id hne
      simp only [Finset.mem_filter, List.mem_toFinset, id] at hy hmax
      have : rankIn X y = m := by
        rw [rankIn_eq_card]
        have he : X.toFinset.filter (· < y) = (X.toFinset.filter (· < x)).erase y := by
          ext z
          simp only [Finset.mem_filter, List.mem_toFinset, Finset.mem_erase]
          constructor
          · rintro ⟨h1, h2⟩; exact ⟨h2.ne, h1, h2.trans hy.2⟩
          · rintro ⟨h1, h2, h3⟩; exact ⟨h2, lt_of_le_of_ne (hmax z ⟨h2, h3⟩) h1⟩
        rw [he, Finset.card_erase_of_mem (by simp [hy]), hcard]; rfl
      exact ih y hy.1 this q (by omega)

omit [IsStrictOrderedRing K] in
theorem valueOfRank_spec (X : List K) (rk : Int) :
    (∃ v ∈ X, valueOfRank X (denseRank X) rk = some v ∧ (rankIn X v : Int) = rk) ∨
    (valueOfRank X (denseRank X) rk = none ∧ ∀ x ∈ X, (rankIn X x : Int) ≠ rk) := by
  unfold valueOfRank
  have hz : X.zip (denseRank X) = X.map fun x => (x, rankIn X x) := by
    unfold denseRank
    rw [List.zip_map_right]
    have : X.zip X = X.map fun x => (x, x) := by
      clear * -
      induction X with
      | nil => rfl
      | cons a t ih => simp [ih]
    rw [this, List.map_map]; rfl
  rw [hz]
  cases hf : (X.map fun x => (x, rankIn X x)).find? (fun p => decide ((p.2 : Int) = rk)) with
  | none =>
    right
    refine ⟨rfl, ?_⟩
    intro x hx h
    have := List.find?_eq_none.1 hf (x, rankIn X x) (List.mem_map_of_mem hx)
    simp [h] at this
  | some p =>
    left
    have h1 := List.mem_of_find?_eq_some hf
    have h2 := List.find?_some hf
    obtain ⟨x, hx, rfl⟩ := List.mem_map.1 h1
    exact ⟨x, hx, rfl, by simpa using h2⟩

end

section
variable {K : Type} [Field K] [LinearOrder K] [IsStrictOrderedRing K] [FloorRing K]

/-- The left limit of a fitted balanced interval tests the rank. -/
theorem left_test {X : List K} {M : Nat} (hM : ∀ q, q ≤ M → ∃ y ∈ X, rankIn X y = q) {l : K} (hl : l < M + 1 / 2)
    {x : K} (hx : x ∈ X) :
    (∀ v, valueOfRank X (denseRank X) (leftRank l) = some v → v < x) ↔ l < (rankIn X x : K) := by
  unfold leftRank
  by_cases h0 : 0 ≤ l
  · rw [if_pos h0]
    unfold truncInt
    rw [if_pos h0]
    have hfl : (0 : Int) ≤ ⌊l⌋ := Int.floor_nonneg.2 h0
    have hfM : ⌊l⌋ ≤ M := by
      have h1 : (⌊l⌋ : K) ≤ l := Int.floor_le l
      have h2 : (⌊l⌋ : K) < ((M : Int) + 1 : Int) := by push_cast; linarith
      have := Int.cast_lt.1 h2
      omega
    rcases valueOfRank_spec X ⌊l⌋ with ⟨v, hv, he, hr⟩ | ⟨-, hn⟩
    · rw [he]
      simp only [Option.some.injEq, forall_eq']
      rw [← rankIn_lt_iff hv hx]
      have := Int.floor_lt (a := l) (z := (rankIn X x : Int))
      rw [Int.cast_natCast] at this
      rw [← this, ← hr]
      omega
    · exfalso
      obtain ⟨y, hy, hry⟩ := hM ⌊l⌋.toNat (by omega)
      exact hn y hy (by omega)
  · rw [if_neg h0]
    rcases valueOfRank_spec X (-1) with ⟨v, hv, he, hr⟩ | ⟨he, -⟩
    · omega
    · rw [he]
      simp only [reduceCtorEq, IsEmpty.forall_iff, implies_true, true_iff]
      have : (0 : K) ≤ (rankIn X x : K) := Nat.cast_nonneg _
      push Not at h0
      linarith

/-- The right limit of a fitted balanced interval tests the rank, unless the limit on ranks is negative. -/
theorem right_test {X : List K} {M : Nat} (hM : ∀ q, q ≤ M → ∃ y ∈ X, rankIn X y = q) (hM' : ∀ y ∈ X, rankIn X y ≤ M)
    {r : K} (h0 : 0 ≤ r) {x : K} (hx : x ∈ X) :
    (∀ v, valueOfRank X (denseRank X) (rightRank r) = some v → x < v) ↔ (rankIn X x : K) < r := by
  have hrk : rightRank r = ⌈r⌉ := by
    unfold rightRank truncInt
    rw [if_pos h0]
    split
    · rename_i h
      have : (⌊r⌋ : K) = r := h
      rw [← this, Int.ceil_intCast, this]
    · rename_i h
      have h1 : (⌊r⌋ : K) < r := lt_of_le_of_ne (Int.floor_le r) h
      have h2 : r < ⌊r⌋ + 1 := Int.lt_floor_add_one r
      symm
      rw [Int.ceil_eq_iff]
      push_cast
      exact ⟨by linarith, h2.le⟩
  rw [hrk]
  have hlt := Int.lt_ceil (a := r) (z := (rankIn X x : Int))
  rw [Int.cast_natCast] at hlt
  have hc : (0 : Int) ≤ ⌈r⌉ := Int.ceil_nonneg h0
  rcases valueOfRank_spec X ⌈r⌉ with ⟨v, hv, he, hr⟩ | ⟨he, hn⟩
  · rw [he]
    simp only [Option.some.injEq, forall_eq']
    rw [← rankIn_lt_iff hx hv, ← hlt, ← hr]
    omega
  · rw [he]
    simp only [reduceCtorEq, IsEmpty.forall_iff, implies_true, true_iff]
    have hgt : (M : Int) < ⌈r⌉ := by
      by_contra hle
      obtain ⟨y, hy, hry⟩ := hM ⌈r⌉.toNat (by omega)
      exact hn y hy (by omega)
    rw [← hlt]
    have := hM' x hx
    omega

/-- The right limit when the limit on ranks is negative (more than twice as many intervals as distinct values). -/
theorem right_test_neg {X : List K} {M : Nat} (hM : ∀ q, q ≤ M → ∃ y ∈ X, rankIn X y = q) (h1 : 1 ≤ M)
    {r : K} (h0 : r < 0) (hr1 : -(1 / 2) ≤ r) {x : K} (hx : x ∈ X) :
    (∀ v, valueOfRank X (denseRank X) (rightRank r) = some v → x < v) ↔ rankIn X x = 0 := by
  have hrk : rightRank r = 1 := by
    unfold rightRank truncInt
    rw [if_neg (not_le.2 h0)]
    have : ⌈r⌉ = 0 := by
      rw [Int.ceil_eq_iff]; push_cast; constructor <;> linarith
    rw [this, if_neg]
    · rfl
    · push_cast; exact h0.ne'
  rw [hrk]
  rcases valueOfRank_spec X 1 with ⟨v, hv, he, hr⟩ | ⟨he, hn⟩
  · rw [he]
    simp only [Option.some.injEq, forall_eq']
    rw [← rankIn_lt_iff hx hv]
    omega
  · exfalso
    obtain ⟨y, hy, hry⟩ := hM 1 h1
    exact hn y hy (by omega)

end
end Gtda.Mapper
