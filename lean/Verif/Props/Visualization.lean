import Mathlib.Data.Rat.Floor
import Mathlib.Tactic.FieldSimp
import Mathlib.Tactic.NormNum
import Verif.Lemmas.List
import Verif.Model.Visualization
import Verif.Spec.Visualization

/-!
# Properties of node colours, sizes and texts of Mapper plots (C53, C92, C93, C94)
-/

set_option autoImplicit false
set_option linter.unusedSectionVars false

namespace Gtda

open Py Vis Spec.Vis

/-! ## Hexadecimal texts -/

theorem hexDigit_spec (n : Nat) (h : n < 16) : lowerHex[n]? = some (hexDigit n) := by
  have : ∀ m : Fin 16, lowerHex[m.val]? = some (hexDigit m.val) := by decide
  exact this ⟨n, h⟩

theorem hexValue_digit (n : Nat) (h : n < 16) : hexValue (hexDigit n) = some n := by
  have : ∀ m : Fin 16, hexValue (hexDigit m.val) = some m.val := by decide
  exact this ⟨n, h⟩

theorem hexDigit_plain (n : Nat) : hexDigit n ∉ ['+', '-', ' ', '\t', '\n', '#'] := by
  unfold hexDigit
  split <;> decide

theorem fmt02x_eq (n : Nat) (h : n < 256) : fmt02x n = [hexDigit (n / 16), hexDigit (n % 16)] := by
  unfold fmt02x
  by_cases h16 : n < 16
  · have : hexDigits (n + 1) n = [hexDigit n] := by simp [hexDigits, h16]
    rw [this]
    have h0 : n / 16 = 0 := by omega
    have h1 : n % 16 = n := by omega
    simp [h0, h1, hexDigit]
  · have : hexDigits (n + 1) n = [hexDigit (n / 16), hexDigit (n % 16)] := by
      obtain ⟨m, rfl⟩ : ∃ m, n = m + 1 := ⟨n - 1, by omega⟩
      have hlt : (m + 1) / 16 < 16 := by omega
      simp [hexDigits, h16, hlt]
    rw [this]
    simp

theorem rgbToHex_eq (r g b : Nat) (hr : r < 256) (hg : g < 256) (hb : b < 256) :
    rgbToHex (r, g, b) = ['#', hexDigit (r / 16), hexDigit (r % 16), hexDigit (g / 16),
      hexDigit (g % 16), hexDigit (b / 16), hexDigit (b % 16)] := by
  simp [rgbToHex, fmt02x_eq _ hr, fmt02x_eq _ hg, fmt02x_eq _ hb]

theorem intHex_pair (a b : Nat) (ha : a < 16) (hb : b < 16) :
    intHex [hexDigit a, hexDigit b] = .ok (16 * (a : Int) + b) := by
  have h1 := hexDigit_plain a
  have h2 := hexDigit_plain b
  have va := hexValue_digit a ha
  have vb := hexValue_digit b hb
  generalize hexDigit a = c at *
  generalize hexDigit b = d at *
  simp only [List.mem_cons, List.not_mem_nil, or_false, not_or] at h1 h2
  obtain ⟨p1, p2, p3, p4, p5, p6⟩ := h1
  obtain ⟨q1, q2, q3, q4, q5, q6⟩ := h2
  unfold intHex
  have e : (([c, d].dropWhile fun c : Char => c == ' ' || c == '\t' || c == '\n').reverse.dropWhile
      fun c : Char => c == ' ' || c == '\t' || c == '\n').reverse = [c, d] := by
    have hc : (c == ' ' || c == '\t' || c == '\n') = false := by simp [p3, p4, p5]
    have hd : (d == ' ' || d == '\t' || d == '\n') = false := by simp [q3, q4, q5]
    simp only [List.dropWhile, hc, hd, List.reverse_cons, List.reverse_nil, List.nil_append,
      List.cons_append]
  simp only [e]
  split
  · rename_i t heq; exact absurd (List.cons.inj heq).1 p1
  · rename_i t heq; exact absurd (List.cons.inj heq).1 p2
  · simp [readHex, va, vb]

theorem hexToRgb_digits (a b c d e f : Nat) (ha : a < 16) (hb : b < 16) (hc : c < 16) (hd : d < 16)
    (he : e < 16) (hf : f < 16) (rest : List Char) :
    hexToRgb ('#' :: hexDigit a :: hexDigit b :: hexDigit c :: hexDigit d :: hexDigit e ::
      hexDigit f :: rest) =
      .ok [16 * (a : Int) + b, 16 * (c : Int) + d, 16 * (e : Int) + f] := by
  have h1 := hexDigit_plain a
  have h : (hexDigit a == '#') = false := by
    simp only [List.mem_cons, List.not_mem_nil, or_false, not_or] at h1
    simpa using h1.2.2.2.2.2
  unfold hexToRgb
  have e : ('#' :: hexDigit a :: hexDigit b :: hexDigit c :: hexDigit d :: hexDigit e ::
      hexDigit f :: rest).dropWhile (· == '#') = hexDigit a :: hexDigit b :: hexDigit c ::
        hexDigit d :: hexDigit e :: hexDigit f :: rest := by
    rw [List.dropWhile_cons, if_pos (by rfl), List.dropWhile_cons, if_neg (by simp [h])]
  simp only [e]
  simp [intHex_pair _ _ ha hb, intHex_pair _ _ hc hd, intHex_pair _ _ he hf]

/-- C53: the hexadecimal text of a colour is a hash sign followed by two digits per channel, and
reading it gives the colour back; so different colours have different texts. -/
theorem C53_hex_round_trip (r g b : Nat) (hr : r < 256) (hg : g < 256) (hb : b < 256) :
    IsHexText (rgbToHex (r, g, b)) r g b ∧
      hexToRgb (rgbToHex (r, g, b)) = .ok [(r : Int), (g : Int), (b : Int)] := by
  rw [rgbToHex_eq r g b hr hg hb]
  constructor
  · exact ⟨r / 16, r % 16, g / 16, g % 16, b / 16, b % 16, by omega, by omega, by omega,
      _, _, _, _, _, _, hexDigit_spec _ (by omega), hexDigit_spec _ (by omega),
      hexDigit_spec _ (by omega), hexDigit_spec _ (by omega), hexDigit_spec _ (by omega),
      hexDigit_spec _ (by omega), rfl⟩
  · rw [hexToRgb_digits _ _ _ _ _ _ (by omega) (by omega) (by omega) (by omega) (by omega)
      (by omega)]
    have e1 : 16 * ((r / 16 : Nat) : Int) + ((r % 16 : Nat) : Int) = r := by omega
    have e2 : 16 * ((g / 16 : Nat) : Int) + ((g % 16 : Nat) : Int) = g := by omega
    have e3 : 16 * ((b / 16 : Nat) : Int) + ((b % 16 : Nat) : Int) = b := by omega
    rw [e1, e2, e3]

example : rgbToHex (68, 1, 255) = "#4401ff".toList ∧
    hexToRgb "#4401ff".toList = .ok [68, 1, 255] := by decide +kernel

/-- C53: reading the hexadecimal text of a colour, possibly followed by an alpha value or anything
else, gives the three channels, and writing them gives the text back without what follows. -/
theorem C53_hex_read (t rest : List Char) (r g b : Nat) (h : IsHexText t r g b) :
    hexToRgb (t ++ rest) = .ok [(r : Int), (g : Int), (b : Int)] ∧ rgbToHex (r, g, b) = t := by
  obtain ⟨r1, r0, g1, g0, b1, b0, er, eg, eb, c1, c2, c3, c4, c5, c6, h1, h2, h3, h4, h5, h6, rfl⟩ :=
    h
  have lt : ∀ (n : Nat) (c : Char), lowerHex[n]? = some c → n < 16 ∧ c = hexDigit n := by
    intro n c hn
    have hl : n < lowerHex.length := (List.getElem?_eq_some_iff.mp hn).1
    have hl' : n < 16 := hl
    have := hexDigit_spec n hl'
    rw [hn] at this
    exact ⟨hl', (Option.some.inj this)⟩
  obtain ⟨l1, rfl⟩ := lt _ _ h1
  obtain ⟨l2, rfl⟩ := lt _ _ h2
  obtain ⟨l3, rfl⟩ := lt _ _ h3
  obtain ⟨l4, rfl⟩ := lt _ _ h4
  obtain ⟨l5, rfl⟩ := lt _ _ h5
  obtain ⟨l6, rfl⟩ := lt _ _ h6
  constructor
  · have := hexToRgb_digits _ _ _ _ _ _ l1 l2 l3 l4 l5 l6 rest
    simp only [List.cons_append, List.nil_append]
    rw [this, er, eg, eb]
    push_cast
    rfl
  · rw [rgbToHex_eq _ _ _ (by omega) (by omega) (by omega)]
    have e1 : r / 16 = r1 := by omega
    have e2 : r % 16 = r0 := by omega
    have e3 : g / 16 = g1 := by omega
    have e4 : g % 16 = g0 := by omega
    have e5 : b / 16 = b1 := by omega
    have e6 : b % 16 = b0 := by omega
    rw [e1, e2, e3, e4, e5, e6]

example : IsHexText "#0a10ff".toList 10 16 255 ∧
    hexToRgb ("#0a10ff".toList ++ "80".toList) = .ok [10, 16, 255] :=
  ⟨⟨0, 10, 1, 0, 15, 15, by decide, by decide, by decide, '0', 'a', '1', '0', 'f', 'f',
    by decide, by decide, by decide, by decide, by decide, by decide, by decide⟩, by decide +kernel⟩

/-! ## Interpolation -/

section

variable {K : Type} [Field K] [LinearOrder K] [IsStrictOrderedRing K] [FloorRing K]

theorem toUint8_rounded (y : K) (h0 : 0 ≤ y) (h1 : y ≤ 255) : Rounded (toUint8 (y + 1 / 2)) y := by
  have hpos : (0 : K) ≤ y + 1 / 2 := by linarith [show (0 : K) < 1 / 2 by norm_num]
  have hf0 : 0 ≤ ⌊y + 1 / 2⌋ := Int.floor_nonneg.mpr hpos
  have hf1 : ⌊y + 1 / 2⌋ < 256 := by
    rw [Int.floor_lt]
    push_cast
    linarith [show (1 : K) / 2 < 1 by norm_num]
  have e : ((toUint8 (y + 1 / 2) : Nat) : K) = (⌊y + 1 / 2⌋ : K) := by
    unfold toUint8
    rw [if_pos hpos, Int.emod_eq_of_lt hf0 hf1]
    have : ((⌊y + 1 / 2⌋.toNat : Nat) : Int) = ⌊y + 1 / 2⌋ := Int.toNat_of_nonneg hf0
    exact_mod_cast congrArg (fun z : Int => (z : K)) this
  have l1 := Int.floor_le (y + 1 / 2)
  have l2 := Int.lt_floor_add_one (y + 1 / 2)
  unfold Rounded
  rw [e]
  constructor <;> linarith

theorem toUint8_lt (y : K) : toUint8 y < 256 := by
  unfold toUint8
  have h := Int.emod_lt_of_pos (if 0 ≤ y then ⌊y⌋ else ⌈y⌉) (show (0 : Int) < 256 by decide)
  have h' := Int.emod_nonneg (if 0 ≤ y then ⌊y⌋ else ⌈y⌉) (show (256 : Int) ≠ 0 by decide)
  omega

theorem digitize_sorted (bins : List K) (x : K) (h : bins.Pairwise (· ≤ ·)) :
    digitize bins x = .ok (bins.countP fun b => decide (b ≤ x)) := by
  unfold digitize
  rw [if_pos h.isChain]
  rfl

theorem countP_le_zero (b : K) (bs : List K) (x : K) (h : (b :: bs).Pairwise (· ≤ ·))
    (hx : x < b) : (b :: bs).countP (fun b => decide (b ≤ x)) = 0 := by
  rw [List.countP_eq_zero]
  intro c hc
  have : b ≤ c := by
    rcases List.mem_cons.mp hc with rfl | hc
    · exact le_refl _
    · exact (List.pairwise_cons.mp h).1 c hc
  simpa using lt_of_lt_of_le hx this

theorem countP_le_split (pre post : List K) (p q x : K)
    (h : (pre ++ p :: q :: post).Pairwise (· ≤ ·)) (hp : p ≤ x) (hq : x < q) :
    (pre ++ p :: q :: post).countP (fun b => decide (b ≤ x)) = pre.length + 1 := by
  have h2 := (List.pairwise_append.mp h)
  have hpre : pre.countP (fun b => decide (b ≤ x)) = pre.length := by
    rw [List.countP_eq_length]
    intro c hc
    simpa using le_trans (h2.2.2 c hc p (by simp)) hp
  have hq' := countP_le_zero q post x (List.pairwise_cons.mp h2.2.1).2 hq
  rw [List.countP_append, List.countP_cons, hpre, hq']
  simp [hp]

theorem countP_le_all (pre : List K) (p x : K) (h : (pre ++ [p]).Pairwise (· ≤ ·)) (hp : p ≤ x) :
    (pre ++ [p]).countP (fun b => decide (b ≤ x)) = pre.length + 1 := by
  have h2 := (List.pairwise_append.mp h)
  have : (pre ++ [p]).countP (fun b => decide (b ≤ x)) = (pre ++ [p]).length := by
    rw [List.countP_eq_length]
    intro c hc
    rcases List.mem_append.mp hc with hc | hc
    · simpa using le_trans (h2.2.2 c hc p (by simp)) hp
    · rw [List.mem_singleton.mp hc]
      simpa using hp
  rw [this]
  simp

theorem slopes_length (t : List (K × Rgb K)) : (slopes t).length = t.length := by
  induction t with
  | nil => rfl
  | cons p t ih =>
      cases t with
      | nil => rfl
      | cons q t => simp only [slopes, List.length_cons] at *; omega

theorem slopes_split (pre post : List (K × Rgb K)) (p q : K × Rgb K) :
    (slopes (pre ++ p :: q :: post))[pre.length]? =
      some ((q.2.1 - p.2.1) / (q.1 - p.1), (q.2.2.1 - p.2.2.1) / (q.1 - p.1),
        (q.2.2.2 - p.2.2.2) / (q.1 - p.1)) := by
  induction pre with
  | nil => simp [slopes]
  | cons a pre ih =>
      cases pre with
      | nil => simpa [slopes] using ih
      | cons b pre => simpa [slopes] using ih

theorem slopes_last (pre : List (K × Rgb K)) (p : K × Rgb K) :
    (slopes (pre ++ [p]))[pre.length]? = some (0, 0, 0) := by
  induction pre with
  | nil => simp [slopes]
  | cons a pre ih =>
      cases pre with
      | nil => simpa [slopes] using ih
      | cons b pre => simpa [slopes] using ih

/-- The colour computed at a row with slopes, as a pure function. -/
def colorFrom (r : K × Rgb K) (s : Rgb K) (x : K) : Nat × Nat × Nat :=
  (channel r.2.1 s.1 (x - r.1), channel r.2.2.1 s.2.1 (x - r.1), channel r.2.2.2 s.2.2 (x - r.1))

theorem interpolate_inside (pre post : List (K × Rgb K)) (p q : K × Rgb K) (x : K)
    (h : ((pre ++ p :: q :: post).map Prod.fst).Pairwise (· ≤ ·)) (hp : p.1 ≤ x) (hq : x < q.1) :
    interpolate (pre ++ p :: q :: post) x =
      .ok (colorFrom p ((q.2.1 - p.2.1) / (q.1 - p.1), (q.2.2.1 - p.2.2.1) / (q.1 - p.1),
        (q.2.2.2 - p.2.2.2) / (q.1 - p.1)) x) := by
  unfold interpolate
  rw [digitize_sorted _ _ h, ok_bind]
  have hc : ((pre ++ p :: q :: post).map Prod.fst).countP (fun b => decide (b ≤ x)) =
      pre.length + 1 := by
    have := countP_le_split (pre.map Prod.fst) (post.map Prod.fst) p.1 q.1 x (by simpa using h) hp hq
    simpa using this
  have hr : ((pre ++ p :: q :: post) ++ (pre ++ p :: q :: post).take 1)[pre.length]? = some p := by
    rw [List.getElem?_append_left (by simp)]
    simp
  simp only [hc, Nat.add_one_ne_zero, if_false, Nat.add_sub_cancel, hr, slopes_split]
  rfl

theorem interpolate_last (pre : List (K × Rgb K)) (p : K × Rgb K) (x : K)
    (h : ((pre ++ [p]).map Prod.fst).Pairwise (· ≤ ·)) (hp : p.1 ≤ x) :
    interpolate (pre ++ [p]) x = .ok (colorFrom p (0, 0, 0) x) := by
  unfold interpolate
  rw [digitize_sorted _ _ h, ok_bind]
  have hc : ((pre ++ [p]).map Prod.fst).countP (fun b => decide (b ≤ x)) = pre.length + 1 := by
    have := countP_le_all (pre.map Prod.fst) p.1 x (by simpa using h) hp
    simpa using this
  have hr : ((pre ++ [p]) ++ (pre ++ [p]).take 1)[pre.length]? = some p := by
    rw [List.getElem?_append_left (by simp)]
    simp
  simp only [hc, Nat.add_one_ne_zero, if_false, Nat.add_sub_cancel, hr, slopes_last]
  rfl

theorem interpolate_first (p : K × Rgb K) (post : List (K × Rgb K)) (x : K)
    (h : ((p :: post).map Prod.fst).Pairwise (· ≤ ·)) (hp : x < p.1) :
    interpolate (p :: post) x = .ok (colorFrom p (0, 0, 0) x) := by
  unfold interpolate
  rw [digitize_sorted _ _ h, ok_bind]
  have hc : ((p :: post).map Prod.fst).countP (fun b => decide (b ≤ x)) = 0 :=
    countP_le_zero p.1 (post.map Prod.fst) x (by simpa using h) hp
  have hr : ((p :: post) ++ (p :: post).take 1)[((p :: post) ++ (p :: post).take 1).length - 1]? =
      some p := by
    simp
  have hs : (slopes (p :: post))[(slopes (p :: post)).length - 1]? = some (0, 0, 0) := by
    rw [slopes_length]
    have hne : p :: post ≠ [] := by simp
    obtain ⟨l, hl⟩ : ∃ l, p :: post = l ++ [(p :: post).getLast hne] :=
      ⟨_, (List.dropLast_append_getLast hne).symm⟩
    rw [hl]
    have := slopes_last l ((p :: post).getLast hne)
    simpa using this
  simp only [hc, if_true, hr, hs]
  rfl

theorem channel_flat (a z : K) (h0 : 0 ≤ a) (h1 : a ≤ 255) : Rounded (channel a 0 z) a := by
  unfold channel
  rw [zero_mul, add_zero]
  exact toUint8_rounded a h0 h1

theorem between_range (p q a b x : K) (hp : p ≤ x) (hq : x < q) (a0 : 0 ≤ a) (a1 : a ≤ 255)
    (b0 : 0 ≤ b) (b1 : b ≤ 255) : 0 ≤ between p q a b x ∧ between p q a b x ≤ 255 := by
  have hd : 0 < q - p := by linarith
  have t0 : 0 ≤ (x - p) / (q - p) := div_nonneg (by linarith) hd.le
  have t1 : (x - p) / (q - p) ≤ 1 := (div_le_one hd).mpr (by linarith)
  unfold between
  generalize (x - p) / (q - p) = t at *
  have e : a + (b - a) * t = (1 - t) * a + t * b := by ring
  have m1 : 0 ≤ (1 - t) * a := mul_nonneg (by linarith) a0
  have m2 : 0 ≤ t * b := mul_nonneg t0 b0
  have m3 : (1 - t) * a ≤ (1 - t) * 255 := mul_le_mul_of_nonneg_left a1 (by linarith)
  have m4 : t * b ≤ t * 255 := mul_le_mul_of_nonneg_left b1 t0
  rw [e]
  constructor
  · linarith
  · linarith

theorem channel_between (p q a b x : K) (hp : p ≤ x) (hq : x < q) (a0 : 0 ≤ a) (a1 : a ≤ 255)
    (b0 : 0 ≤ b) (b1 : b ≤ 255) :
    Rounded (channel a ((b - a) / (q - p)) (x - p)) (between p q a b x) := by
  obtain ⟨h0, h1⟩ := between_range p q a b x hp hq a0 a1 b0 b1
  have e : a + (b - a) / (q - p) * (x - p) = between p q a b x := by
    unfold between
    rw [div_mul_eq_mul_div, mul_div_assoc]
  unfold channel
  rw [e]
  exact toUint8_rounded _ h0 h1

theorem Neighbours.unique_value {rows : List (K × Rgb K)} {x : K}
    (h : (rows.map Prod.fst).Pairwise (· ≤ ·)) {p q p' q' : K × Rgb K}
    (n : Neighbours rows p q) (n' : Neighbours rows p' q') (hp : p.1 ≤ x) (hq : x < q.1)
    (hp' : p'.1 ≤ x) (hq' : x < q'.1) : p = p' ∧ q = q' := by
  obtain ⟨pre, post, rfl⟩ := n
  obtain ⟨pre', post', e⟩ := n'
  have c1 := countP_le_split (pre.map Prod.fst) (post.map Prod.fst) p.1 q.1 x (by simpa using h) hp hq
  have c2 := countP_le_split (pre'.map Prod.fst) (post'.map Prod.fst) p'.1 q'.1 x
    (by rw [e] at h; simpa using h) hp' hq'
  have e' : pre.map Prod.fst ++ p.1 :: q.1 :: post.map Prod.fst =
      pre'.map Prod.fst ++ p'.1 :: q'.1 :: post'.map Prod.fst := by
    have := congrArg (List.map Prod.fst) e
    simpa using this
  rw [e', c2] at c1
  have hl : pre.length = pre'.length := by simpa using c1.symm
  have := (List.append_inj e hl).2
  simp only [List.cons.injEq] at this
  exact ⟨this.1, this.2.1⟩

/-- Every position inside an ordered scale lies between two neighbouring rows. -/
theorem exists_neighbours (rows : List (K × Rgb K)) (p : K × Rgb K) (x : K)
    (hp : p.1 ≤ x) (hl : ∃ r ∈ (p :: rows).getLast?, x < r.1) :
    ∃ a b, Neighbours (p :: rows) a b ∧ a.1 ≤ x ∧ x < b.1 := by
  induction rows generalizing p with
  | nil =>
      obtain ⟨r, hr, hx⟩ := hl
      simp at hr
      subst hr
      exact absurd hp (not_le.mpr hx)
  | cons q rows ih =>
      by_cases hq : x < q.1
      · exact ⟨p, q, ⟨[], rows, rfl⟩, hp, hq⟩
      · obtain ⟨a, b, ⟨pre, post, e⟩, ha, hb⟩ := ih q (not_lt.mp hq) (by
          simpa [List.getLast?_cons_cons] using hl)
        exact ⟨a, b, ⟨p :: pre, post, by rw [e]; rfl⟩, ha, hb⟩

/-- Interpolation in a well-formed scale gives the colour of the position. -/
theorem interpolate_spec (rows : List (K × Rgb K)) (h : WellFormed rows) (x : K) :
    ∃ c, interpolate rows x = .ok c ∧ IsColorAt rows x c ∧ c.1 < 256 ∧ c.2.1 < 256 ∧ c.2.2 < 256 := by
  obtain ⟨f, hf, f0⟩ := h.first
  obtain ⟨l, hl, l1⟩ := h.last
  obtain ⟨post, rfl⟩ : ∃ post, rows = f :: post := by
    cases rows with
    | nil => simp at hf
    | cons a t => simp at hf; exact ⟨t, by rw [hf]⟩
  have lt : ∀ (r : K × Rgb K) (s : Rgb K), (colorFrom r s x).1 < 256 ∧
      (colorFrom r s x).2.1 < 256 ∧ (colorFrom r s x).2.2 < 256 := fun r s =>
    ⟨toUint8_lt _, toUint8_lt _, toUint8_lt _⟩
  by_cases hx0 : x < 0
  · refine ⟨_, interpolate_first f post x h.ordered (by rw [f0]; exact hx0), ⟨?_, ?_, ?_⟩, lt _ _⟩
    · intro _ r hr
      simp at hr
      subst hr
      obtain ⟨r1, r2, r3⟩ := h.range f (by simp)
      exact ⟨channel_flat _ _ r1.1 r1.2, channel_flat _ _ r2.1 r2.2, channel_flat _ _ r3.1 r3.2⟩
    · intro hx1
      linarith
    · rintro p q ⟨pre, po, e⟩ hp _
      exfalso
      have hm : p.1 ∈ (f :: post).map Prod.fst := List.mem_map.mpr ⟨p, by rw [e]; simp, rfl⟩
      have : f.1 ≤ p.1 := by
        have ho := h.ordered
        rw [List.map_cons] at hm ho
        rcases List.mem_cons.mp hm with e | hm
        · exact le_of_eq e.symm
        · exact (List.pairwise_cons.mp ho).1 _ hm
      linarith
  · by_cases hx1 : x < 1
    · obtain ⟨p, q, ⟨pre, po, e⟩, hp, hq⟩ := exists_neighbours post f x (by rw [f0]; exact not_lt.mp hx0)
        ⟨l, hl, by rw [l1]; exact hx1⟩
      have hi := interpolate_inside pre po p q x (by rw [← e]; exact h.ordered) hp hq
      rw [← e] at hi
      refine ⟨_, hi, ⟨fun hx => absurd hx hx0, fun hx => absurd hx (not_le.mpr hx1), ?_⟩, lt _ _⟩
      intro p' q' n' hp' hq'
      obtain ⟨rfl, rfl⟩ := Neighbours.unique_value h.ordered ⟨pre, po, e⟩ n' hp hq hp' hq'
      obtain ⟨a1, a2, a3⟩ := h.range p (by rw [e]; simp)
      obtain ⟨b1, b2, b3⟩ := h.range q (by rw [e]; simp)
      exact ⟨channel_between _ _ _ _ _ hp hq a1.1 a1.2 b1.1 b1.2,
        channel_between _ _ _ _ _ hp hq a2.1 a2.2 b2.1 b2.2,
        channel_between _ _ _ _ _ hp hq a3.1 a3.2 b3.1 b3.2⟩
    · have hx1' := not_lt.mp hx1
      obtain ⟨pre, e⟩ : ∃ pre, f :: post = pre ++ [l] := by
        have hne : f :: post ≠ [] := by simp
        rw [List.getLast?_eq_some_getLast hne] at hl
        have : (f :: post).getLast hne = l := by simpa using hl
        exact ⟨(f :: post).dropLast, by rw [← this]; exact (List.dropLast_append_getLast hne).symm⟩
      have hi := interpolate_last pre l x (by rw [← e]; exact h.ordered) (by rw [l1]; exact hx1')
      rw [← e] at hi
      refine ⟨_, hi, ⟨fun hx => absurd hx hx0, ?_, ?_⟩, lt _ _⟩
      · intro _ r hr
        have hlr : l = r := Option.some.inj (hl.symm.trans hr)
        subst hlr
        obtain ⟨r1, r2, r3⟩ := h.range l (by rw [e]; simp)
        exact ⟨channel_flat _ _ r1.1 r1.2, channel_flat _ _ r2.1 r2.2, channel_flat _ _ r3.1 r3.2⟩
      · rintro p q ⟨pre', po, e'⟩ hp hq
        exfalso
        have hm : q ∈ pre ++ [l] := by rw [← e, e']; simp
        have ho : ((pre ++ [l]).map Prod.fst).Pairwise (· ≤ ·) := by rw [← e]; exact h.ordered
        rw [List.map_append, List.pairwise_append] at ho
        have : q.1 ≤ l.1 := by
          rcases List.mem_append.mp hm with hm | hm
          · exact ho.2.2 q.1 (List.mem_map.mpr ⟨q, hm, rfl⟩) l.1 (by simp)
          · rw [List.mem_singleton.mp hm]
        linarith

theorem mapM_ok_of_forall {α β : Type} (f : α → PyM β) (R : α → β → Prop) (l : List α)
    (h : ∀ a ∈ l, ∃ b, f a = .ok b ∧ R a b) : ∃ out, l.mapM f = .ok out ∧ List.Forall₂ R l out := by
  induction l with
  | nil => exact ⟨[], rfl, .nil⟩
  | cons a l ih =>
      obtain ⟨b, hb, hR⟩ := h a (by simp)
      obtain ⟨out, ho, hF⟩ := ih fun a ha => h a (by simp [ha])
      refine ⟨b :: out, ?_, .cons hR hF⟩
      rw [List.mapM_cons, hb, ok_bind, ho, ok_bind]
      rfl

/-- C53: with a well-formed colorscale and `vmin < vmax`, every value gets the hexadecimal text of
the colour at its place in the scale, in the order of the values: the first colour below `vmin`, the
last colour at `vmax` and above, and inside the rounded colour on the line between the two
neighbouring colours of the scale. -/
theorem C53_colors (lit : List Char → PyM (Rgb K)) (cs : Colorscale K) (rows : List (K × Rgb K))
    (hcs : colorTable lit cs = .ok rows) (hw : WellFormed rows) (vals : List K) (vmin vmax : K)
    (hv : vmin < vmax) :
    ∃ out, getColorsForVals lit vals vmin vmax cs = .ok out ∧
      List.Forall₂ (fun v t => ∃ r g b, IsHexText t r g b ∧
        IsColorAt rows ((v - vmin) / (vmax - vmin)) (r, g, b)) vals out := by
  unfold getColorsForVals
  rw [if_neg (not_le.mpr hv), hcs, ok_bind]
  obtain ⟨rgb, hr, hF⟩ := mapM_ok_of_forall (fun v => interpolate rows ((v - vmin) / (vmax - vmin)))
    (fun v c => IsColorAt rows ((v - vmin) / (vmax - vmin)) c ∧ c.1 < 256 ∧ c.2.1 < 256 ∧ c.2.2 < 256)
    vals fun v _ => interpolate_spec rows hw _
  rw [hr, ok_bind]
  refine ⟨_, rfl, ?_⟩
  rw [List.forall₂_map_right_iff]
  refine hF.imp ?_
  rintro v ⟨r, g, b⟩ ⟨hc, h1, h2, h3⟩
  exact ⟨r, g, b, (C53_hex_round_trip r g b h1 h2 h3).1, hc⟩

/-- C53: a channel computed between two whole channels lies between them. -/
theorem C53_between (p q x : K) (a b n : Nat) (hp : p ≤ x) (hq : x < q)
    (h : Rounded n (between p q (a : K) (b : K) x)) : min a b ≤ n ∧ n ≤ max a b := by
  have hd : 0 < q - p := by linarith
  have t0 : 0 ≤ (x - p) / (q - p) := div_nonneg (by linarith) hd.le
  have t1 : (x - p) / (q - p) ≤ 1 := (div_le_one hd).mpr (by linarith)
  unfold Rounded between at h
  generalize (x - p) / (q - p) = t at *
  have half : (0 : K) < 1 / 2 ∧ (1 / 2 : K) < 1 := by constructor <;> norm_num
  have key : ∀ a b : Nat, a ≤ b → ∀ y : K, (a : K) ≤ y → y ≤ b → (n : K) - 1 / 2 ≤ y →
      y < (n : K) + 1 / 2 → a ≤ n ∧ n ≤ b := by
    intro a b _ y h1 h2 h3 h4
    constructor
    · have : (a : K) < ((n + 1 : Nat) : K) := by push_cast; linarith [half.2]
      have := Nat.cast_lt.mp this
      omega
    · have : (n : K) < ((b + 1 : Nat) : K) := by push_cast; linarith [half.2]
      have := Nat.cast_lt.mp this
      omega
  rcases le_total a b with hab | hab
  · have hab' : (a : K) ≤ b := Nat.cast_le.mpr hab
    rw [min_eq_left hab, max_eq_right hab]
    refine key a b hab _ ?_ ?_ h.1 h.2
    · have := mul_nonneg (sub_nonneg.mpr hab') t0
      linarith
    · have := mul_le_mul_of_nonneg_left t1 (sub_nonneg.mpr hab')
      linarith
  · have hab' : (b : K) ≤ a := Nat.cast_le.mpr hab
    rw [min_eq_right hab, max_eq_left hab]
    refine key b a hab _ ?_ ?_ h.1 h.2
    · have := mul_le_mul_of_nonneg_left t1 (sub_nonneg.mpr hab')
      linarith
    · have := mul_nonneg (sub_nonneg.mpr hab') t0
      linarith

/-- C53: without a proper range of values there are no colours. -/
theorem C53_no_range (lit : List Char → PyM (Rgb K)) (cs : Colorscale K) (vals : List K)
    (vmin vmax : K) (h : vmax ≤ vmin) :
    getColorsForVals lit vals vmin vmax cs = .error .valueError := by
  unfold getColorsForVals
  rw [if_pos h]

end

/-- A sequence of hexadecimal colours gives a well-formed scale. -/
example :
    colorTable (K := ℚ) (fun _ => .error .valueError)
        (.plain ["#000000".toList, "#ff8000".toList, "#ffffff".toList]) =
      .ok [(0, 0, 0, 0), (1 / 2, 255, 128, 0), (1, 255, 255, 255)] := by decide +kernel

example : WellFormed (K := ℚ) [(0, 0, 0, 0), (1 / 2, 255, 128, 0), (1, 255, 255, 255)] :=
  ⟨⟨_, rfl, rfl⟩, ⟨_, rfl, rfl⟩, by decide +kernel, by decide +kernel⟩

example :
    getColorsForVals (K := ℚ) (fun _ => .error .valueError) [2, 3, 7 / 2, 10, -5] 2 4
        (.pairs [(0, "#000000".toList), (1 / 2, "#ff8000".toList), (1, "#ffffff".toList)]) =
      .ok ["#000000".toList, "#ff8000".toList, "#ffc080".toList, "#ffffff".toList,
        "#000000".toList] := by decide +kernel

example : Rounded (K := ℚ) 192 (between (1 / 2) 1 128 255 (3 / 4)) := by
  unfold Rounded between
  norm_num

section

variable {K : Type} [Field K] [LinearOrder K] [IsStrictOrderedRing K] [FloorRing K]

theorem parse_hex (lit : List Char → PyM (Rgb K)) (texts : List (List Char))
    (colors : List (Nat × Nat × Nat)) (hne : texts ≠ [])
    (h : List.Forall₂ (fun t c => IsHexText t c.1 c.2.1 c.2.2) texts colors) :
    parseColors lit texts = .ok (colors.map castRgb) := by
  have key : ∀ (ts : List (List Char)) (cs : List (Nat × Nat × Nat)),
      List.Forall₂ (fun t c => IsHexText t c.1 c.2.1 c.2.2) ts cs →
      (ts.mapM fun c => hexToRgb c >>= asRgb (K := K)) = .ok (cs.map castRgb) := by
    intro ts cs hF
    induction hF with
    | nil => rfl
    | @cons t c ts cs hh _ ih =>
        have := (C53_hex_read t [] c.1 c.2.1 c.2.2 hh).1
        rw [List.append_nil] at this
        rw [List.mapM_cons, this, ok_bind, ih]
        simp [asRgb, castRgb, pure, Except.pure, bind, Except.bind]
  cases h with
  | nil => exact absurd rfl hne
  | cons hh hF =>
      rename_i t c ts cs
      have hk := key _ _ (List.Forall₂.cons hh hF)
      obtain ⟨_, _, _, _, _, _, _, _, _, c1, c2, c3, c4, c5, c6, _, _, _, _, _, _, rfl⟩ := hh
      unfold parseColors
      simp only
      rw [if_neg (by simp)]
      exact hk

/-- C53: a sequence of at least two hexadecimal colours is spread evenly over the scale, and a
sequence of pairs keeps its positions; the colours are those written. -/
theorem C53_scale (lit : List Char → PyM (Rgb K)) (texts : List (List Char))
    (colors : List (Nat × Nat × Nat))
    (h : List.Forall₂ (fun t c => IsHexText t c.1 c.2.1 c.2.2) texts colors) :
    (2 ≤ texts.length →
      ∃ rows, colorTable lit (.plain texts) = .ok rows ∧ WellFormed rows ∧
        rows.map Prod.snd = colors.map castRgb ∧
        ∀ (i : Nat) (r : K × Rgb K), rows[i]? = some r →
          r.1 * ((texts.length - 1 : Nat) : K) = (i : K)) ∧
    (∀ pos : List K, pos.length = texts.length → pos.Pairwise (· ≤ ·) → pos.head? = some 0 →
      pos.getLast? = some 1 →
      colorTable lit (.pairs (pos.zip texts)) = .ok (pos.zip (colors.map castRgb)) ∧
        WellFormed (pos.zip (colors.map (castRgb (K := K))))) := by
  have hlen := h.length_eq
  have hrange : ∀ c ∈ colors.map (castRgb (K := K)), (0 ≤ c.1 ∧ c.1 ≤ 255) ∧
      (0 ≤ c.2.1 ∧ c.2.1 ≤ 255) ∧ (0 ≤ c.2.2 ∧ c.2.2 ≤ 255) := by
    intro c hc
    obtain ⟨d, hd, rfl⟩ := List.mem_map.mp hc
    obtain ⟨i, hi⟩ := List.mem_iff_getElem?.mp hd
    have hi' := (List.getElem?_eq_some_iff.mp hi)
    obtain ⟨t, ht⟩ : ∃ t, IsHexText t d.1 d.2.1 d.2.2 := by
      have := (List.forall₂_iff_get.mp h).2 i (by rw [hlen]; exact hi'.1) hi'.1
      have e : colors.get ⟨i, hi'.1⟩ = d := hi'.2
      rw [e] at this
      exact ⟨_, this⟩
    obtain ⟨r1, r0, g1, g0, b1, b0, er, eg, eb, c1, c2, c3, c4, c5, c6, h1, h2, h3, h4, h5, h6, _⟩ :=
      ht
    have lt : ∀ (n : Nat) (c : Char), lowerHex[n]? = some c → n < 16 := fun n c hn =>
      (List.getElem?_eq_some_iff.mp hn).1
    have := lt _ _ h1; have := lt _ _ h2; have := lt _ _ h3
    have := lt _ _ h4; have := lt _ _ h5; have := lt _ _ h6
    have cast : ∀ n : Nat, n < 256 → (0 : K) ≤ n ∧ (n : K) ≤ 255 := by
      intro n hn
      refine ⟨Nat.cast_nonneg n, ?_⟩
      have : (n : K) ≤ ((255 : Nat) : K) := Nat.cast_le.mpr (by omega)
      simpa using this
    exact ⟨cast _ (by omega), cast _ (by omega), cast _ (by omega)⟩
  have main : ∀ pos : List K, pos.length = texts.length → pos.Pairwise (· ≤ ·) →
      pos.head? = some 0 → pos.getLast? = some 1 →
      colorTable lit (.pairs (pos.zip texts)) = .ok (pos.zip (colors.map castRgb)) ∧
        WellFormed (pos.zip (colors.map (castRgb (K := K)))) := by
    intro pos hp ho hh hl
    have hne : texts ≠ [] := by
      rintro rfl
      have : pos = [] := List.length_eq_zero_iff.mp (by simpa using hp)
      subst this
      simp at hh
    have hpl : pos.length = (colors.map (castRgb (K := K))).length := by
      rw [List.length_map, hp, hlen]
    have hm1 : (pos.zip (colors.map (castRgb (K := K)))).map Prod.fst = pos :=
      List.map_fst_zip hpl.le
    constructor
    · unfold colorTable
      simp only [scaleColors]
      rw [List.map_snd_zip hp.ge, List.map_fst_zip hp.le, parse_hex lit texts colors hne h, ok_bind]
      rfl
    · refine ⟨?_, ?_, ?_, ?_⟩
      · have : (pos.zip (colors.map (castRgb (K := K)))).head?.map Prod.fst = some 0 := by
          rw [← List.head?_map, hm1, hh]
        obtain ⟨r, hr, e⟩ := Option.map_eq_some_iff.mp this
        exact ⟨r, hr, e⟩
      · have : (pos.zip (colors.map (castRgb (K := K)))).getLast?.map Prod.fst = some 1 := by
          rw [← List.getLast?_map, hm1, hl]
        obtain ⟨r, hr, e⟩ := Option.map_eq_some_iff.mp this
        exact ⟨r, hr, e⟩
      · rw [hm1]
        exact ho
      · intro r hr
        exact hrange r.2 (List.of_mem_zip hr).2
  refine ⟨fun h2 => ?_, main⟩
  have hn1 : texts.length ≠ 1 := by omega
  have hd : (0 : K) < ((texts.length - 1 : Nat) : K) := Nat.cast_pos.mpr (by omega)
  have hlin : (linspace01 texts.length : List K) =
      (List.range texts.length).map fun (i : Nat) => (i : K) / ((texts.length - 1 : Nat) : K) := by
    unfold linspace01
    simp only [if_neg hn1]
  have hll : (linspace01 texts.length : List K).length = texts.length := by
    rw [hlin]
    simp
  obtain ⟨k, hk⟩ : ∃ k, texts.length = k + 1 := ⟨texts.length - 1, by omega⟩
  obtain ⟨m1, m2⟩ := main (linspace01 texts.length) hll
    (by
      rw [hlin, List.pairwise_map]
      refine List.pairwise_lt_range.imp ?_
      intro a b hab
      have hab' : (a : K) ≤ b := Nat.cast_le.mpr hab.le
      exact div_le_div_of_nonneg_right hab' hd.le)
    (by
      rw [hlin, hk]
      simp [List.range_succ_eq_map])
    (by
      rw [hlin]
      have : (List.range texts.length).getLast? = some (texts.length - 1) := by
        rw [hk, List.range_succ]
        simp
      rw [List.getLast?_map, this]
      simp only [Option.map_some]
      rw [div_self hd.ne'])
  refine ⟨_, m1, m2, ?_, ?_⟩
  · rw [List.map_snd_zip (by rw [hll, List.length_map]; omega)]
  · intro i r hr
    obtain ⟨p1, _⟩ := List.getElem?_zip_eq_some.mp hr
    rw [hlin] at p1
    obtain ⟨hi, e⟩ := List.getElem?_eq_some_iff.mp p1
    simp at e
    rw [← e]
    rw [div_mul_cancel₀ _ (by simpa using hd.ne')]

/-- C53: from a list of at least two hexadecimal colours to the colours of values: the colours are spread evenly over the range of the values, and every value gets the colour at its place. -/
theorem C53_list (lit : List Char → PyM (Rgb K)) (texts : List (List Char)) (colors : List (Nat × Nat × Nat)) (h : List.Forall₂ (fun t c => IsHexText t c.1 c.2.1 c.2.2) texts colors)
    (h2 : 2 ≤ texts.length) (vals : List K) (vmin vmax : K) (hv : vmin < vmax) :
    ∃ out rows, getColorsForVals lit vals vmin vmax (.plain texts) = .ok out ∧ rows.map Prod.snd = colors.map castRgb ∧
      (∀ (i : Nat) (r : K × Rgb K), rows[i]? = some r → r.1 * ((texts.length - 1 : Nat) : K) = (i : K)) ∧
      List.Forall₂ (fun v t => ∃ r g b, IsHexText t r g b ∧ IsColorAt rows ((v - vmin) / (vmax - vmin)) (r, g, b)) vals out := by
  obtain ⟨rows, h3, h4, h5, h6⟩ := (C53_scale lit texts colors h).1 h2
  obtain ⟨out, h7, h8⟩ := C53_colors lit _ rows h3 h4 vals vmin vmax hv
  exact ⟨out, rows, h7, h5, h6, h8⟩

/-- C53: from pairs of a position and a hexadecimal colour, with positions from 0 to 1 in order, to the colours of values. -/
theorem C53_pairs (lit : List Char → PyM (Rgb K)) (texts : List (List Char)) (colors : List (Nat × Nat × Nat)) (h : List.Forall₂ (fun t c => IsHexText t c.1 c.2.1 c.2.2) texts colors)
    (pos : List K) (hl : pos.length = texts.length) (hp : pos.Pairwise (· ≤ ·)) (h0 : pos.head? = some 0) (h1 : pos.getLast? = some 1) (vals : List K) (vmin vmax : K) (hv : vmin < vmax) :
    ∃ out, getColorsForVals lit vals vmin vmax (.pairs (pos.zip texts)) = .ok out ∧
      List.Forall₂ (fun v t => ∃ r g b, IsHexText t r g b ∧ IsColorAt (pos.zip (colors.map castRgb)) ((v - vmin) / (vmax - vmin)) (r, g, b)) vals out := by
  obtain ⟨h3, h4⟩ := (C53_scale lit texts colors h).2 pos hl hp h0 h1
  exact C53_colors lit _ _ h3 h4 vals vmin vmax hv

end

/-! ## Hover labels of 3D plots -/

section

variable {K : Type} [Field K] [LinearOrder K] [IsStrictOrderedRing K] [FloorRing K]

theorem foldl_min_spec (l : List K) (x : K) :
    l.foldl min x ∈ x :: l ∧ ∀ y ∈ x :: l, l.foldl min x ≤ y := by
  induction l generalizing x with
  | nil => simp
  | cons a l ih =>
      obtain ⟨h1, h2⟩ := ih (min x a)
      rw [List.foldl_cons]
      constructor
      · rcases List.mem_cons.mp h1 with e | h
        · rw [e]
          rcases min_choice x a with e | e <;> rw [e] <;> simp
        · simp [h]
      · intro y hy
        have hm := h2 (min x a) (by simp)
        rcases List.mem_cons.mp hy with rfl | hy
        · exact le_trans hm (min_le_left _ _)
        · rcases List.mem_cons.mp hy with rfl | hy
          · exact le_trans hm (min_le_right _ _)
          · exact h2 y (by simp [hy])

theorem foldl_max_spec (l : List K) (x : K) :
    l.foldl max x ∈ x :: l ∧ ∀ y ∈ x :: l, y ≤ l.foldl max x := by
  induction l generalizing x with
  | nil => simp
  | cons a l ih =>
      obtain ⟨h1, h2⟩ := ih (max x a)
      rw [List.foldl_cons]
      constructor
      · rcases List.mem_cons.mp h1 with e | h
        · rw [e]
          rcases max_choice x a with e | e <;> rw [e] <;> simp
        · simp [h]
      · intro y hy
        have hm := h2 (max x a) (by simp)
        rcases List.mem_cons.mp hy with rfl | hy
        · exact le_trans (le_max_left _ _) hm
        · rcases List.mem_cons.mp hy with rfl | hy
          · exact le_trans (le_max_right _ _) hm
          · exact h2 y (by simp [hy])

theorem colMin_max (col : List K) (hne : col ≠ []) :
    ∃ lo hi, colMin col = .ok lo ∧ colMax col = .ok hi ∧ lo ∈ col ∧ hi ∈ col ∧
      ∀ y ∈ col, lo ≤ y ∧ y ≤ hi := by
  cases col with
  | nil => exact absurd rfl hne
  | cons x l =>
      obtain ⟨h1, h2⟩ := foldl_min_spec l x
      obtain ⟨h3, h4⟩ := foldl_max_spec l x
      exact ⟨_, _, rfl, rfl, h1, h3, fun y hy => ⟨h2 y hy, h4 y hy⟩⟩

theorem columnColors_varying (lit : List Char → PyM (Rgb K)) (cs : Colorscale K)
    (rows : List (K × Rgb K)) (hcs : colorTable lit cs = .ok rows) (hw : WellFormed rows)
    (col : List K) (hc : ¬ Constant col) :
    ∃ out, columnColors lit cs col = .ok out ∧ ColumnShown rows col out := by
  have hne : col ≠ [] := by
    rintro rfl
    exact hc (by simp [Constant])
  obtain ⟨lo, hi, h1, h2, m1, m2, hb⟩ := colMin_max col hne
  have hlt : lo < hi := by
    refine lt_of_not_ge fun hle => hc fun x hx y hy => ?_
    have := hb x hx
    have := hb y hy
    linarith
  obtain ⟨out, ho, hF⟩ := C53_colors lit cs rows hcs hw col lo hi hlt
  refine ⟨out, ?_, lo, m1, hi, m2, hb, hF⟩
  unfold columnColors
  rw [h1, ok_bind, h2, ok_bind, ho]

theorem columnColors_constant (lit : List Char → PyM (Rgb K)) (cs : Colorscale K)
    (col : List K) (hc : Constant col) : columnColors lit cs col = .error .valueError := by
  by_cases hne : col = []
  · subst hne
    rfl
  · obtain ⟨lo, hi, h1, h2, m1, m2, _⟩ := colMin_max col hne
    unfold columnColors
    rw [h1, ok_bind, h2, ok_bind]
    exact C53_no_range lit cs col lo hi (hc hi m2 lo m1).le

theorem hoverColors_eq (lit : List Char → PyM (Rgb K)) (cs : Colorscale K) (first : List K)
    (rest : List (List K)) (hne : first ≠ []) :
    hoverColors lit cs first rest =
      match columnColors lit cs first with
      | .ok c => (rest.mapM fun col => columnColors lit cs col) >>= fun b =>
          pure (.perNode c, b.map some)
      | .error _ => pure (.white, rest.map fun _ => none) := by
  obtain ⟨lo, hi, h1, h2, _⟩ := colMin_max first hne
  unfold hoverColors columnColors
  rw [h1, ok_bind, h2, ok_bind, ok_bind, ok_bind]
  rfl

/-- C92: if the values vary in every colour column, each column gets the colours of its own range,
for the first column and for each button of the menu; if the first column is constant, all hover
labels are white and the menu sets no colours. -/
theorem C92_hover_labels (lit : List Char → PyM (Rgb K)) (cs : Colorscale K)
    (rows : List (K × Rgb K)) (hcs : colorTable lit cs = .ok rows) (hw : WellFormed rows)
    (first : List K) (rest : List (List K)) (hne : first ≠ []) :
    (¬ Constant first → (∀ col ∈ rest, ¬ Constant col) →
      ∃ out outs, hoverColors lit cs first rest = .ok (.perNode out, outs.map some) ∧
        ColumnShown rows first out ∧ List.Forall₂ (ColumnShown rows) rest outs) ∧
    (Constant first →
      hoverColors lit cs first rest = .ok (.white, List.replicate rest.length none)) := by
  rw [hoverColors_eq lit cs first rest hne]
  constructor
  · intro hf hr
    obtain ⟨out, ho, hs⟩ := columnColors_varying lit cs rows hcs hw first hf
    obtain ⟨outs, hos, hF⟩ := mapM_ok_of_forall (fun col => columnColors lit cs col)
      (ColumnShown rows) rest fun col hc => columnColors_varying lit cs rows hcs hw col (hr col hc)
    refine ⟨out, outs, ?_, hs, hF⟩
    rw [ho]
    simp only [hos, ok_bind]
    rfl
  · intro hf
    rw [columnColors_constant lit cs first hf]
    simp [pure, Except.pure]

/-- C92, the other way round: a constant colour column after a first column that varies makes the
whole 3D plot fail with `ValueError`, for every well-formed colorscale. -/
theorem C92_refuted_constant_column (lit : List Char → PyM (Rgb K)) (cs : Colorscale K)
    (rows : List (K × Rgb K)) (hcs : colorTable lit cs = .ok rows) (hw : WellFormed rows)
    (first : List K) (rest : List (List K)) (hf : ¬ Constant first) (col : List K)
    (hm : col ∈ rest) (hc : Constant col) :
    hoverColors lit cs first rest = .error .valueError := by
  have hne : first ≠ [] := by
    rintro rfl
    exact hf (by simp [Constant])
  rw [hoverColors_eq lit cs first rest hne]
  obtain ⟨out, ho, _⟩ := columnColors_varying lit cs rows hcs hw first hf
  rw [ho]
  have : (rest.mapM fun col => columnColors lit cs col) = .error .valueError := by
    clear ho
    induction rest with
    | nil => simp at hm
    | cons a rest ih =>
        rw [List.mapM_cons]
        by_cases ha : Constant a
        · rw [columnColors_constant lit cs a ha]
          rfl
        · obtain ⟨o, hoa, _⟩ := columnColors_varying lit cs rows hcs hw a ha
          rw [hoa, ok_bind]
          rcases List.mem_cons.mp hm with rfl | hm
          · exact absurd hc ha
          · rw [ih hm]
            rfl
  simp only [this]
  rfl

end

example :
    hoverColors (K := ℚ) (fun _ => .error .valueError)
        (.plain ["#000000".toList, "#ffffff".toList]) [1, 2, 3] [[5, 4, 5]] =
      .ok (.perNode ["#000000".toList, "#808080".toList, "#ffffff".toList],
        [some ["#ffffff".toList, "#000000".toList, "#ffffff".toList]]) ∧
    hoverColors (K := ℚ) (fun _ => .error .valueError)
        (.plain ["#000000".toList, "#ffffff".toList]) [1, 2, 3] [[5, 5, 5]] =
      .error .valueError ∧
    hoverColors (K := ℚ) (fun _ => .error .valueError)
        (.plain ["#000000".toList, "#ffffff".toList]) [5, 5, 5] [[1, 2, 3]] =
      .ok (.white, [none]) := ⟨by decide +kernel, by decide +kernel, by decide +kernel⟩

/-! ## Statistics, sizes and hover texts of nodes -/

theorem mapM_ok_or {α β : Type} (f : α → PyM β) (e : PyErr) (l : List α)
    (h : ∀ a ∈ l, (∃ b, f a = .ok b) ∨ f a = .error e) :
    (∃ out, l.mapM f = .ok out) ∨ l.mapM f = .error e := by
  induction l with
  | nil => exact .inl ⟨[], rfl⟩
  | cons a l ih =>
      rw [List.mapM_cons]
      rcases h a (by simp) with ⟨b, hb⟩ | hb
      · rw [hb, ok_bind]
        rcases ih fun a ha => h a (by simp [ha]) with ⟨out, ho⟩ | ho
        · rw [ho, ok_bind]
          exact .inl ⟨_, rfl⟩
        · rw [ho]
          exact .inr rfl
      · rw [hb]
        exact .inr rfl

theorem mapM_error_of {α β : Type} (f : α → PyM β) (e : PyErr) (l : List α)
    (h : ∀ a ∈ l, (∃ b, f a = .ok b) ∨ f a = .error e) (hx : ∃ a ∈ l, f a = .error e) :
    l.mapM f = .error e := by
  induction l with
  | nil => simp at hx
  | cons a l ih =>
      rw [List.mapM_cons]
      rcases h a (by simp) with ⟨b, hb⟩ | hb
      · rw [hb, ok_bind]
        obtain ⟨c, hc, hce⟩ := hx
        rcases List.mem_cons.mp hc with rfl | hc
        · rw [hb] at hce
          cases hce
        · rw [ih (fun a ha => h a (by simp [ha])) ⟨c, hc, hce⟩]
          rfl
      · rw [hb]
        rfl

theorem mapM_congr_ok {α β : Type} (f : α → PyM β) (g : α → β) (l : List α)
    (h : ∀ a ∈ l, f a = .ok (g a)) : l.mapM f = .ok (l.map g) := by
  induction l with
  | nil => rfl
  | cons a l ih =>
      rw [List.mapM_cons, h a (by simp), ok_bind, ih fun a ha => h a (by simp [ha])]
      rfl

/-- C93: the value of node `k` in colour column `j` is the statistic of the entries of that column in
exactly the rows which the node represents, in their order; and the size of the node is the number of
these rows. -/
theorem C93_statistics {V W : Type} (stat : List V → W) (entry : Nat → Nat → V)
    (rows ncols : Nat) (nodes : List (List Nat)) (h : ∀ I ∈ nodes, ∀ r ∈ I, r < rows) :
    nodeStatistics (fun l => .ok (stat l))
        ((List.range rows).map fun r => (List.range ncols).map fun j => entry r j) ncols nodes =
      .ok (nodes.map fun I => (List.range ncols).map fun j => stat (I.map fun r => entry r j)) ∧
    nodeSizes nodes = nodes.map fun I => I.length := by
  refine ⟨?_, rfl⟩
  unfold nodeStatistics
  refine mapM_congr_ok _ _ _ fun I hI => mapM_congr_ok _ _ _ fun j hj => ?_
  have hg : gather ((List.range rows).map fun r => (List.range ncols).map fun j => entry r j) I j =
      .ok (I.map fun r => entry r j) := by
    unfold gather
    refine mapM_congr_ok _ _ _ fun r hr => ?_
    have h1 : r < rows := h I hI r hr
    have h2 : j < ncols := List.mem_range.mp hj
    simp [h1, h2, pure, Except.pure]
  rw [hg, ok_bind]

example :
    nodeStatistics (fun l : List ℚ => .ok (l.sum / l.length)) [[1, 10], [3, 20], [5, 60]] 2
      [[0, 1], [1, 2, 0]] = .ok [[2, 15], [3, 30]] := by decide +kernel

/-- C93: the largest node has a reference size which depends only on the scale: the area reference is
twice the largest number of elements over the square of the scale. -/
theorem C93_sizeref {K : Type} [Field K] [LinearOrder K] [IsStrictOrderedRing K] (sizes : List Nat)
    (big : Nat) (hm : big ∈ sizes) (hb : ∀ s ∈ sizes, s ≤ big) (scale : K) (hs : scale ≠ 0) :
    ∃ ref, sizeref sizes scale = .ok ref ∧ ref * scale ^ 2 = 2 * (big : K) := by
  cases sizes with
  | nil => simp at hm
  | cons s ss =>
      have key : ∀ (l : List Nat) (x : Nat), (l.foldl max x ∈ x :: l) ∧
          ∀ y ∈ x :: l, y ≤ l.foldl max x := by
        intro l
        induction l with
        | nil => simp
        | cons a l ih =>
            intro x
            obtain ⟨h1, h2⟩ := ih (max x a)
            rw [List.foldl_cons]
            constructor
            · rcases List.mem_cons.mp h1 with e | h
              · rw [e]
                rcases max_choice x a with e | e <;> rw [e] <;> simp
              · simp [h]
            · intro y hy
              have hm := h2 (max x a) (by simp)
              rcases List.mem_cons.mp hy with rfl | hy
              · omega
              · rcases List.mem_cons.mp hy with rfl | hy
                · omega
                · exact h2 y (by simp [hy])
      obtain ⟨k1, k2⟩ := key ss s
      have e : ss.foldl max s = big := Nat.le_antisymm (hb _ k1) (k2 _ hm)
      refine ⟨2 * (big : K) / scale ^ 2, ?_, ?_⟩
      · unfold sizeref
        simp only [if_neg hs, e]
        rfl
      · rw [div_mul_cancel₀ _ (pow_ne_zero 2 hs)]

example : sizeref [3, 9, 1] (12 : ℚ) = .ok (1 / 8) := by decide +kernel

theorem takeWhile_append_stop {α : Type} (p : α → Bool) (l : List α) (x : α) (r : List α)
    (h : ∀ a ∈ l, p a = true) (hx : p x = false) : (l ++ x :: r).takeWhile p = l := by
  induction l with
  | nil => simp [hx]
  | cons a l ih =>
      rw [List.cons_append, List.takeWhile_cons, h a (by simp)]
      simp only [if_true]
      rw [ih fun a ha => h a (by simp [ha])]

theorem rfindBlank_split (l r : List Char) (h : ' ' ∉ r) :
    rfindBlank (l ++ ' ' :: r) = l.length := by
  unfold rfindBlank
  have : (l ++ ' ' :: r).reverse = r.reverse ++ ' ' :: l.reverse := by simp
  rw [this, takeWhile_append_stop _ _ _ _ ?_ (by simp)]
  · simp only [List.length_append, List.length_cons, List.length_reverse]
    push_cast
    omega
  · intro a ha
    have : a ≠ ' ' := fun e => h (by rw [← e]; simpa using ha)
    simpa using this

/-- C93: choosing another colour column in the menu changes the statistic shown in the hover text
and nothing else: the text is the one the node would have if that column were the first. -/
theorem C93_hover_text (nodeId pullback label size old new : List Char) (h : ' ' ∉ old) :
    replaceStatistic (nodeText nodeId pullback label size old) new =
      nodeText nodeId pullback label size new := by
  have key : ∀ l s t : List Char, ' ' ∉ s →
      replaceStatistic (l ++ (' ' :: s)) t = l ++ (' ' :: t) := by
    intro l s t hs
    unfold replaceStatistic
    rw [rfindBlank_split l s hs, pySlice_to]
    simp
  have e : "<br>Summary statistic: ".toList = "<br>Summary statistic:".toList ++ [' '] := by
    decide +kernel
  unfold nodeText
  rw [e]
  generalize "<br>Summary statistic:".toList = a
  generalize "<br>Node size: ".toList = b
  generalize "<br>Partial cluster label: ".toList = c
  generalize "<br>Pullback set label: ".toList = d
  generalize "Node ID: ".toList = f
  have k := key (f ++ nodeId ++ d ++ pullback ++ c ++ label ++ b ++ size ++ a) old new h
  simpa only [List.append_assoc, List.cons_append, List.nil_append] using k

example : ' ' ∉ "1.5".toList ∧
    replaceStatistic (nodeText ['0'] ['2'] ['1'] ['4'] "1.5".toList) "-7".toList =
      "Node ID: 0<br>Pullback set label: 2<br>Partial cluster label: 1<br>Node size: 4<br>Summary \
        statistic: -7".toList := by decide +kernel

/-- C93: the hover text of a node shows its identifier, its pullback set label, its partial cluster
label, its size and its statistic, each of that same node. -/
theorem C93_texts {V : Type} (showInt : Int → List Char) (print : V → List Char) (nodes : Nat)
    (nodeId pullback label size : Nat → Int) (stat : Nat → V) :
    hoverTexts showInt print ((List.range nodes).map fun (k : Nat) => nodeId k)
        ((List.range nodes).map fun (k : Nat) => pullback k)
        ((List.range nodes).map fun (k : Nat) => label k)
        ((List.range nodes).map fun (k : Nat) => size k)
        ((List.range nodes).map fun (k : Nat) => stat k) =
      (List.range nodes).map fun (k : Nat) => nodeLines (showInt (nodeId k)) (showInt (pullback k))
        (showInt (label k)) (showInt (size k)) (print (stat k)) := by
  have key : ∀ a b c d e : List Char, nodeText a b c d e = nodeLines a b c d e := by
    intro a b c d e
    have t1 : "<br>Pullback set label: ".toList = "<br>".toList ++ "Pullback set label: ".toList := by
      decide +kernel
    have t2 : "<br>Partial cluster label: ".toList =
        "<br>".toList ++ "Partial cluster label: ".toList := by
      decide +kernel
    have t3 : "<br>Node size: ".toList = "<br>".toList ++ "Node size: ".toList := by
      decide +kernel
    have t4 : "<br>Summary statistic: ".toList = "<br>".toList ++ "Summary statistic: ".toList := by
      decide +kernel
    unfold nodeText nodeLines
    rw [t1, t2, t3, t4]
    generalize "<br>".toList = z
    generalize "Pullback set label: ".toList = z1
    generalize "Partial cluster label: ".toList = z2
    generalize "Node size: ".toList = z3
    generalize "Summary statistic: ".toList = z4
    generalize "Node ID: ".toList = z5
    simp [List.intercalate, List.intersperse, List.append_assoc]
  refine List.ext_getElem ?_ ?_
  · simp [hoverTexts]
  · intro k h1 h2
    simp only [hoverTexts, List.getElem_map, List.getElem_zip, List.getElem_range, key]

example : hoverTexts (fun i => (toString i).toList) (fun n : Nat => (toString n).toList) [7] [2] [1]
    [30] [5] = ["Node ID: 7<br>Pullback set label: 2<br>Partial cluster label: 1<br>Node size: 30<br>Summary statistic: 5".toList] := by
  decide +kernel

/-- C93: with one name per colour column, the menu has one entry per column; it shows the values of
that column, and the hover texts which the plot would have if that column were the first.  `print`
prints a rounded statistic, without blanks. -/
theorem C93_menu {V : Type} (showInt : Int → List Char) (print : V → List Char)
    (hp : ∀ v, ' ' ∉ print v) (ids pullback labels sizes : List Int) (entry : Nat → Nat → V)
    (nodes : Nat) (names : List (List Char)) (hne : names ≠ [])
    (l1 : ids.length = nodes) (l2 : pullback.length = nodes) (l3 : labels.length = nodes)
    (l4 : sizes.length = nodes) :
    columnButtons print
        ((List.range nodes).map fun k => (List.range names.length).map fun j => entry k j)
        (hoverTexts showInt print ids pullback labels sizes ((List.range nodes).map fun k => entry k 0))
        names =
      .ok ((names.zipIdx).map fun p =>
        ⟨p.1, (List.range nodes).map fun k => entry k p.2,
          hoverTexts showInt print ids pullback labels sizes
            ((List.range nodes).map fun k => entry k p.2)⟩) := by
  cases names with
  | nil => exact absurd rfl hne
  | cons name rest =>
      have hcol : ∀ j, j < (name :: rest).length →
          columnOf ((List.range nodes).map fun k =>
            (List.range (name :: rest).length).map fun j => entry k j) j =
            .ok ((List.range nodes).map fun k => entry k j) := by
        intro j hj
        unfold columnOf
        rw [List.mapM_map]
        refine mapM_congr_ok _ _ _ fun k _ => ?_
        simp only [Function.comp, List.getElem?_map, List.getElem?_range hj, Option.map_some]
        rfl
      have hhover : ∀ j, ((hoverTexts showInt print ids pullback labels sizes
            ((List.range nodes).map fun k => entry k 0)).zip
              ((List.range nodes).map fun k => entry k j)).map
                (fun q => replaceStatistic q.1 (print q.2)) =
          hoverTexts showInt print ids pullback labels sizes
            ((List.range nodes).map fun k => entry k j) := by
        intro j
        refine List.ext_getElem ?_ ?_
        · simp [hoverTexts, l1, l2, l3, l4]
        · intro k h1 h2
          simp only [hoverTexts, List.getElem_map, List.getElem_zip]
          rw [C93_hover_text _ _ _ _ _ _ (hp _)]
      unfold columnButtons
      simp only
      rw [hcol 0 (by simp), ok_bind]
      have hmore := mapM_congr_ok (fun p : List Char × Nat => (do
          let c ← columnOf ((List.range nodes).map fun k =>
            (List.range (name :: rest).length).map fun j => entry k j) p.2
          pure (⟨p.1, c, ((hoverTexts showInt print ids pullback labels sizes
            ((List.range nodes).map fun k => entry k 0)).zip c).map
              fun q => replaceStatistic q.1 (print q.2)⟩ : Button V) : PyM (Button V)))
        (fun p => ⟨p.1, (List.range nodes).map fun k => entry k p.2,
          hoverTexts showInt print ids pullback labels sizes
            ((List.range nodes).map fun k => entry k p.2)⟩) (rest.zipIdx 1) (by
          rintro ⟨nm, j⟩ hj
          have hj' := List.mem_zipIdx hj
          have hlt : j < (name :: rest).length := by
            simp only [List.length_cons]
            omega
          simp only [hcol j hlt, ok_bind, hhover]
          rfl)
      rw [hmore, ok_bind, List.zipIdx_cons]
      rfl

example :
    columnButtons (fun n : Nat => (toString n).toList) [[5, 7], [6, 8]]
        (hoverTexts (fun i => (toString i).toList) (fun n : Nat => (toString n).toList) [0, 1] [0, 0]
          [0, 1] [3, 4] [5, 6]) ["a".toList, "b".toList] =
      .ok [⟨"a".toList, [5, 6], hoverTexts (fun i => (toString i).toList)
              (fun n : Nat => (toString n).toList) [0, 1] [0, 0] [0, 1] [3, 4] [5, 6]⟩,
           ⟨"b".toList, [7, 8], hoverTexts (fun i => (toString i).toList)
              (fun n : Nat => (toString n).toList) [0, 1] [0, 0] [0, 1] [3, 4] [7, 8]⟩] := by
  decide +kernel

/-- C93, the other way round: a menu with more names than colour columns cannot be made. -/
theorem C93_too_many_names {V : Type} (print : V → List Char) (colors : List (List V))
    (hover names : List (List Char)) (row : List V) (hr : row ∈ colors)
    (hl : row.length < names.length) : columnButtons print colors hover names = .error .indexError := by
  have hent : ∀ (row : List V) (j : Nat), (∃ v, (match row[j]? with
      | some v => pure v
      | none => .error .indexError : PyM V) = .ok v) ∨ (match row[j]? with
      | some v => pure v
      | none => .error .indexError : PyM V) = .error .indexError := by
    intro row j
    cases row[j]? with
    | none => exact .inr rfl
    | some v => exact .inl ⟨v, rfl⟩
  have hcol : ∀ j, (∃ c, columnOf colors j = .ok c) ∨ columnOf colors j = .error .indexError :=
    fun j => mapM_ok_or _ _ _ fun row _ => hent row j
  have hbad : columnOf colors row.length = .error .indexError :=
    mapM_error_of _ _ _ (fun row _ => hent row _)
      ⟨row, hr, by simp only [List.getElem?_eq_none (le_refl row.length)]⟩
  cases names with
  | nil => simp at hl
  | cons name rest =>
      unfold columnButtons
      simp only
      rcases hcol 0 with ⟨c, h⟩ | h
      · rw [h, ok_bind]
        have h0 : row.length ≠ 0 := by
          intro e
          rw [e, h] at hbad
          cases hbad
        rw [mapM_error_of _ PyErr.indexError (rest.zipIdx 1) ?_ ?_]
        · rfl
        · intro p _
          rcases hcol p.2 with ⟨c, h⟩ | h
          · rw [h, ok_bind]
            exact .inl ⟨_, rfl⟩
          · rw [h]
            exact .inr rfl
        · have hi : row.length - 1 < rest.length := by
            simp only [List.length_cons] at hl
            omega
          refine ⟨(rest[row.length - 1], row.length), ?_, ?_⟩
          · rw [List.mem_iff_getElem?]
            refine ⟨row.length - 1, ?_⟩
            rw [List.getElem?_zipIdx, List.getElem?_eq_getElem hi]
            simp only [Option.map_some, Option.some.injEq, Prod.mk.injEq, true_and]
            omega
          · simp only [hbad]
            rfl
      · rw [h]
        rfl

example : columnButtons (fun n : Nat => (toString n).toList) [[5], [6]] ["x".toList, "y".toList]
    ["a".toList, "b".toList] = .error .indexError := by decide +kernel

/-! ## Significant figures -/

section

variable {K : Type} [Field K] [LinearOrder K] [IsStrictOrderedRing K] [FloorRing K]

theorem rint_near (y : K) : |(rint y : K) - y| ≤ 1 / 2 := by
  have l1 := Int.floor_le y
  have l2 := Int.lt_floor_add_one y
  have half : (0 : K) < 1 / 2 := by norm_num
  unfold rint
  simp only
  rw [abs_le]
  split
  · constructor <;> linarith
  · split
    · push_cast
      constructor <;> linarith
    · have : y - (⌊y⌋ : K) = 1 / 2 := le_antisymm (not_lt.mp (by assumption)) (not_lt.mp (by assumption))
      split
      · constructor <;> linarith
      · push_cast
        constructor <;> linarith

theorem rint_mem (y : K) : rint y = ⌊y⌋ ∨ (rint y = ⌊y⌋ + 1 ∧ (⌊y⌋ : K) < y) := by
  have half : (0 : K) < 1 / 2 := by norm_num
  unfold rint
  simp only
  split
  · exact .inl rfl
  · have h : (⌊y⌋ : K) < y := by linarith
    split
    · exact .inr ⟨rfl, h⟩
    · split
      · exact .inl rfl
      · exact .inr ⟨rfl, h⟩

theorem le_rint (k : Int) (y : K) (h : (k : K) ≤ y) : k ≤ rint y := by
  have hf : k ≤ ⌊y⌋ := Int.le_floor.mpr h
  rcases rint_mem y with e | ⟨e, _⟩ <;> omega

theorem rint_le (k : Int) (y : K) (h : y ≤ (k : K)) : rint y ≤ k := by
  rcases rint_mem y with e | ⟨e, hlt⟩
  · rw [e]
    exact_mod_cast le_trans (Int.floor_le y) h
  · have : (⌊y⌋ : K) < (k : K) := lt_of_lt_of_le hlt h
    have := Int.cast_lt.mp this
    omega

/-- C94: rounding a nonzero number of order of magnitude `e` to `n ≥ 1` significant figures gives a
whole multiple of the unit of its `n`-th figure, at most half that unit and at most the fraction
`5 / 10 ^ n` of the number away, of the same sign, and again between `10 ^ e` and `10 ^ (e + 1)`. -/
theorem C94_significant_figures (x : K) (hx : x ≠ 0) (n e : Int) (hn : 1 ≤ n)
    (he : (10 : K) ^ e ≤ |x|) (he' : |x| < (10 : K) ^ (e + 1)) :
    (∃ m : Int, roundSig x (some n) = (m : K) * 10 ^ (e - n + 1)) ∧
    |roundSig x (some n) - x| ≤ 10 ^ (e - n + 1) / 2 ∧
    |roundSig x (some n) - x| * 10 ^ n ≤ 5 * |x| ∧
    0 < roundSig x (some n) * x ∧
    (10 : K) ^ e ≤ |roundSig x (some n)| ∧ |roundSig x (some n)| ≤ (10 : K) ^ (e + 1) := by
  have ten : (0 : K) < 10 := by norm_num
  have ten0 : (10 : K) ≠ 0 := ten.ne'
  have hax : 0 < |x| := abs_pos.mpr hx
  have hlog : Int.log 10 |x| = e := by
    refine le_antisymm ?_ ?_
    · have : |x| < ((10 : Nat) : K) ^ (e + 1) := by simpa using he'
      have := (Int.lt_zpow_iff_log_lt (b := 10) (by norm_num) hax).mp this
      omega
    · have : ((10 : Nat) : K) ^ e ≤ |x| := by simpa using he
      exact (Int.zpow_le_iff_le_log (b := 10) (by norm_num) hax).mp this
  have hr : roundSig x (some n) = (rint (x * 10 ^ (n - 1 - e)) : K) / 10 ^ (n - 1 - e) := by
    unfold roundSig roundDec
    simp only [if_neg hx, hlog]
    rw [show -e + (n - 1) = n - 1 - e by ring]
  have hu : (0 : K) < 10 ^ (n - 1 - e) := zpow_pos ten _
  have hinv : (10 : K) ^ (e - n + 1) = (10 ^ (n - 1 - e))⁻¹ := by
    rw [← zpow_neg]
    congr 1
    ring
  have hdiff : roundSig x (some n) - x =
      ((rint (x * 10 ^ (n - 1 - e)) : K) - x * 10 ^ (n - 1 - e)) * 10 ^ (e - n + 1) := by
    rw [hr, hinv]
    field_simp
  have hU : (0 : K) < 10 ^ (e - n + 1) := zpow_pos ten _
  have h2 : |roundSig x (some n) - x| ≤ 10 ^ (e - n + 1) / 2 := by
    rw [hdiff, abs_mul, abs_of_pos hU]
    have := mul_le_mul_of_nonneg_right (rint_near (x * 10 ^ (n - 1 - e))) hU.le
    linarith
  obtain ⟨N, hN⟩ : ∃ N : Nat, n - 1 = N := ⟨(n - 1).toNat, by omega⟩
  have hlow : ((10 ^ N : Nat) : K) ≤ |x| * 10 ^ (n - 1 - e) := by
    have := mul_le_mul_of_nonneg_right he hu.le
    rw [← zpow_add₀ ten0, show e + (n - 1 - e) = N by omega, zpow_natCast] at this
    simpa using this
  have hup : |x| * 10 ^ (n - 1 - e) ≤ ((10 ^ (N + 1) : Nat) : K) := by
    have := mul_le_mul_of_nonneg_right he'.le hu.le
    rw [← zpow_add₀ ten0, show e + 1 + (n - 1 - e) = ((N + 1 : Nat) : Int) by push_cast; omega,
      zpow_natCast] at this
    simpa using this
  have hEL : ((10 ^ N : Nat) : K) / 10 ^ (n - 1 - e) = 10 ^ e := by
    have : ((10 ^ N : Nat) : K) = 10 ^ (n - 1) := by rw [hN, zpow_natCast]; simp
    rw [this, ← zpow_sub₀ ten0]
    congr 1
    ring
  have hEU : ((10 ^ (N + 1) : Nat) : K) / 10 ^ (n - 1 - e) = 10 ^ (e + 1) := by
    have : ((10 ^ (N + 1) : Nat) : K) = 10 ^ (n - 1 + 1) := by
      rw [hN, show (N : Int) + 1 = ((N + 1 : Nat) : Int) by push_cast; ring, zpow_natCast]; simp
    rw [this, ← zpow_sub₀ ten0]
    congr 1
    ring
  have hpow : 0 < (10 ^ N : Nat) := by positivity
  have hcases : (0 < x ∧ ((10 ^ N : Nat) : Int) ≤ rint (x * 10 ^ (n - 1 - e)) ∧
      rint (x * 10 ^ (n - 1 - e)) ≤ ((10 ^ (N + 1) : Nat) : Int)) ∨
      (x < 0 ∧ rint (x * 10 ^ (n - 1 - e)) ≤ -((10 ^ N : Nat) : Int) ∧
        -((10 ^ (N + 1) : Nat) : Int) ≤ rint (x * 10 ^ (n - 1 - e))) := by
    rcases lt_or_gt_of_ne hx with hneg | hpos
    · right
      rw [abs_of_neg hneg] at hlow hup
      refine ⟨hneg, rint_le _ _ ?_, le_rint _ _ ?_⟩
      · push_cast at hlow ⊢
        linarith
      · push_cast at hup ⊢
        linarith
    · left
      rw [abs_of_pos hpos] at hlow hup
      refine ⟨hpos, le_rint _ _ ?_, rint_le _ _ ?_⟩
      · push_cast at hlow ⊢
        linarith
      · push_cast at hup ⊢
        linarith
  refine ⟨⟨rint (x * 10 ^ (n - 1 - e)), by rw [hr, hinv, div_eq_mul_inv]⟩, h2, ?_, ?_, ?_, ?_⟩
  · have hnn : (0 : K) < 10 ^ n := zpow_pos ten _
    have h3 := mul_le_mul_of_nonneg_right h2 hnn.le
    have e1 : (10 : K) ^ (e - n + 1) / 2 * 10 ^ n = 5 * 10 ^ e := by
      have : (10 : K) ^ (e - n + 1) * 10 ^ n = 10 * 10 ^ e := by
        rw [← zpow_add₀ ten0, show e - n + 1 + n = 1 + e by ring, zpow_add₀ ten0, zpow_one]
      rw [div_mul_eq_mul_div, this]
      ring
    rw [e1] at h3
    linarith
  · rcases hcases with ⟨hp, h1, _⟩ | ⟨hneg, h1, _⟩
    · refine mul_pos ?_ hp
      rw [hr]
      refine div_pos ?_ hu
      have : 0 < rint (x * 10 ^ (n - 1 - e)) := lt_of_lt_of_le (by exact_mod_cast hpow) h1
      exact_mod_cast this
    · refine mul_pos_of_neg_of_neg ?_ hneg
      rw [hr]
      refine div_neg_of_neg_of_pos ?_ hu
      have : rint (x * 10 ^ (n - 1 - e)) < 0 := by
        have : (0 : Int) < ((10 ^ N : Nat) : Int) := by exact_mod_cast hpow
        omega
      exact_mod_cast this
  · rw [← hEL, hr, abs_div, abs_of_pos hu]
    refine div_le_div_of_nonneg_right ?_ hu.le
    have : ((10 ^ N : Nat) : Int) ≤ |rint (x * 10 ^ (n - 1 - e))| := by
      rcases hcases with ⟨_, h1, _⟩ | ⟨_, h1, _⟩
      · exact le_trans h1 (le_abs_self _)
      · exact le_trans (by omega) (neg_le_abs _)
    have := Int.cast_le (R := K).mpr this
    rw [Int.cast_abs] at this
    simpa using this
  · rw [← hEU, hr, abs_div, abs_of_pos hu]
    refine div_le_div_of_nonneg_right ?_ hu.le
    have : |rint (x * 10 ^ (n - 1 - e))| ≤ ((10 ^ (N + 1) : Nat) : Int) := by
      rw [abs_le]
      have : (0 : Int) < ((10 ^ N : Nat) : Int) := by exact_mod_cast hpow
      have : (0 : Int) < ((10 ^ (N + 1) : Nat) : Int) := by positivity
      rcases hcases with ⟨_, h1, h3⟩ | ⟨_, h1, h3⟩
      · omega
      · omega
    have := Int.cast_le (R := K).mpr this
    rw [Int.cast_abs] at this
    simpa using this

example : roundSig (123456 / 100 : ℚ) (some 3) = 1230 ∧ roundSig (-987654 : ℚ) (some 2) = -990000 ∧
    roundSig (9996 / 1000000 : ℚ) (some 3) = 1 / 100 := by decide +kernel

/-- C94: zero stays zero, and no rounding is done if the number of figures is `None`. -/
theorem C94_special (x : K) (n : Int) :
    roundSig (0 : K) (some n) = 0 ∧ roundSig x none = x := by
  refine ⟨?_, rfl⟩
  unfold roundSig
  simp

/-- C94: a number which is already a multiple of the unit of its `n`-th figure is not changed; in
particular rounding twice is the same as rounding once unless the first step changed the order of
magnitude. -/
theorem C94_exact (x : K) (hx : x ≠ 0) (n e m : Int)
    (he : (10 : K) ^ e ≤ |x|) (he' : |x| < (10 : K) ^ (e + 1))
    (hm : x = (m : K) * 10 ^ (e - n + 1)) : roundSig x (some n) = x := by
  have ten0 : (10 : K) ≠ 0 := by norm_num
  have hax : 0 < |x| := abs_pos.mpr hx
  have hlog : Int.log 10 |x| = e := by
    refine le_antisymm ?_ ?_
    · have : |x| < ((10 : Nat) : K) ^ (e + 1) := by simpa using he'
      have := (Int.lt_zpow_iff_log_lt (b := 10) (by norm_num) hax).mp this
      omega
    · have : ((10 : Nat) : K) ^ e ≤ |x| := by simpa using he
      exact (Int.zpow_le_iff_le_log (b := 10) (by norm_num) hax).mp this
  unfold roundSig roundDec
  simp only [if_neg hx, hlog]
  have hy : x * 10 ^ (-e + (n - 1)) = (m : K) := by
    rw [hm, mul_assoc, ← zpow_add₀ ten0, show e - n + 1 + (-e + (n - 1)) = 0 by ring, zpow_zero,
      mul_one]
  have hri : rint (m : K) = m := le_antisymm (rint_le m _ le_rfl) (le_rint m _ le_rfl)
  rw [hy, hri, ← hy, mul_div_assoc, div_self (zpow_ne_zero _ ten0), mul_one]

example : (10 : ℚ) ^ (2 : Int) ≤ |(120 : ℚ)| ∧ |(120 : ℚ)| < (10 : ℚ) ^ ((2 : Int) + 1) ∧
    (120 : ℚ) = ((12 : Int) : ℚ) * 10 ^ ((2 : Int) - 2 + 1) := by
  norm_num

/-- C94: a number exactly half-way between two multiples of the unit of its `n`-th figure goes to
the even one, as in `numpy.round`. -/
theorem C94_ties (x : K) (hx : x ≠ 0) (n e m : Int)
    (he : (10 : K) ^ e ≤ |x|) (he' : |x| < (10 : K) ^ (e + 1))
    (hm : x = ((m : K) + 1 / 2) * 10 ^ (e - n + 1)) :
    ∃ k : Int, roundSig x (some n) = ((2 * k : Int) : K) * 10 ^ (e - n + 1) := by
  have ten0 : (10 : K) ≠ 0 := by norm_num
  have hax : 0 < |x| := abs_pos.mpr hx
  have hlog : Int.log 10 |x| = e := by
    refine le_antisymm ?_ ?_
    · have : |x| < ((10 : Nat) : K) ^ (e + 1) := by simpa using he'
      have := (Int.lt_zpow_iff_log_lt (b := 10) (by norm_num) hax).mp this
      omega
    · have : ((10 : Nat) : K) ^ e ≤ |x| := by simpa using he
      exact (Int.zpow_le_iff_le_log (b := 10) (by norm_num) hax).mp this
  have hy : x * 10 ^ (-e + (n - 1)) = (m : K) + 1 / 2 := by
    rw [hm, mul_assoc, ← zpow_add₀ ten0, show e - n + 1 + (-e + (n - 1)) = 0 by ring, zpow_zero,
      mul_one]
  have hfl : ⌊(m : K) + 1 / 2⌋ = m := by
    rw [Int.floor_eq_iff]
    constructor <;> norm_num
  have hri : ∃ k : Int, rint ((m : K) + 1 / 2) = 2 * k := by
    unfold rint
    simp only [hfl, add_sub_cancel_left, lt_irrefl, if_false]
    split
    · exact ⟨m / 2, by omega⟩
    · exact ⟨(m + 1) / 2, by omega⟩
  obtain ⟨k, hk⟩ := hri
  refine ⟨k, ?_⟩
  unfold roundSig roundDec
  simp only [if_neg hx, hlog]
  rw [hy, hk, div_eq_mul_inv, ← zpow_neg, show -(-e + (n - 1)) = e - n + 1 by ring]

example : roundSig (125 : ℚ) (some 2) = 120 ∧ roundSig (135 : ℚ) (some 2) = 140 := by
  decide +kernel

end

end Gtda
