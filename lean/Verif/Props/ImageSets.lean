import Verif.Props.ImageSymmetryMesh
import Verif.Props.ImagesPre
import Mathlib.Tactic.IntervalCases

set_option autoImplicit false
set_option linter.unusedSectionVars false

/-!
# C154: image filtrations of unions and intersections, of padded images and of shapes that are near each other

An image of zeros and ones is a set of active pixels: `max` of two images is their union, `min` their intersection.
-/

namespace Gtda.Props.ImageSets
open Gtda.Py Gtda.Images Gtda.Spec.Images Gtda.Props.ImageSymmetry

variable {K : Type} [Field K] [LinearOrder K] [IsStrictOrderedRing K]

theorem max_pos {n : Option Nat} {shape : List Nat} {f : IterFitted} (hne : shape ≠ []) (hf : iterFit n shape = .ok f) {p q : List Nat} (hp : IsPixel shape p) (hq : IsPixel shape q) :
    manhattan p q < f.maxValue := by
  rw [iterFit_ok hf]
  exact manhattan_lt_sum hne hp hq

/-- Distances to a union are the smaller distances. -/
theorem val_union {shape : List Nat} {A A' B : List Nat → Prop} (hB : ∀ p, IsPixel shape p → (B p ↔ A p ∨ A' p)) {n : Option Nat} {m : K}
    (hm : ∀ p q, IsPixel shape p → IsPixel shape q → (manhattan p q : K) ≤ m) {p : List Nat} (hp : IsPixel shape p) {v v' w : K} (h : Val shape A n m p v) (h' : Val shape A' n m p v')
    (hw : Val shape B n m p w) : w = min v v' := by
  have hm' : ∀ B : List Nat → Prop, ∀ p d, IsPixel shape p → IsGridDist shape B p d → (d : K) ≤ m := by
    rintro B p d hp ⟨⟨q, hq, _, rfl⟩, _⟩
    exact hm p q hp hq
  refine le_antisymm (le_min ?_ ?_) ?_
  · exact val_mono (fun p hp hA => (hB p hp).2 (.inl hA)) (hm' B) hp h hw
  · exact val_mono (fun p hp hA => (hB p hp).2 (.inr hA)) (hm' B) hp h' hw
  · have key : ∀ {C : List Nat → Prop} {u : K}, Val shape C n m p u → ∀ q, IsPixel shape q → C q → (∀ N, n = some N → manhattan p q ≤ N) → u ≤ manhattan p q := by
      intro C u hu q hq hC hN
      rcases hu with ⟨d, h1, _, h3⟩ | ⟨h1, _⟩
      · rw [h3]
        exact_mod_cast h1.2 q hq hC
      · obtain ⟨e, he, hd⟩ := exists_gridDist (A := C) (k := manhattan p q) (p := p) ⟨q, hq, hC, le_rfl⟩
        obtain ⟨N, hN', hlt⟩ := h1 e hd
        have := hN N hN'
        omega
    have top : ∀ {C : List Nat → Prop} {u : K}, Val shape C n m p u → u ≤ m := by
      rintro C u (⟨d, h1, _, h3⟩ | ⟨_, h2⟩)
      · rw [h3]
        exact hm' C p d hp h1
      · rw [h2]
    rcases hw with ⟨d, ⟨⟨q, hq, hBq, hd⟩, _⟩, h2, h3⟩ | ⟨_, h2⟩
    · rw [h3, ← hd]
      rcases (hB q hq).1 hBq with hA | hA
      · exact (min_le_left _ _).trans (key h q hq hA (hd ▸ h2))
      · exact (min_le_right _ _).trans (key h' q hq hA (hd ▸ h2))
    · rw [h2]
      exact (min_le_left _ _).trans (top h)

theorem val_zero {shape : List Nat} {A : List Nat → Prop} {n : Option Nat} {m : K} (hm : 0 < m) {p : List Nat} (hp : IsPixel shape p) {v : K} (h : Val shape A n m p v) :
    (A p ↔ v = 0) ∧ 0 ≤ v ∧ (¬ A p → 0 < v) := by
  have hA0 := (C61_distance_facts shape A p hp).1
  rcases h with ⟨d, h1, h2, h3⟩ | ⟨h1, h2⟩
  · have : A p ↔ d = 0 := by
      rw [hA0]
      exact ⟨fun h => gridDist_unique h1 h, fun h => h ▸ h1⟩
    rw [h3]
    refine ⟨by rw [this, Nat.cast_eq_zero], Nat.cast_nonneg _, fun h => ?_⟩
    have : 0 < d := Nat.pos_of_ne_zero fun h0 => h (this.2 h0)
    exact_mod_cast this
  · rw [h2]
    refine ⟨⟨fun h => ?_, fun h => absurd h hm.ne'⟩, hm.le, fun _ => hm⟩
    obtain ⟨N, _, hlt⟩ := h1 0 (hA0.1 h)
    omega

/-- Distances to sets that are near each other are near each other. -/
theorem val_near {shape : List Nat} {A A' : List Nat → Prop} {ε : Nat} (hA : ∀ p, IsPixel shape p → A p → ∃ q, IsPixel shape q ∧ A' q ∧ manhattan p q ≤ ε)
    (hA' : ∀ p, IsPixel shape p → A' p → ∃ q, IsPixel shape q ∧ A q ∧ manhattan p q ≤ ε) {m : K} {p : List Nat} (hp : IsPixel shape p) {v v' : K} (h : Val shape A none m p v)
    (h' : Val shape A' none m p v') : v ≤ v' + ε := by
  rcases h' with ⟨d, ⟨⟨q, hq, hAq, hd⟩, _⟩, _, h3⟩ | ⟨h1', h2'⟩
  · obtain ⟨r, hr, hAr, hle⟩ := hA' q hq hAq
    have t := manhattan_triangle (p := p) (q := q) (r := r) (by rw [pixel_length hp, pixel_length hq]) (by rw [pixel_length hq, pixel_length hr])
    rcases h with ⟨e, h1, _, h4⟩ | ⟨h1, _⟩
    · rw [h4, h3]
      have := h1.2 r hr hAr
      exact_mod_cast (by omega : e ≤ d + ε)
    · obtain ⟨e, _, he⟩ := exists_gridDist (A := A) (k := manhattan p r) (p := p) ⟨r, hr, hAr, le_rfl⟩
      obtain ⟨N, hN, _⟩ := h1 e he
      cases hN
  · rcases h with ⟨e, ⟨⟨q, hq, hAq, hd⟩, _⟩, _, _⟩ | ⟨_, h2⟩
    · obtain ⟨r, hr, hAr, _⟩ := hA q hq hAq
      obtain ⟨e, _, he⟩ := exists_gridDist (A := A') (k := manhattan p r) (p := p) ⟨r, hr, hAr, le_rfl⟩
      obtain ⟨N, hN, _⟩ := h1' e he
      cases hN
    · rw [h2, h2']
      have : (0 : K) ≤ ε := Nat.cast_nonneg _
      linarith

theorem val_le {shape : List Nat} {A : List Nat → Prop} {m : K} {p q : List Nat} (hq : IsPixel shape q) (hA : A q) {v : K} (h : Val shape A none m p v) : v ≤ manhattan p q := by
  rcases h with ⟨d, h1, _, h3⟩ | ⟨h1, _⟩
  · rw [h3]
    exact_mod_cast h1.2 q hq hA
  · obtain ⟨e, _, he⟩ := exists_gridDist (A := A) (k := manhattan p q) (p := p) ⟨q, hq, hA, le_rfl⟩
    obtain ⟨N, hN, _⟩ := h1 e he
    cases hN

theorem shift_manhattan {p q ws : List Nat} (hp : p.length = ws.length) (hq : q.length = ws.length) :
    manhattan (List.zipWith (· + ·) p ws) (List.zipWith (· + ·) q ws) = manhattan p q := by
  induction ws generalizing p q with
  | nil => simp_all [manhattan]
  | cons w ws ih =>
    cases p with
    | nil => simp at hp
    | cons i p =>
      cases q with
      | nil => simp at hq
      | cons j q =>
        simp only [List.length_cons, Nat.add_right_cancel_iff] at hp hq
        simp only [List.zipWith_cons_cons, manhattan, ih hp hq]
        omega

theorem shift_pixel {shape p ws : List Nat} (hl : ws.length = shape.length) (hp : IsPixel shape p) : IsPixel (List.zipWith (fun d w => d + 2 * w) shape ws) (List.zipWith (· + ·) p ws) := by
  unfold IsPixel at *
  induction hp generalizing ws with
  | nil => simp
  | cons h _ ih =>
    cases ws with
    | nil => simp at hl
    | cons w ws =>
      simp only [List.length_cons, Nat.add_right_cancel_iff] at hl
      exact .cons (by dsimp only at *; omega) (ih hl)

theorem shift_gridDist {shape ws : List Nat} (hl : ws.length = shape.length) {A B : List Nat → Prop} (hA : ∀ p, IsPixel shape p → (B (List.zipWith (· + ·) p ws) ↔ A p))
    (hB : ∀ q, (∀ p, IsPixel shape p → q ≠ List.zipWith (· + ·) p ws) → ¬ B q) {p : List Nat} (hp : IsPixel shape p) (d : Nat) :
    IsGridDist shape A p d ↔ IsGridDist (List.zipWith (fun d w => d + 2 * w) shape ws) B (List.zipWith (· + ·) p ws) d := by
  have hL : ∀ {q}, IsPixel shape q → q.length = ws.length := fun h => (pixel_length h).trans hl.symm
  have hin : ∀ q, B q → ∃ r, IsPixel shape r ∧ q = List.zipWith (· + ·) r ws := by
    intro q hq
    by_contra hc
    push Not at hc
    exact hB q hc hq
  constructor
  · rintro ⟨⟨q, hq, hAq, hd⟩, hmin⟩
    refine ⟨⟨_, shift_pixel hl hq, (hA q hq).2 hAq, by rw [shift_manhattan (hL hp) (hL hq), hd]⟩, fun r _ hBr => ?_⟩
    obtain ⟨r, hr, rfl⟩ := hin r hBr
    rw [shift_manhattan (hL hp) (hL hr)]
    exact hmin r hr ((hA r hr).1 hBr)
  · rintro ⟨⟨q, _, hBq, hd⟩, hmin⟩
    obtain ⟨q, hq, rfl⟩ := hin q hBq
    rw [shift_manhattan (hL hp) (hL hq)] at hd
    refine ⟨⟨q, hq, (hA q hq).1 hBq, hd⟩, fun r hr hAr => ?_⟩
    rw [← shift_manhattan (hL hp) (hL hr)]
    exact hmin _ (shift_pixel hl hr) ((hA r hr).2 hAr)

/-- Values before and after a shift: the same if reached, else the largest values. -/
theorem val_shift {shape ws : List Nat} (hl : ws.length = shape.length) {A B : List Nat → Prop} (hA : ∀ p, IsPixel shape p → (B (List.zipWith (· + ·) p ws) ↔ A p))
    (hB : ∀ q, (∀ p, IsPixel shape p → q ≠ List.zipWith (· + ·) p ws) → ¬ B q) {p : List Nat} (hp : IsPixel shape p) {n : Option Nat} {m m' v v' : K}
    (hm : ∀ q, IsPixel shape q → (manhattan p q : K) < m) (h : Val shape A n m p v)
    (h' : Val (List.zipWith (fun d w => d + 2 * w) shape ws) B n m' (List.zipWith (· + ·) p ws) v') : (v < m → v' = v) ∧ (v = m → v' = m') := by
  have e := shift_gridDist hl hA hB hp
  rcases h with ⟨d, h1, h2, h3⟩ | ⟨h1, h2⟩
  · have hlt : v < m := by
      obtain ⟨⟨q, hq, _, hd⟩, _⟩ := h1
      rw [h3, ← hd]
      exact hm q hq
    refine ⟨fun _ => ?_, fun h => absurd h hlt.ne⟩
    rcases h' with ⟨d', h1', _, h3'⟩ | ⟨h1', _⟩
    · rw [h3, h3', gridDist_unique ((e d).1 h1) h1']
    · obtain ⟨N, hN, hlt⟩ := h1' d ((e d).1 h1)
      have := h2 N hN
      omega
  · refine ⟨fun h => absurd h2 h.ne, fun _ => ?_⟩
    rcases h' with ⟨d', h1', h2', _⟩ | ⟨_, h2'⟩
    · obtain ⟨N, hN, hlt⟩ := h1 d' ((e d').2 h1')
      have := h2' N hN
      omega
    · exact h2'

/-- A pixel outside of the original image is at least as far away as an edge. -/
theorem outside_far {shape ws p q : List Nat} (hl : ws.length = shape.length) (hp : IsPixel shape p) (hq : IsPixel (List.zipWith (fun d w => d + 2 * w) shape ws) q)
    (ho : ∀ r, IsPixel shape r → q ≠ List.zipWith (· + ·) r ws) :
    ∃ (k : Nat) (i d : Nat), p[k]? = some i ∧ shape[k]? = some d ∧ (i + 1 ≤ manhattan (List.zipWith (· + ·) p ws) q ∨ d - i ≤ manhattan (List.zipWith (· + ·) p ws) q) := by
  unfold IsPixel at hp
  induction hp generalizing ws q with
  | nil =>
    cases hq
    exact absurd (by simp) (ho [] .nil)
  | @cons i d p shape h hp ih =>
    cases ws with
    | nil => simp at hl
    | cons w ws =>
      simp only [List.length_cons, Nat.add_right_cancel_iff] at hl
      simp only [List.zipWith_cons_cons] at hq ho ⊢
      cases hq with
      | @cons j _ q _ hj hq =>
        by_cases hw : w ≤ j ∧ j < w + d
        · obtain ⟨k, i', d', h1, h2, h3⟩ := ih hl hq (fun r hr hqr => ho ((j - w) :: r) (.cons (by omega) hr) (by simp only [List.zipWith_cons_cons, hqr]; congr 1; omega))
          refine ⟨k + 1, i', d', by simpa using h1, by simpa using h2, ?_⟩
          simp only [manhattan]
          omega
        · refine ⟨0, i, d, rfl, rfl, ?_⟩
          simp only [manhattan]
          omega

/-- Just outside of each edge there is a pixel of the border. -/
theorem outside_near {shape ws p : List Nat} (hl : ws.length = shape.length) (hw : ∀ w ∈ ws, 1 ≤ w) (hp : IsPixel shape p) (k i d : Nat) (hi : p[k]? = some i) (hd : shape[k]? = some d) (e : Nat)
    (he : e = i + 1 ∨ e = d - i) :
    ∃ q, IsPixel (List.zipWith (fun d w => d + 2 * w) shape ws) q ∧ (∀ r, IsPixel shape r → q ≠ List.zipWith (· + ·) r ws) ∧ manhattan (List.zipWith (· + ·) p ws) q = e := by
  unfold IsPixel at hp
  induction hp generalizing ws k with
  | nil => simp at hi
  | @cons i' d' p shape h hp ih =>
    cases ws with
    | nil => simp at hl
    | cons w ws =>
      simp only [List.length_cons, Nat.add_right_cancel_iff] at hl
      have hw1 : 1 ≤ w := hw w (by simp)
      simp only [List.zipWith_cons_cons]
      cases k with
      | zero =>
        simp only [List.getElem?_cons_zero, Option.some.injEq] at hi hd
        subst hi hd
        have hpix := shift_pixel hl hp
        rcases he with rfl | rfl
        · refine ⟨(w - 1) :: List.zipWith (· + ·) p ws, .cons (by omega) hpix, fun r hr heq => ?_, ?_⟩
          · cases hr with
            | cons ha _ =>
              simp only [List.zipWith_cons_cons, List.cons.injEq] at heq
              omega
          · simp only [manhattan, manhattan_self]
            omega
        · refine ⟨(w + d') :: List.zipWith (· + ·) p ws, .cons (by omega) hpix, fun r hr heq => ?_, ?_⟩
          · cases hr with
            | cons ha _ =>
              simp only [List.zipWith_cons_cons, List.cons.injEq] at heq
              omega
          · simp only [manhattan, manhattan_self]
            omega
      | succ k =>
        obtain ⟨q, h1, h2, h3⟩ := ih hl (fun a ha => hw a (by simp [ha])) k (by simpa using hi) (by simpa using hd)
        refine ⟨(i' + w) :: q, .cons (by omega) h1, fun r hr heq => ?_, ?_⟩
        · cases hr with
          | cons ha hr =>
            simp only [List.zipWith_cons_cons, List.cons.injEq] at heq
            exact h2 _ hr heq.2
        · simp only [manhattan, h3]
          omega

theorem binary_max {shape : List Nat} {x x' u : Img K} (hx : IsBinary shape x) (hx' : IsBinary shape x') (hu : ∀ p, IsPixel shape p → u p = max (x p) (x' p)) :
    IsBinary shape u ∧ ∀ p, IsPixel shape p → (u p = 1 ↔ x p = 1 ∨ x' p = 1) := by
  refine ⟨fun p hp => ?_, fun p hp => ?_⟩ <;> rw [hu p hp] <;> rcases hx p hp with h | h <;> rcases hx' p hp with h' | h' <;> rw [h, h'] <;> simp

theorem binary_min {shape : List Nat} {x x' u : Img K} (hx : IsBinary shape x) (hx' : IsBinary shape x') (hu : ∀ p, IsPixel shape p → u p = min (x p) (x' p)) :
    IsBinary shape u ∧ (∀ p, IsPixel shape p → (u p = 1 ↔ x p = 1 ∧ x' p = 1)) ∧ ∀ p, IsPixel shape p → (u p = 0 ↔ x p = 0 ∨ x' p = 0) := by
  refine ⟨fun p hp => ?_, fun p hp => ?_, fun p hp => ?_⟩ <;> rw [hu p hp] <;> rcases hx p hp with h | h <;> rcases hx' p hp with h' | h' <;> rw [h, h'] <;> simp

end Gtda.Props.ImageSets

namespace Gtda.Props
open Gtda.Py Gtda.Images Gtda.Spec.Images Gtda.Props.ImageSymmetry Gtda.Props.ImageSets

variable {K : Type} [Field K] [LinearOrder K] [IsStrictOrderedRing K]

/-! ### Unions and intersections -/

/-- **C154, dilation and erosion**: dilation of a union is the smaller of both dilations, erosion of an intersection the smaller of both erosions. -/
theorem C154_dilation_erosion (shape : List Nat) (hne : shape ≠ []) (n : Option Nat) (f : IterFitted) (hf : iterFit n shape = .ok f) (nJobs : Nat) (hn : 1 ≤ nJobs) (X : List (Img K)) (i j k : Nat)
    (x x' u : Img K) (hi : X[i]? = some x) (hj : X[j]? = some x') (hk : X[k]? = some u) (hx : IsBinary shape x) (hx' : IsBinary shape x') :
    ((∀ p, IsPixel shape p → u p = max (x p) (x' p)) → ∀ y y' w, (dilationTransform f nJobs shape X)[i]? = some y → (dilationTransform f nJobs shape X)[j]? = some y' →
      (dilationTransform f nJobs shape X)[k]? = some w → ∀ p, IsPixel shape p → w p = min (y p) (y' p)) ∧
    ((∀ p, IsPixel shape p → u p = min (x p) (x' p)) → ∀ y y' w, (erosionTransform f nJobs shape X)[i]? = some y → (erosionTransform f nJobs shape X)[j]? = some y' →
      (erosionTransform f nJobs shape X)[k]? = some w → ∀ p, IsPixel shape p → w p = min (y p) (y' p)) := by
  have hm : ∀ p q, IsPixel shape p → IsPixel shape q → (manhattan p q : K) ≤ (f.maxValue : K) := fun p q hp hq => by exact_mod_cast (max_pos hne hf hp hq).le
  refine ⟨fun hu y y' w hy hy' hw p hp => ?_, fun hu y y' w hy hy' hw p hp => ?_⟩
  · obtain ⟨hub, hu1⟩ := binary_max hx hx' hu
    exact val_union hu1 hm hp (dilation_val hne hf hn hi hx hy hp) (dilation_val hne hf hn hj hx' hy' hp) (dilation_val hne hf hn hk hub hw hp)
  · exact val_union (binary_min hx hx' hu).2.2 hm hp (erosion_val hne hf hn hi hy hp) (erosion_val hne hf hn hj hy' hp) (erosion_val hne hf hn hk hw hp)

/-- Erosion of a union is not the larger one of both erosions: two halves. -/
theorem C154_refuted_erosion_union :
    (iterFit none [2]).map (fun f => (erosionTransform (K := ℚ) f 1 [2] [fun p => if p = [0] then 1 else 0, fun p => if p = [1] then 1 else 0, fun _ => 1]).map fun y => [y [0], y [1]]) =
      .ok [[1, 0], [0, 1], [2, 2]] := by decide +kernel

/-- **C154, height**: of a union the smaller, of an intersection the larger one of both height filtrations. -/
theorem C154_height (shape : List Nat) (hs : shape.length = 2 ∨ shape.length = 3) (direction : Option (List ℝ)) (hv : ∀ v, direction = some v → v.length = shape.length ∧ ∃ c ∈ v, c ≠ 0)
    (f : HeightFitted ℝ) (hf : heightFit shape direction = .ok f) (nJobs : Nat) (hn : 1 ≤ nJobs) (X : List (Img ℝ)) (i j k : Nat) (x x' u y y' w : Img ℝ) (hi : X[i]? = some x) (hj : X[j]? = some x') (hk : X[k]? = some u)
    (hx : IsBinary shape x) (hx' : IsBinary shape x') (hy : (heightTransform f nJobs X)[i]? = some y) (hy' : (heightTransform f nJobs X)[j]? = some y') (hw : (heightTransform f nJobs X)[k]? = some w)
    (p : List Nat) (hp : IsPixel shape p) : (u p = max (x p) (x' p) → w p = min (y p) (y' p)) ∧ (u p = min (x p) (x' p) → w p = max (y p) (y' p)) := by
  obtain ⟨f', hf', v, corner, _, _, _, _, _, hM, _, hval'⟩ := C59_height shape hs p hp direction hv
  rw [hf] at hf'
  cases hf'
  have hval : ∀ (i : Nat) (x y : Img ℝ), X[i]? = some x → (heightTransform f nJobs X)[i]? = some y → (x p ≠ 0 → y p = inner (coords p) v - inner corner v) ∧ (x p = 0 → y p = f.maxValue) := by
    intro i x y hi hy
    obtain ⟨y', hy', h⟩ := hval' nJobs hn X i x hi
    rw [hy] at hy'
    cases hy'
    exact h p hp
  have h1 := hval i x y hi hy
  have h2 := hval j x' y' hj hy'
  have h3 := hval k u w hk hw
  have hlt : inner (coords p) v - inner corner v ≤ f.maxValue := by linarith [(hM p hp).2]
  rcases hx p hp with h | h <;> rcases hx' p hp with h' | h' <;> rw [h] at h1 <;> rw [h'] at h2 <;> rw [h, h']
  · simp only [max_self, min_self, h1.2 rfl, h2.2 rfl]
    exact ⟨h3.2, h3.2⟩
  · rw [h1.2 rfl, h2.1 one_ne_zero, min_eq_right hlt, max_eq_left hlt]
    refine ⟨fun h => h3.1 (by rw [h]; norm_num), fun h => h3.2 (by rw [h]; norm_num)⟩
  · rw [h1.1 one_ne_zero, h2.2 rfl, min_eq_left hlt, max_eq_right hlt]
    refine ⟨fun h => h3.1 (by rw [h]; norm_num), fun h => h3.2 (by rw [h]; norm_num)⟩
  · rw [h1.1 one_ne_zero, h2.1 one_ne_zero]
    simp only [max_self, min_self]
    exact ⟨fun h => h3.1 (by rw [h]; norm_num), fun h => h3.1 (by rw [h]; norm_num)⟩

/-- **C154, radial filtration**: of a union the smaller, of an intersection the larger one of both. -/
theorem C154_radial (shape : List Nat) (hs : shape.length = 2 ∨ shape.length = 3) (center : Option (List K)) (hc : ∀ v, center = some v → v.length = shape.length) (radius : Option K)
    (dist : List K → List K → K) (hd : ∀ a b, 0 ≤ dist a b) (f : RadialFitted K) (hf : radialFit shape center radius dist = .ok f) (nJobs : Nat) (hn : 1 ≤ nJobs) (X : List (Img K)) (i j k : Nat)
    (x x' u y y' w : Img K) (hi : X[i]? = some x) (hj : X[j]? = some x') (hk : X[k]? = some u) (hx : IsBinary shape x) (hx' : IsBinary shape x') (hu : IsBinary shape u)
    (hy : (radialTransform f nJobs X)[i]? = some y) (hy' : (radialTransform f nJobs X)[j]? = some y') (hw : (radialTransform f nJobs X)[k]? = some w)
    (p : List Nat) (hp : IsPixel shape p) : (u p = max (x p) (x' p) → w p = min (y p) (y' p)) ∧ (u p = min (x p) (x' p) → w p = max (y p) (y' p)) := by
  obtain ⟨f', c, hf', _, hM, _, _, hval⟩ := C60_radial shape hs p hp center hc radius dist hd
  rw [hf] at hf'
  cases hf'
  -- the value at `p` of active images is the same for all of them, and at most `max_value_`
  obtain ⟨a, ha, hall⟩ : ∃ a, a ≤ f.maxValue ∧ ∀ (i : Nat) (x y : Img K), X[i]? = some x → IsBinary shape x → (radialTransform f nJobs X)[i]? = some y →
      (x p = 1 → y p = a) ∧ (x p = 0 → y p = f.maxValue) := by
    by_cases hr : ∀ r, radius = some r → dist c (coords p) ≤ r
    · refine ⟨dist c (coords p), by linarith [hM p hp hr], fun i x y hi hx hy => ?_⟩
      obtain ⟨y', hy', h⟩ := hval nJobs hn X i x hi hx
      rw [hy] at hy'
      cases hy'
      exact ⟨fun h1 => (h p hp).1 h1 hr, (h p hp).2.2⟩
    · push Not at hr
      obtain ⟨r, hr, hlt⟩ := hr
      refine ⟨f.maxValue, le_rfl, fun i x y hi hx hy => ?_⟩
      obtain ⟨y', hy', h⟩ := hval nJobs hn X i x hi hx
      rw [hy] at hy'
      cases hy'
      exact ⟨fun h1 => (h p hp).2.1 h1 r hr hlt, (h p hp).2.2⟩
  have h1 := hall i x y hi hx hy
  have h2 := hall j x' y' hj hx' hy'
  have h3 := hall k u w hk hu hw
  rcases hx p hp with h | h <;> rcases hx' p hp with h' | h' <;> rw [h, h']
  · simp only [max_self, min_self, h1.2 h, h2.2 h']
    exact ⟨h3.2, h3.2⟩
  · rw [h1.2 h, h2.1 h', min_eq_right ha, max_eq_left ha]
    exact ⟨fun h => h3.1 (by rw [h]; norm_num), fun h => h3.2 (by rw [h]; norm_num)⟩
  · rw [h1.1 h, h2.2 h', min_eq_left ha, max_eq_right ha]
    exact ⟨fun h => h3.1 (by rw [h]; norm_num), fun h => h3.2 (by rw [h]; norm_num)⟩
  · simp only [max_self, min_self, h1.1 h, h2.1 h']
    exact ⟨h3.1, h3.1⟩

/-- **C154, density**: densities of union and intersection add up to the sum of both densities. -/
theorem C154_density [FloorRing K] (shape : List Nat) (hs : shape.length = 2 ∨ shape.length = 3) (radius : K) (dist : List K → List K → K) (hd : IsGridMetric dist radius) (f : DensityFitted)
    (hf : densityFit shape radius dist = .ok f) (nJobs : Nat) (hn : 1 ≤ nJobs) (X Y : List (Img K)) (hY : densityTransform f nJobs shape X = .ok Y) (i j k l : Nat) (x x' u v y y' w z : Img K)
    (hi : X[i]? = some x) (hj : X[j]? = some x') (hk : X[k]? = some u) (hl : X[l]? = some v) (hyi : Y[i]? = some y) (hyj : Y[j]? = some y') (hyk : Y[k]? = some w) (hyl : Y[l]? = some z)
    (hx : IsBinary shape x) (hx' : IsBinary shape x') (hu : ∀ p, IsPixel shape p → u p = max (x p) (x' p)) (hv : ∀ p, IsPixel shape p → v p = min (x p) (x' p)) (p : List Nat) (hp : IsPixel shape p) :
    w p + z p = y p + y' p := by
  have hfin : ∀ P : List Nat → Prop, {q | IsPixel shape q ∧ P q}.Finite := fun P => (List.finite_toSet (inds shape)).subset fun q hq => (mem_inds q shape).2 hq.1
  have hval : ∀ (i : Nat) (x y : Img K), X[i]? = some x → Y[i]? = some y → IsBinary shape x →
      y p = ({q | IsPixel shape q ∧ x q = 1 ∧ dist (coords3 p) (coords3 q) ≤ radius}.ncard : K) := by
    intro i x y hi hy hx
    obtain ⟨f₁, h1, h2⟩ := C64_density shape hs radius dist hd
    rw [hf] at h1
    cases h1
    obtain ⟨Y₁, h3, _, h4⟩ := h2 nJobs hn X
    rw [hY] at h3
    cases h3
    obtain ⟨y₁, h5, h6⟩ := h4 i x hi hx
    rw [hy] at h5
    cases h5
    exact h6 p hp
  obtain ⟨hub, hu1⟩ := binary_max hx hx' hu
  obtain ⟨hvb, hv1, _⟩ := binary_min hx hx' hv
  rw [hval i x y hi hyi hx, hval j x' y' hj hyj hx', hval k u w hk hyk hub, hval l v z hl hyl hvb, ← Nat.cast_add, ← Nat.cast_add, ← Set.ncard_union_add_ncard_inter {q | IsPixel shape q ∧ x q = 1 ∧ dist (coords3 p) (coords3 q) ≤ radius} {q | IsPixel shape q ∧ x' q = 1 ∧ dist (coords3 p) (coords3 q) ≤ radius} (hfin _) (hfin _)]
  congr 3
  · ext q
    simp only [Set.mem_ofPred_eq, Set.mem_union]
    constructor
    · rintro ⟨h1, h2, h3⟩
      rcases (hu1 q h1).1 h2 with h | h
      · exact .inl ⟨h1, h, h3⟩
      · exact .inr ⟨h1, h, h3⟩
    · rintro (⟨h1, h2, h3⟩ | ⟨h1, h2, h3⟩)
      · exact ⟨h1, (hu1 q h1).2 (.inl h2), h3⟩
      · exact ⟨h1, (hu1 q h1).2 (.inr h2), h3⟩
  · ext q
    simp only [Set.mem_ofPred_eq, Set.mem_inter_iff]
    constructor
    · rintro ⟨h1, h2, h3⟩
      exact ⟨⟨h1, ((hv1 q h1).1 h2).1, h3⟩, h1, ((hv1 q h1).1 h2).2, h3⟩
    · rintro ⟨⟨h1, h2, h3⟩, _, h5, _⟩
      exact ⟨h1, (hv1 q h1).2 ⟨h2, h5⟩, h3⟩

/-! ### The image can be read off -/

/-- **C154, nothing is lost**: active pixels are those where the dilation filtration is 0, inactive ones those where the erosion filtration is 0, and the signed distance is negative exactly at inactive pixels. -/
theorem C154_recover (shape : List Nat) (hne : shape ≠ []) (n : Option Nat) (f : IterFitted) (hf : iterFit n shape = .ok f) (nJobs : Nat) (hn : 1 ≤ nJobs) (X : List (Img K)) (i : Nat) (x : Img K)
    (hi : X[i]? = some x) (hx : IsBinary shape x) :
    (∀ y, (dilationTransform f nJobs shape X)[i]? = some y → ∀ p, IsPixel shape p → (x p = 1 ↔ y p = 0)) ∧
    (∀ y, (erosionTransform f nJobs shape X)[i]? = some y → ∀ p, IsPixel shape p → (x p = 0 ↔ y p = 0)) ∧
    (∀ y, (signedDistanceTransform f nJobs shape X)[i]? = some y → ∀ p, IsPixel shape p → (x p = 0 ↔ y p < 0)) := by
  have hm : ∀ p, IsPixel shape p → (0 : K) < f.maxValue := by
    intro p hp
    have := max_pos hne hf hp hp
    exact_mod_cast (by omega : 0 < f.maxValue)
  refine ⟨fun y hy p hp => ?_, fun y hy p hp => ?_, fun y hy p hp => ?_⟩
  · exact (val_zero (hm p hp) hp (dilation_val hne hf hn hi hx hy hp)).1
  · exact (val_zero (hm p hp) hp (erosion_val hne hf hn hi hy hp)).1
  · obtain ⟨h1, h0⟩ := signed_val hne hf hn hi hx hy hp
    rcases hx p hp with h | h
    · have := (val_zero (hm p hp) hp (h0 h)).2.2 (by rw [h]; norm_num)
      exact ⟨fun _ => by linarith, fun _ => h⟩
    · have hv := h1 h
      have hle : 1 ≤ y p + 1 := by
        rcases hv with ⟨d, hd, _, h3⟩ | ⟨_, h2⟩
        · rw [h3]
          have : d ≠ 0 := by
            rintro rfl
            have := (C61_distance_facts shape (fun q => x q = 0) p hp).1.2 hd
            simp only [h] at this
            exact one_ne_zero this
          exact_mod_cast Nat.pos_of_ne_zero this
        · rw [h2]
          linarith [hm p hp]
      refine ⟨fun h' => ?_, fun h' => ?_⟩
      · rw [h] at h'
        exact absurd h' one_ne_zero
      · linarith

/-! ### Shapes near each other -/

/-- **C154, stability**, no limit on the number of iterations. If each active pixel of an image has an active one of the other image at grid distance at most `ε`, both ways, dilation filtrations differ by at most `ε`.
If each inactive pixel has an inactive one, erosion filtrations do. In both cases together, signed distances differ by at most `2 ε - 1` (not at all for `ε = 0`). -/
theorem C154_stable (shape : List Nat) (hne : shape ≠ []) (f : IterFitted) (hf : iterFit none shape = .ok f) (nJobs : Nat) (hn : 1 ≤ nJobs) (X : List (Img K)) (i j : Nat) (x x' : Img K)
    (hi : X[i]? = some x) (hj : X[j]? = some x') (hx : IsBinary shape x) (hx' : IsBinary shape x') (ε : Nat) :
    (Near shape ε (fun p => x p = 1) (fun p => x' p = 1) → ∀ y y', (dilationTransform f nJobs shape X)[i]? = some y → (dilationTransform f nJobs shape X)[j]? = some y' → ∀ p, IsPixel shape p → |y p - y' p| ≤ ε) ∧
    (Near shape ε (fun p => x p = 0) (fun p => x' p = 0) → ∀ y y', (erosionTransform f nJobs shape X)[i]? = some y → (erosionTransform f nJobs shape X)[j]? = some y' → ∀ p, IsPixel shape p → |y p - y' p| ≤ ε) ∧
    (Near shape ε (fun p => x p = 1) (fun p => x' p = 1) → Near shape ε (fun p => x p = 0) (fun p => x' p = 0) → ∀ y y', (signedDistanceTransform f nJobs shape X)[i]? = some y → (signedDistanceTransform f nJobs shape X)[j]? = some y' → ∀ p, IsPixel shape p →
      |y p - y' p| ≤ ((2 * ε - 1 : Nat) : K)) := by
  refine ⟨fun h y y' hy hy' p hp => ?_, fun h y y' hy hy' p hp => ?_, fun h1 h0 y y' hy hy' p hp => ?_⟩
  · obtain ⟨ha, hb⟩ := h
    have e1 := val_near ha hb hp (dilation_val hne hf hn hi hx hy hp) (dilation_val hne hf hn hj hx' hy' hp)
    have e2 := val_near hb ha hp (dilation_val hne hf hn hj hx' hy' hp) (dilation_val hne hf hn hi hx hy hp)
    rw [abs_le]
    constructor <;> linarith
  · obtain ⟨ha, hb⟩ := h
    have e1 := val_near ha hb hp (erosion_val hne hf hn hi hy hp) (erosion_val hne hf hn hj hy' hp)
    have e2 := val_near hb ha hp (erosion_val hne hf hn hj hy' hp) (erosion_val hne hf hn hi hy hp)
    rw [abs_le]
    constructor <;> linarith
  · obtain ⟨ha1, hb1⟩ := h1
    obtain ⟨ha0, hb0⟩ := h0
    have s := signed_val hne hf hn hi hx hy hp
    have s' := signed_val hne hf hn hj hx' hy' hp
    have hε : (ε : K) ≤ ((2 * ε - 1 : Nat) : K) := by exact_mod_cast (by omega : ε ≤ 2 * ε - 1 ∨ ε = 0).elim id (fun h => by omega)
    have mixed : ∀ {q : List Nat}, IsPixel shape q → q ≠ p → manhattan p q ≤ ε → (((ε + ε : Nat) : K)) - 1 ≤ ((2 * ε - 1 : Nat) : K) := by
      intro q hq hqp hle
      have : 1 ≤ ε := by
        by_contra hc
        exact hqp (manhattan_eq_zero (by rw [pixel_length hp, pixel_length hq]) (by omega)).symm
      rw [Nat.cast_sub (by omega), ← two_mul]
      simp
    rcases hx p hp with h | h <;> rcases hx' p hp with h' | h'
    · have e1 := val_near ha1 hb1 hp (s.2 h) (s'.2 h')
      have e2 := val_near hb1 ha1 hp (s'.2 h') (s.2 h)
      rw [abs_le]
      constructor <;> linarith
    · obtain ⟨q, hq, hxq, hle⟩ := hb1 p hp h'
      obtain ⟨r, hr, hxr, hle'⟩ := ha0 p hp h
      have e1 := val_le hq hxq (s.2 h)
      have e2 := val_le hr hxr (s'.1 h')
      have hmix := mixed hq (by rintro rfl; rw [h] at hxq; exact zero_ne_one hxq) hle
      have g1 : (manhattan p q : K) ≤ ε := by exact_mod_cast hle
      have g2 : (manhattan p r : K) ≤ ε := by exact_mod_cast hle'
      have p1 := (val_zero (m := (f.maxValue : K)) (by have := max_pos hne hf hp hp; exact_mod_cast (by omega : 0 < f.maxValue)) hp (s.2 h)).2.1
      have p2 := (C154_recover shape hne none f hf nJobs hn X j x' hj hx').2.2 y' hy' p hp
      have p3 : 0 ≤ y' p := by
        by_contra hc
        have := p2.2 (not_le.1 hc)
        rw [h'] at this
        exact one_ne_zero this
      push_cast at hmix
      rw [abs_le]
      constructor <;> linarith
    · obtain ⟨q, hq, hxq, hle⟩ := ha1 p hp h
      obtain ⟨r, hr, hxr, hle'⟩ := hb0 p hp h'
      have e1 := val_le hq hxq (s'.2 h')
      have e2 := val_le hr hxr (s.1 h)
      have hmix := mixed hq (by rintro rfl; rw [h'] at hxq; exact zero_ne_one hxq) hle
      have g1 : (manhattan p q : K) ≤ ε := by exact_mod_cast hle
      have g2 : (manhattan p r : K) ≤ ε := by exact_mod_cast hle'
      have p1 := (val_zero (m := (f.maxValue : K)) (by have := max_pos hne hf hp hp; exact_mod_cast (by omega : 0 < f.maxValue)) hp (s'.2 h')).2.1
      have p2 := (C154_recover shape hne none f hf nJobs hn X i x hi hx).2.2 y hy p hp
      have p3 : 0 ≤ y p := by
        by_contra hc
        have := p2.2 (not_le.1 hc)
        rw [h] at this
        exact one_ne_zero this
      push_cast at hmix
      rw [abs_le]
      constructor <;> linarith
    · have e1 := val_near ha0 hb0 hp (s.1 h) (s'.1 h')
      have e2 := val_near hb0 ha0 hp (s'.1 h') (s.1 h)
      rw [abs_le]
      constructor <;> linarith

/-! ### Padding -/

/-- **C154, padding**: a border of inactive pixels changes no value of the dilation filtration, a border of active ones no value of the erosion filtration, other than `max_value_`, which grows with the image. -/
theorem C154_padding [FloorRing K] (dtype : Dtype) (ws shape : List Nat) (hne : shape ≠ []) (hl : ws.length = shape.length) (n : Option Nat) (f f' : IterFitted) (hf : iterFit n shape = .ok f)
    (nJobs : Nat) (hn : 1 ≤ nJobs) (X Y : List (Img K)) (shape' : List Nat) (hf' : iterFit n shape' = .ok f') (value : K) (hY : padderTransform dtype (ws.map fun (w : Nat) => (w : Int)) value nJobs shape X = .ok (shape', Y))
    (i : Nat) (x : Img K) (hi : X[i]? = some x) (hx : IsBinary shape x) (p : List Nat) (hp : IsPixel shape p) :
    (value = 0 → ∀ y y', (dilationTransform f nJobs shape X)[i]? = some y → (dilationTransform f' nJobs shape' Y)[i]? = some y' →
      (y p < f.maxValue → y' (List.zipWith (· + ·) p ws) = y p) ∧ (y p = f.maxValue → y' (List.zipWith (· + ·) p ws) = f'.maxValue)) ∧
    (value = 1 → ∀ y y', (erosionTransform f nJobs shape X)[i]? = some y → (erosionTransform f' nJobs shape' Y)[i]? = some y' →
      (y p < f.maxValue → y' (List.zipWith (· + ·) p ws) = y p) ∧ (y p = f.maxValue → y' (List.zipWith (· + ·) p ws) = f'.maxValue)) := by
  have hm : ∀ q, IsPixel shape q → (manhattan p q : K) < (f.maxValue : K) := fun q hq => by exact_mod_cast max_pos hne hf hp hq
  have rep : value = 0 ∨ value = 1 → Representable dtype value := by
    intro h
    cases dtype with
    | bool => exact h
    | int => rcases h with rfl | rfl
             · exact ⟨0, by simp⟩
             · exact ⟨1, by simp⟩
    | float => trivial
  have main : value = 0 ∨ value = 1 → shape' = List.zipWith (fun d w => d + 2 * w) shape ws ∧ ∃ z, Y[i]? = some z ∧ IsBinary shape' z ∧ (∀ p, IsPixel shape p → z (List.zipWith (· + ·) p ws) = x p) ∧
      (∀ q, (∀ p, IsPixel shape p → q ≠ List.zipWith (· + ·) p ws) → z q = value) := by
    intro h
    obtain ⟨S, Y₁, h1, h2, h3⟩ := C57_pad_partial dtype ws shape hl value (rep h) nJobs hn X
    rw [hY] at h1
    cases h1
    obtain ⟨z, hz, ha, hb⟩ := h3 i x hi
    refine ⟨h2, z, hz, fun q _ => ?_, ha, hb⟩
    by_cases hq : ∃ p, IsPixel shape p ∧ q = List.zipWith (· + ·) p ws
    · obtain ⟨p, hp, rfl⟩ := hq
      rw [ha p hp]
      exact hx p hp
    · push Not at hq
      rw [hb q hq]
      exact h
  have hne' : shape' = List.zipWith (fun d w => d + 2 * w) shape ws → shape' ≠ [] := by
    rintro rfl h
    have := congrArg List.length h
    simp only [List.length_zipWith, hl, min_self, List.length_nil] at this
    exact hne (List.length_eq_zero_iff.1 this)
  refine ⟨fun hv y y' hy hy' => ?_, fun hv y y' hy hy' => ?_⟩
  · obtain ⟨hS, z, hz, hzb, ha, hb⟩ := main (.inl hv)
    have h' := dilation_val (hne' hS) hf' hn hz hzb hy' (p := List.zipWith (· + ·) p ws) (hS ▸ shift_pixel hl hp)
    rw [hS] at h'
    exact val_shift hl (A := fun q => x q = 1) (B := fun q => z q = 1) (fun p hp => by rw [ha p hp]) (fun q hq => by rw [hb q hq, hv]; exact zero_ne_one) hp hm (dilation_val hne hf hn hi hx hy hp) h'
  · obtain ⟨hS, z, hz, hzb, ha, hb⟩ := main (.inr hv)
    have h' := erosion_val (hne' hS) hf' hn hz hy' (p := List.zipWith (· + ·) p ws) (hS ▸ shift_pixel hl hp)
    rw [hS] at h'
    exact val_shift hl (A := fun q => x q = 0) (B := fun q => z q = 0) (fun p hp => by rw [ha p hp]) (fun q hq => by rw [hb q hq, hv]; exact one_ne_zero) hp hm (erosion_val hne hf hn hi hy hp) h'

/-- **C154, erosion with an inactive border** (Padder with value 0 and positive widths, no limit on iterations): the value is the smallest of the value without a border and the distances to just outside of each edge. -/
theorem C154_border [FloorRing K] (dtype : Dtype) (ws shape : List Nat) (hne : shape ≠ []) (hl : ws.length = shape.length) (hw : ∀ w ∈ ws, 1 ≤ w) (f f' : IterFitted) (hf : iterFit none shape = .ok f)
    (nJobs : Nat) (hn : 1 ≤ nJobs) (X Y : List (Img K)) (shape' : List Nat) (hf' : iterFit none shape' = .ok f') (hY : padderTransform dtype (ws.map fun (w : Nat) => (w : Int)) 0 nJobs shape X = .ok (shape', Y))
    (i : Nat) (x y y' : Img K) (hi : X[i]? = some x) (hx : IsBinary shape x) (hy : (erosionTransform f nJobs shape X)[i]? = some y) (hy' : (erosionTransform f' nJobs shape' Y)[i]? = some y')
    (p : List Nat) (hp : IsPixel shape p) :
    y' (List.zipWith (· + ·) p ws) ≤ y p ∧
      (∀ (k j d : Nat), p[k]? = some j → shape[k]? = some d → y' (List.zipWith (· + ·) p ws) ≤ j + 1 ∧ y' (List.zipWith (· + ·) p ws) ≤ d - j) ∧
      (y' (List.zipWith (· + ·) p ws) = y p ∨
        ∃ k j d : Nat, p[k]? = some j ∧ shape[k]? = some d ∧ (y' (List.zipWith (· + ·) p ws) = j + 1 ∨ y' (List.zipWith (· + ·) p ws) = d - j)) := by
  have rep : Representable dtype (0 : K) := by
    cases dtype with
    | bool => exact .inl rfl
    | int => exact ⟨0, by simp⟩
    | float => trivial
  obtain ⟨S, Y₁, h1, hS, h3⟩ := C57_pad_partial dtype ws shape hl 0 rep nJobs hn X
  rw [hY] at h1
  cases h1
  obtain ⟨z, hz, ha, hb⟩ := h3 i x hi
  have hne' : shape' ≠ [] := by
    rw [hS]
    intro h
    have := congrArg List.length h
    simp only [List.length_zipWith, hl, min_self, List.length_nil] at this
    exact hne (List.length_eq_zero_iff.1 this)
  have hL : ∀ {q}, IsPixel shape q → q.length = ws.length := fun h => (pixel_length h).trans hl.symm
  have hlt : ∀ {j d k : Nat}, p[k]? = some j → shape[k]? = some d → j < d := by
    intro j d k h1 h2
    obtain ⟨a1, b1⟩ := List.getElem?_eq_some_iff.1 h1
    obtain ⟨a2, b2⟩ := List.getElem?_eq_some_iff.1 h2
    have := List.Forall₂.get hp a1 a2
    simp only [List.get_eq_getElem] at this
    omega
  have v' := erosion_val hne' hf' hn hz hy' (p := List.zipWith (· + ·) p ws) (hS ▸ shift_pixel hl hp)
  have v := erosion_val hne hf hn hi hy hp
  have hedge : ∀ (k j d e : Nat), p[k]? = some j → shape[k]? = some d → (e = j + 1 ∨ e = d - j) → y' (List.zipWith (· + ·) p ws) ≤ e := by
    intro k j d e h1 h2 he
    obtain ⟨q, hq, ho, hd⟩ := outside_near hl hw hp k j d h1 h2 e he
    rw [← hd]
    exact val_le (hS ▸ hq) (hb q ho) v'
  have hle : y' (List.zipWith (· + ·) p ws) ≤ y p := by
    rcases v with ⟨d, ⟨⟨q, hq, h0, hd⟩, _⟩, _, e1⟩ | ⟨_, e1⟩
    · rw [e1, ← hd, ← shift_manhattan (hL hp) (hL hq)]
      exact val_le (hS ▸ shift_pixel hl hq) (by rw [ha q hq]; exact h0) v'
    · rw [e1]
      obtain ⟨j, d, h1, h2⟩ : ∃ j d, p[0]? = some j ∧ shape[0]? = some d := by
        cases hp with
        | nil => exact absurd rfl hne
        | cons _ _ => exact ⟨_, _, rfl, rfl⟩
      refine (hedge 0 j d (j + 1) h1 h2 (.inl rfl)).trans ?_
      rw [iterFit_ok hf]
      have : j < d := hlt h1 h2
      have : d ≤ shape.sum := List.le_sum_of_mem (List.mem_of_getElem? h2)
      exact_mod_cast (by omega : j + 1 ≤ shape.sum)
  refine ⟨hle, fun k j d h1 h2 => ⟨by exact_mod_cast hedge k j d (j + 1) h1 h2 (.inl rfl), ?_⟩, ?_⟩
  · have := hedge k j d (d - j) h1 h2 (.inr rfl)
    rwa [Nat.cast_sub (hlt h1 h2).le] at this
  · rcases v' with ⟨d', ⟨⟨q, hq, h0, hd⟩, _⟩, _, e1⟩ | ⟨e1, _⟩
    · by_cases ho : ∀ r, IsPixel shape r → q ≠ List.zipWith (· + ·) r ws
      · obtain ⟨k, j, d, h1, h2, h3⟩ := outside_far hl hp (hS ▸ hq) ho
        rw [hd] at h3
        refine .inr ⟨k, j, d, h1, h2, ?_⟩
        rcases h3 with h3 | h3
        · refine .inl (le_antisymm (by exact_mod_cast hedge k j d (j + 1) h1 h2 (.inl rfl)) ?_)
          rw [e1]
          exact_mod_cast h3
        · refine .inr (le_antisymm ?_ ?_)
          · have := hedge k j d (d - j) h1 h2 (.inr rfl)
            rwa [Nat.cast_sub (hlt h1 h2).le] at this
          · rw [e1, ← Nat.cast_sub (hlt h1 h2).le]
            exact_mod_cast h3
      · push Not at ho
        obtain ⟨r, hr, rfl⟩ := ho
        rw [ha r hr] at h0
        rw [shift_manhattan (hL hp) (hL hr)] at hd
        refine .inl (le_antisymm hle ?_)
        rw [e1, ← hd]
        exact val_le hr h0 v
    · obtain ⟨j, d, h1, h2⟩ : ∃ j d, p[0]? = some j ∧ shape[0]? = some d := by
        cases hp with
        | nil => exact absurd rfl hne
        | cons _ _ => exact ⟨_, _, rfl, rfl⟩
      obtain ⟨q, hq, ho, _⟩ := outside_near hl hw hp 0 j d h1 h2 (j + 1) (.inl rfl)
      obtain ⟨e, _, he⟩ := exists_gridDist (shape := shape') (A := fun q => z q = 0) (k := _) (p := List.zipWith (· + ·) p ws) ⟨q, hS ▸ hq, hb q ho, le_rfl⟩
      obtain ⟨N, hN, _⟩ := e1 e he
      cases hN

/-! ### Closing and opening -/

/-- **C154, closing**: eroding what a dilation reaches within `k` steps leaves the active pixels: their values are above `k`. -/
theorem C154_closing (shape : List Nat) (hne : shape ≠ []) (n : Option Nat) (f : IterFitted) (hf : iterFit n shape = .ok f) (nJobs nJobs' : Nat) (hn : 1 ≤ nJobs) (hn' : 1 ≤ nJobs')
    (X X' : List (Img K)) (i i' : Nat) (x y : Img K) (hi : X[i]? = some x) (hx : IsBinary shape x) (hy : (dilationTransform f nJobs shape X)[i]? = some y) (k : Nat) (hk : ∀ N, n = some N → k ≤ N)
    (hkm : k < f.maxValue) (hi' : X'[i']? = some (indicator fun p => y p ≤ k)) (y' : Img K) (hy' : (erosionTransform f nJobs' shape X')[i']? = some y') (p : List Nat) (hp : IsPixel shape p)
    (h1 : x p = 1) : k < y' p := by
  rcases erosion_val hne hf hn' hi' hy' hp with ⟨d, ⟨⟨q, hq, h0, hd⟩, _⟩, _, h3⟩ | ⟨_, h2⟩
  · have hq' : ¬ y q ≤ k := by
      intro h
      unfold indicator at h0
      rw [if_pos h] at h0
      exact one_ne_zero h0
    rw [h3, Nat.cast_lt]
    by_contra hc
    apply hq'
    rcases dilation_val hne hf hn hi hx hy hq with ⟨e, he, _, h5⟩ | ⟨h4, _⟩
    · rw [h5]
      have := he.2 p hp h1
      rw [manhattan_comm] at this
      exact_mod_cast (by omega : e ≤ k)
    · obtain ⟨e, hek, he⟩ := exists_gridDist (A := fun q => x q = 1) (k := k) (p := q) ⟨p, hp, h1, by rw [manhattan_comm]; omega⟩
      obtain ⟨N, hN, hlt⟩ := h4 e he
      have := hk N hN
      omega
  · rw [h2]
    exact_mod_cast hkm

/-- **C154, opening**: dilating what is left after an erosion by `k` steps reaches only active pixels within `k` steps. -/
theorem C154_opening (shape : List Nat) (hne : shape ≠ []) (n : Option Nat) (f : IterFitted) (hf : iterFit n shape = .ok f) (nJobs nJobs' : Nat) (hn : 1 ≤ nJobs) (hn' : 1 ≤ nJobs')
    (X X' : List (Img K)) (i i' : Nat) (x y : Img K) (hi : X[i]? = some x) (hx : IsBinary shape x) (hy : (erosionTransform f nJobs shape X)[i]? = some y) (k : Nat) (hk : ∀ N, n = some N → k ≤ N)
    (hkm : k < f.maxValue) (hi' : X'[i']? = some (indicator fun p => (k : K) < y p)) (y' : Img K) (hy' : (dilationTransform f nJobs' shape X')[i']? = some y') (p : List Nat) (hp : IsPixel shape p)
    (h1 : y' p ≤ k) : x p = 1 := by
  have hb : IsBinary shape (indicator (K := K) fun p => (k : K) < y p) := by
    intro p _
    unfold indicator
    split
    · exact .inr rfl
    · exact .inl rfl
  rcases dilation_val hne hf hn' hi' hb hy' hp with ⟨d, ⟨⟨q, hq, hq1, hd⟩, _⟩, _, h3⟩ | ⟨_, h2⟩
  · have hkq : (k : K) < y q := by
      by_contra h
      unfold indicator at hq1
      rw [if_neg h] at hq1
      exact zero_ne_one hq1
    rw [h3, Nat.cast_le] at h1
    rcases hx p hp with h | h
    · exfalso
      rcases erosion_val hne hf hn hi hy hq with ⟨e, he, _, h5⟩ | ⟨h4, _⟩
      · have := he.2 p hp h
        rw [manhattan_comm] at this
        rw [h5, Nat.cast_lt] at hkq
        omega
      · obtain ⟨e, hek, he⟩ := exists_gridDist (A := fun q => x q = 0) (k := k) (p := q) ⟨p, hp, h, by rw [manhattan_comm]; omega⟩
        obtain ⟨N, hN, hlt⟩ := h4 e he
        have := hk N hN
        omega
    · exact h
  · rw [h2, Nat.cast_le] at h1
    omega

/-! ### Examples -/

/-- Two images of zeros and ones, their union and their intersection: `C154_dilation_erosion`, `C154_recover`. -/
example : let x : Img ℚ := fun p => if p = [0, 0] ∨ p = [0, 1] then 1 else 0
    let x' : Img ℚ := fun p => if p = [0, 1] ∨ p = [1, 2] then 1 else 0
    IsBinary [2, 3] x ∧ IsBinary [2, 3] x' ∧ ([2, 3] : List Nat) ≠ [] ∧
    (iterFit (some 2) [2, 3]).map (fun f => (dilationTransform f 2 [2, 3] [x, x', fun p => max (x p) (x' p), fun p => min (x p) (x' p)]).map fun y => [y [0, 0], y [0, 2], y [1, 2]]) =
      .ok [[0, 1, 2], [1, 1, 0], [0, 1, 0], [1, 1, 2]] ∧
    (iterFit (some 2) [2, 3]).map (fun f => (erosionTransform f 2 [2, 3] [x, x', fun p => max (x p) (x' p), fun p => min (x p) (x' p)]).map fun y => [y [0, 0], y [0, 1], y [1, 2]]) =
      .ok [[1, 1, 0], [0, 1, 1], [1, 1, 1], [0, 1, 0]] := by
  refine ⟨fun p _ => ?_, fun p _ => ?_, by decide, by decide +kernel, by decide +kernel⟩ <;> dsimp only <;> split <;> simp

/-- `C154_height`: directions that can be fitted. -/
example : ∃ f : HeightFitted ℝ, heightFit [2, 3] (some [1, -2]) = .ok f :=
  (C59_height [2, 3] (.inl rfl) [0, 0] (.cons (by decide) (.cons (by decide) .nil)) (some [1, -2]) (fun v hv => by cases hv; exact ⟨rfl, 1, by simp, one_ne_zero⟩)).imp fun _ h => h.1

/-- `C154_radial`: radial filtrations with centre (0, 0) and radius 2 of two images, their union and their intersection. -/
example : let x : Img ℚ := fun p => if p = [0, 0] ∨ p = [0, 1] then 1 else 0
    let x' : Img ℚ := fun p => if p = [0, 1] ∨ p = [1, 2] then 1 else 0
    (radialFit [2, 3] (some [0, 0]) (some 2) taxicab).map (fun f => (radialTransform f 1 [x, x', fun p => max (x p) (x' p), fun p => min (x p) (x' p)]).map fun y => [y [0, 0], y [0, 1], y [1, 2]]) =
      .ok [[0, 1, 3], [3, 1, 3], [0, 1, 3], [3, 1, 3]] := by decide +kernel

/-- `C154_density`: the number of active pixels at taxicab distance at most 1. -/
example : let x : Img ℚ := fun p => if p = [0, 0] ∨ p = [0, 1] then 1 else 0
    let x' : Img ℚ := fun p => if p = [0, 1] ∨ p = [1, 2] then 1 else 0
    IsGridMetric (fun a b : List ℚ => (List.zipWith (fun s t => |s - t|) a b).sum) 1 ∧
    (do let f ← densityFit [2, 3] (1 : ℚ) (fun a b => (List.zipWith (fun s t => |s - t|) a b).sum)
        let Y ← densityTransform f 1 [2, 3] [x, x', fun p => max (x p) (x' p), fun p => min (x p) (x' p)]
        pure (Y.map fun y => [y [0, 0], y [0, 2]])) = Except.ok (ε := PyErr) [[2, 1], [1, 2], [2, 2], [1, 1]] := ⟨isGridMetric_taxicab 1 one_pos, by decide +kernel⟩

/-- `C154_stable`: a pixel moved by one step. -/
example : let x : Img ℚ := fun p => if p = [1] then 1 else 0
    let x' : Img ℚ := fun p => if p = [2] then 1 else 0
    Near [4] 1 (fun p => x p = 1) (fun p => x' p = 1) ∧ Near [4] 1 (fun p => x p = 0) (fun p => x' p = 0) ∧
    (iterFit none [4]).map (fun f => (dilationTransform f 1 [4] [x, x']).map fun y => [y [0], y [1], y [2], y [3]]) = .ok [[1, 0, 1, 2], [2, 1, 0, 1]] ∧
    (iterFit none [4]).map (fun f => (signedDistanceTransform f 1 [4] [x, x']).map fun y => [y [0], y [1], y [2], y [3]]) = .ok [[-1, 0, -1, -2], [-2, -1, 0, -1]] := by
  have pix : ∀ {i : Nat}, i < 4 → IsPixel [4] [i] := fun h => .cons h .nil
  have one : ∀ p, IsPixel [4] p → ∃ i, i < 4 ∧ p = [i] := by
    intro p hp
    cases hp with
    | cons h h' => cases h'; exact ⟨_, h, rfl⟩
  refine ⟨⟨?_, ?_⟩, ⟨?_, ?_⟩, by decide +kernel, by decide +kernel⟩ <;> intro p hp h <;> obtain ⟨i, hi, rfl⟩ := one p hp <;> interval_cases i <;> simp at h
  · exact ⟨[2], pix (by decide), by decide +kernel, by decide⟩
  · exact ⟨[1], pix (by decide), by decide +kernel, by decide⟩
  · exact ⟨[0], pix (by decide), by decide +kernel, by decide⟩
  · exact ⟨[3], pix (by decide), by decide +kernel, by decide⟩
  · exact ⟨[3], pix (by decide), by decide +kernel, by decide⟩
  · exact ⟨[0], pix (by decide), by decide +kernel, by decide⟩
  · exact ⟨[0], pix (by decide), by decide +kernel, by decide⟩
  · exact ⟨[3], pix (by decide), by decide +kernel, by decide⟩

/-- `C154_padding` and `C154_border`: a row of five pixels without and with borders. -/
example : let x : Img ℚ := fun p => if p = [1] then 0 else 1
    (iterFit none [5]).map (fun f => (f.maxValue, (erosionTransform f 1 [5] [x]).map fun y => [y [0], y [1], y [2], y [3], y [4]])) = .ok (5, [[1, 0, 1, 2, 3]]) ∧
    (do let (S, Y) ← padderTransform (K := ℚ) .float [2] 1 1 [5] [x]
        let f ← iterFit none S
        pure ((f.maxValue, (erosionTransform (K := ℚ) f 1 S Y).map fun (y : Img ℚ) => [y [2], y [3], y [4], y [5], y [6]]) : Nat × List (List ℚ))) = .ok (9, [[1, 0, 1, 2, 3]]) ∧
    (do let (S, Y) ← padderTransform (K := ℚ) .float [2] 0 1 [5] [x]
        let f ← iterFit none S
        pure ((f.maxValue, (erosionTransform (K := ℚ) f 1 S Y).map fun (y : Img ℚ) => [y [2], y [3], y [4], y [5], y [6]]) : Nat × List (List ℚ))) = .ok (9, [[1, 0, 1, 2, 1]]) := by
  refine ⟨?_, ?_, ?_⟩ <;> decide +kernel

/-- `C154_closing` and `C154_opening`: a gap of one pixel is closed, an isolated pixel is removed. -/
example : let x : Img ℚ := fun p => if p = [2] ∨ p = [3] ∨ p = [4] ∨ p = [6] then 1 else 0
    let f : IterFitted := ⟨9, 9⟩
    (dilationTransform (K := ℚ) f 1 [9] [x]).map (fun y => (List.range 9).map fun i => y [i]) = [[2, 1, 0, 0, 0, 1, 0, 1, 2]] ∧
    (erosionTransform (K := ℚ) f 1 [9] [fun p => if p = [0] ∨ p = [8] then 0 else 1]).map (fun y => (List.range 9).map fun i => y [i]) = [[0, 1, 2, 3, 4, 3, 2, 1, 0]] ∧
    (erosionTransform (K := ℚ) f 1 [9] [x]).map (fun y => (List.range 9).map fun i => y [i]) = [[0, 0, 1, 2, 1, 0, 1, 0, 0]] ∧
    (dilationTransform (K := ℚ) f 1 [9] [fun p => if p = [3] then 1 else 0]).map (fun y => (List.range 9).map fun i => y [i]) = [[3, 2, 1, 0, 1, 2, 3, 4, 5]] ∧ iterFit none [9] = .ok f := by
  refine ⟨?_, ?_, ?_, ?_, ?_⟩ <;> first | rfl | decide +kernel

end Gtda.Props
