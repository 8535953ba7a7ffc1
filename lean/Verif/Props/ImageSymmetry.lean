import Verif.Spec.ImageSymmetry
import Verif.Props.ImagesDilation

set_option autoImplicit false
set_option linter.unusedSectionVars false

/-!
# C132: dilation, erosion and signed distance filtrations: symmetries, monotonicity, duality
-/

namespace Gtda.Props.ImageSymmetry
open Gtda.Py Gtda.Images Gtda.Spec.Images

variable {K : Type} [Field K] [LinearOrder K] [IsStrictOrderedRing K]

/-- The value of a truncated grid distance: the distance if it is at most the number of iterations, else `m`. -/
def Val (shape : List Nat) (A : List Nat → Prop) (n : Option Nat) (m : K) (p : List Nat) (v : K) : Prop :=
  (∃ d, IsGridDist shape A p d ∧ (∀ N, n = some N → d ≤ N) ∧ v = (d : K)) ∨ ((∀ d, IsGridDist shape A p d → ∃ N, n = some N ∧ N < d) ∧ v = m)

theorem val_intro {shape : List Nat} {A : List Nat → Prop} {n : Option Nat} {m : K} {p : List Nat} {v : K}
    (h1 : ∀ d, IsGridDist shape A p d → (∀ N, n = some N → d ≤ N) → v = (d : K)) (h2 : (∀ d, IsGridDist shape A p d → ∃ N, n = some N ∧ N < d) → v = m) : Val shape A n m p v := by
  by_cases h : ∃ d, IsGridDist shape A p d ∧ ∀ N, n = some N → d ≤ N
  · obtain ⟨d, hd, hN⟩ := h
    exact .inl ⟨d, hd, hN, h1 d hd hN⟩
  · have : ∀ d, IsGridDist shape A p d → ∃ N, n = some N ∧ N < d := by
      intro d hd
      by_contra hc
      exact h ⟨d, hd, fun N hN => by by_contra hlt; exact hc ⟨N, hN, by omega⟩⟩
    exact .inr ⟨this, h2 this⟩

theorem val_unique {shape shape' : List Nat} {A A' : List Nat → Prop} {n : Option Nat} {m : K} {p p' : List Nat} {v v' : K} (h : Val shape A n m p v) (h' : Val shape' A' n m p' v')
    (e : ∀ d, IsGridDist shape A p d ↔ IsGridDist shape' A' p' d) : v = v' := by
  rcases h with ⟨d, h1, h2, h3⟩ | ⟨h1, h2⟩ <;> rcases h' with ⟨d', h1', h2', h3'⟩ | ⟨h1', h2'⟩
  · rw [h3, h3', gridDist_unique ((e d).1 h1) h1']
  · obtain ⟨N, hN, hlt⟩ := h1' d ((e d).1 h1)
    have := h2 N hN
    omega
  · obtain ⟨N, hN, hlt⟩ := h1 d' ((e d').2 h1')
    have := h2' N hN
    omega
  · rw [h2, h2']

theorem gridDist_symmetry {shape shape' : List Nat} {g : List Nat → List Nat} (hg : IsGridSymmetry shape shape' g) {A A' : List Nat → Prop}
    (hA : ∀ p, IsPixel shape p → (A' (g p) ↔ A p)) {p : List Nat} (hp : IsPixel shape p) (d : Nat) : IsGridDist shape A p d ↔ IsGridDist shape' A' (g p) d := by
  constructor
  · rintro ⟨⟨q, hq, hAq, hd⟩, hmin⟩
    refine ⟨⟨g q, hg.pixel q hq, (hA q hq).2 hAq, by rw [hg.isometry p q hp hq, hd]⟩, fun r hr hAr => ?_⟩
    obtain ⟨r, hr', rfl⟩ := hg.onto r hr
    rw [hg.isometry p r hp hr']
    exact hmin r hr' ((hA r hr').1 hAr)
  · rintro ⟨⟨q, hq, hAq, hd⟩, hmin⟩
    obtain ⟨q, hq', rfl⟩ := hg.onto q hq
    rw [hg.isometry p q hp hq'] at hd
    refine ⟨⟨q, hq', (hA q hq').1 hAq, hd⟩, fun r hr hAr => ?_⟩
    rw [← hg.isometry p r hp hr]
    exact hmin (g r) (hg.pixel r hr) ((hA r hr).2 hAr)

theorem dilation_val {shape : List Nat} (hne : shape ≠ []) {n : Option Nat} {f : IterFitted} (hf : iterFit n shape = .ok f) {nJobs : Nat} (hn : 1 ≤ nJobs) {X : List (Img K)} {i : Nat} {x y : Img K}
    (hi : X[i]? = some x) (hx : IsBinary shape x) (hy : (dilationTransform f nJobs shape X)[i]? = some y) {p : List Nat} (hp : IsPixel shape p) :
    Val shape (fun q => x q = 1) n (f.maxValue : K) p (y p) := by
  obtain ⟨y', h1, h2⟩ := C61_dilation shape hne n f hf nJobs hn X i x hi hx
  rw [hy] at h1
  cases h1
  exact val_intro (h2 p hp).1 (h2 p hp).2

theorem erosion_val {shape : List Nat} (hne : shape ≠ []) {n : Option Nat} {f : IterFitted} (hf : iterFit n shape = .ok f) {nJobs : Nat} (hn : 1 ≤ nJobs) {X : List (Img K)} {i : Nat} {x y : Img K}
    (hi : X[i]? = some x) (hy : (erosionTransform f nJobs shape X)[i]? = some y) {p : List Nat} (hp : IsPixel shape p) :
    Val shape (fun q => x q = 0) n (f.maxValue : K) p (y p) := by
  obtain ⟨y', h1, h2⟩ := C62_erosion shape hne n f hf nJobs hn X i x hi
  rw [hy] at h1
  cases h1
  exact val_intro (h2 p hp).1 (h2 p hp).2

/-- The value of the signed distance: on active pixels the truncated distance to inactive pixels less one, on the others that to active pixels, with a minus sign. -/
def Signed (shape : List Nat) (x : Img K) (n : Option Nat) (m : K) (p : List Nat) (v : K) : Prop :=
  (x p = 1 → Val shape (fun q => x q = 0) n (m + 1) p (v + 1)) ∧ (x p = 0 → Val shape (fun q => x q = 1) n m p (-v))

theorem signed_val {shape : List Nat} (hne : shape ≠ []) {n : Option Nat} {f : IterFitted} (hf : iterFit n shape = .ok f) {nJobs : Nat} (hn : 1 ≤ nJobs) {X : List (Img K)} {i : Nat} {x y : Img K}
    (hi : X[i]? = some x) (hx : IsBinary shape x) (hy : (signedDistanceTransform f nJobs shape X)[i]? = some y) {p : List Nat} (hp : IsPixel shape p) :
    Signed shape x n (f.maxValue : K) p (y p) := by
  obtain ⟨y', h1, h2⟩ := C63_signed_distance shape hne n f hf nJobs hn X i x hi hx
  rw [hy] at h1
  cases h1
  obtain ⟨ha, hb⟩ := h2 p hp
  refine ⟨fun h => val_intro (fun d hd hN => ?_) (fun hd => ?_), fun h => val_intro (fun d hd hN => ?_) (fun hd => ?_)⟩
  · rw [(ha h).1 d hd hN]; ring
  · rw [(ha h).2 hd]
  · rw [(hb h).1 d hd hN]; ring
  · rw [(hb h).2 hd]; ring

/-- A larger set is nearer. -/
theorem val_mono {shape : List Nat} {A A' : List Nat → Prop} (hAA : ∀ p, IsPixel shape p → A p → A' p) {n : Option Nat} {m : K} (hm : ∀ p d, IsPixel shape p → IsGridDist shape A' p d → (d : K) ≤ m)
    {p : List Nat} (hp : IsPixel shape p) {v v' : K} (h : Val shape A n m p v) (h' : Val shape A' n m p v') : v' ≤ v := by
  rcases h with ⟨d, h1, h2, h3⟩ | ⟨h1, h2⟩
  · obtain ⟨⟨q, hq, hAq, hd⟩, _⟩ := h1
    rcases h' with ⟨d', h1', h2', h3'⟩ | ⟨h1', h2'⟩
    · rw [h3, h3', Nat.cast_le, ← hd]
      exact h1'.2 q hq (hAA q hq hAq)
    · obtain ⟨e, _, he⟩ := exists_gridDist (A := A') (k := d) ⟨q, hq, hAA q hq hAq, hd.le⟩
      obtain ⟨N, hN, hlt⟩ := h1' e he
      have := h2 N hN
      have := he.2 q hq (hAA q hq hAq)
      omega
  · rw [h2]
    rcases h' with ⟨d', h1', h2', h3'⟩ | ⟨h1', h2'⟩
    · rw [h3']
      exact hm p d' hp h1'
    · rw [h2']

theorem isGridSymmetry_flip (k : Nat) (shape : List Nat) : IsGridSymmetry shape shape (flipAxis k shape) := by
  have hpix : ∀ (k : Nat) (shape p : List Nat), IsPixel shape p → IsPixel shape (flipAxis k shape p) := by
    intro k
    induction k with
    | zero =>
      intro shape p h
      cases h with
      | nil => exact .nil
      | cons h1 h2 => exact .cons (by omega) h2
    | succ k ih =>
      intro shape p h
      cases h with
      | nil => exact .nil
      | cons h1 h2 => exact .cons h1 (ih _ _ h2)
  have hinv : ∀ (k : Nat) (shape p : List Nat), IsPixel shape p → flipAxis k shape (flipAxis k shape p) = p := by
    intro k
    induction k with
    | zero =>
      intro shape p h
      cases h with
      | nil => rfl
      | cons h1 h2 => simp only [flipAxis]; congr 1; omega
    | succ k ih =>
      intro shape p h
      cases h with
      | nil => rfl
      | cons h1 h2 => simp only [flipAxis]; rw [ih _ _ h2]
  have hiso : ∀ (k : Nat) (shape p q : List Nat), IsPixel shape p → IsPixel shape q → manhattan (flipAxis k shape p) (flipAxis k shape q) = manhattan p q := by
    intro k
    induction k with
    | zero =>
      intro shape p q h h'
      cases h with
      | nil => cases h'; rfl
      | cons h1 h2 =>
        cases h' with
        | cons h1' h2' => simp only [flipAxis, manhattan]; omega
    | succ k ih =>
      intro shape p q h h'
      cases h with
      | nil => cases h'; rfl
      | cons h1 h2 =>
        cases h' with
        | cons h1' h2' => simp only [flipAxis, manhattan]; rw [ih _ _ _ h2 h2']
  exact ⟨hpix k shape, fun q hq => ⟨flipAxis k shape q, hpix k shape q hq, hinv k shape q hq⟩, hiso k shape⟩

theorem isGridSymmetry_swap (k : Nat) (shape : List Nat) : IsGridSymmetry shape (swapNext k shape) (swapNext k) := by
  have hpix : ∀ (k : Nat) (shape p : List Nat), IsPixel shape p → IsPixel (swapNext k shape) (swapNext k p) := by
    intro k
    induction k with
    | zero =>
      intro shape p h
      cases h with
      | nil => exact .nil
      | cons h1 h2 =>
        cases h2 with
        | nil => exact .cons h1 .nil
        | cons h2 h3 => exact .cons h2 (.cons h1 h3)
    | succ k ih =>
      intro shape p h
      cases h with
      | nil => exact .nil
      | cons h1 h2 => exact .cons h1 (ih _ _ h2)
  have hinv : ∀ (k : Nat) (p : List Nat), swapNext k (swapNext k p) = p := by
    intro k
    induction k with
    | zero => intro p; rcases p with _ | ⟨a, _ | ⟨b, p⟩⟩ <;> rfl
    | succ k ih =>
      intro p
      cases p with
      | nil => rfl
      | cons a p => simp only [swapNext]; rw [ih]
  have hiso : ∀ (k : Nat) (shape p q : List Nat), IsPixel shape p → IsPixel shape q → manhattan (swapNext k p) (swapNext k q) = manhattan p q := by
    intro k
    induction k with
    | zero =>
      intro shape p q h h'
      cases h with
      | nil => cases h'; rfl
      | cons h1 h2 =>
        cases h' with
        | cons h1' h2' =>
          cases h2 with
          | nil => cases h2'; rfl
          | cons h2 h3 =>
            cases h2' with
            | cons h2' h3' => simp only [swapNext, manhattan]; omega
    | succ k ih =>
      intro shape p q h h'
      cases h with
      | nil => cases h'; rfl
      | cons h1 h2 =>
        cases h' with
        | cons h1' h2' => simp only [swapNext, manhattan]; rw [ih _ _ _ h2 h2']
  refine ⟨hpix k shape, fun q hq => ⟨swapNext k q, ?_, hinv k q⟩, hiso k shape⟩
  have := hpix k _ _ hq
  rwa [hinv] at this

theorem swapNext_sum (k : Nat) (l : List Nat) : (swapNext k l).sum = l.sum := by
  induction k generalizing l with
  | zero => rcases l with _ | ⟨a, _ | ⟨b, p⟩⟩ <;> simp [swapNext]; omega
  | succ k ih => cases l with
    | nil => rfl
    | cons a l => simp [swapNext, ih]

theorem between {shape p q : List Nat} (hp : IsPixel shape p) (hq : IsPixel shape q) (j : Nat) : ∀ d, manhattan p q = d → j ≤ d → ∃ r, IsPixel shape r ∧ manhattan p r = d - j ∧ manhattan r q = j := by
  intro d
  induction d generalizing p with
  | zero =>
    intro h hj
    exact ⟨p, hp, by rw [manhattan_self]; omega, by omega⟩
  | succ d ih =>
    intro h hj
    by_cases hjd : j = d + 1
    · exact ⟨p, hp, by rw [manhattan_self]; omega, by omega⟩
    · obtain ⟨s, hs, h1, h2⟩ := exists_step hp hq h
      obtain ⟨r, hr, h3, h4⟩ := ih hs h2 (by omega)
      refine ⟨r, hr, ?_, h4⟩
      have t1 := manhattan_triangle (p := p) (q := s) (r := r) (by rw [pixel_length hp, pixel_length hs]) (by rw [pixel_length hs, pixel_length hr])
      have t2 := manhattan_triangle (p := p) (q := r) (r := q) (by rw [pixel_length hp, pixel_length hr]) (by rw [pixel_length hr, pixel_length hq])
      omega

/-- Distance to a neighbourhood. -/
theorem gridDist_neighbourhood {shape : List Nat} {A B : List Nat → Prop} {k : Nat} (hB : ∀ r, IsPixel shape r → (B r ↔ ∃ e, IsGridDist shape A r e ∧ e ≤ k)) {p : List Nat} (hp : IsPixel shape p) {d : Nat}
    (h : IsGridDist shape A p d) : IsGridDist shape B p (d - k) := by
  obtain ⟨⟨q, hq, hA, hd⟩, hmin⟩ := h
  refine ⟨?_, fun r hr hBr => ?_⟩
  · obtain ⟨r, hr, h1, h2⟩ := between hp hq (min k d) d hd (by omega)
    refine ⟨r, hr, (hB r hr).2 ?_, by omega⟩
    obtain ⟨e, hk, he⟩ := exists_gridDist (A := A) (k := min k d) (p := r) ⟨q, hq, hA, h2.le⟩
    exact ⟨e, he, by omega⟩
  · obtain ⟨e, ⟨⟨s, hs, hAs, h1⟩, _⟩, hk⟩ := (hB r hr).1 hBr
    have t := manhattan_triangle (p := p) (q := r) (r := s) (by rw [pixel_length hp, pixel_length hr]) (by rw [pixel_length hr, pixel_length hs])
    have := hmin s hs hAs
    omega

end Gtda.Props.ImageSymmetry

namespace Gtda.Props
open Gtda.Py Gtda.Images Gtda.Spec.Images Gtda.Props.ImageSymmetry

section
variable {K : Type} [Field K] [LinearOrder K] [IsStrictOrderedRing K]

/-- **C132, reflections and exchanges of axes are symmetries.** -/
theorem C132_symmetries (shape : List Nat) (k : Nat) :
    IsGridSymmetry shape shape (flipAxis k shape) ∧ IsGridSymmetry shape (swapNext k shape) (swapNext k) ∧ (swapNext k shape).sum = shape.sum :=
  ⟨isGridSymmetry_flip k shape, isGridSymmetry_swap k shape, swapNext_sum k shape⟩

/-- **C132, symmetry**: if the image `x'` is obtained from `x` by a symmetry, so are its dilation, erosion and signed-distance filtrations from those of `x`, whatever the collections the images are part of and the
numbers of jobs. -/
theorem C132_symmetry (shape shape' : List Nat) (hne : shape ≠ []) (hne' : shape' ≠ []) (hsum : shape'.sum = shape.sum) (g : List Nat → List Nat) (hg : IsGridSymmetry shape shape' g)
    (n : Option Nat) (f f' : IterFitted) (hf : iterFit n shape = .ok f) (hf' : iterFit n shape' = .ok f') (nJobs nJobs' : Nat) (hn : 1 ≤ nJobs) (hn' : 1 ≤ nJobs') (X X' : List (Img K)) (i i' : Nat)
    (x x' : Img K) (hi : X[i]? = some x) (hi' : X'[i']? = some x') (hx : IsBinary shape x) (hxx : ∀ p, IsPixel shape p → x' (g p) = x p) :
    (∀ y y', (dilationTransform f nJobs shape X)[i]? = some y → (dilationTransform f' nJobs' shape' X')[i']? = some y' → ∀ p, IsPixel shape p → y' (g p) = y p) ∧
    (∀ y y', (erosionTransform f nJobs shape X)[i]? = some y → (erosionTransform f' nJobs' shape' X')[i']? = some y' → ∀ p, IsPixel shape p → y' (g p) = y p) ∧
    (∀ y y', (signedDistanceTransform f nJobs shape X)[i]? = some y → (signedDistanceTransform f' nJobs' shape' X')[i']? = some y' → ∀ p, IsPixel shape p → y' (g p) = y p) := by
  have hx' : IsBinary shape' x' := by
    intro q hq
    obtain ⟨p, hp, rfl⟩ := hg.onto q hq
    rw [hxx p hp]
    exact hx p hp
  have hm : (f'.maxValue : K) = f.maxValue := by rw [iterFit_ok hf, iterFit_ok hf']; simp only [hsum]
  have hA : ∀ c : K, ∀ p, IsPixel shape p → ((x' (g p) = c) ↔ x p = c) := fun c p hp => by rw [hxx p hp]
  refine ⟨fun y y' hy hy' p hp => ?_, fun y y' hy hy' p hp => ?_, fun y y' hy hy' p hp => ?_⟩
  · have h1 := dilation_val hne hf hn hi hx hy hp
    have h2 := dilation_val hne' hf' hn' hi' hx' hy' (hg.pixel p hp)
    rw [hm] at h2
    exact (val_unique h1 h2 (gridDist_symmetry hg (hA 1) hp)).symm
  · have h1 := erosion_val hne hf hn hi hy hp
    have h2 := erosion_val hne' hf' hn' hi' hy' (hg.pixel p hp)
    rw [hm] at h2
    exact (val_unique h1 h2 (gridDist_symmetry hg (hA 0) hp)).symm
  · have h1 := signed_val hne hf hn hi hx hy hp
    have h2 := signed_val hne' hf' hn' hi' hx' hy' (hg.pixel p hp)
    rw [hm] at h2
    rcases hx p hp with h | h
    · have := val_unique (h1.2 h) (h2.2 (by rw [hxx p hp, h])) (gridDist_symmetry hg (hA 1) hp)
      exact (neg_injective this).symm
    · have := val_unique (h1.1 h) (h2.1 (by rw [hxx p hp, h])) (gridDist_symmetry hg (hA 0) hp)
      exact (add_right_cancel this).symm

/-- **C132, monotonicity**: if every active pixel of `x` is active in `x'`, then values of the dilation filtration do not increase from `x` to `x'`, those of the erosion and signed-distance filtrations do not
decrease. -/
theorem C132_monotone (shape : List Nat) (hne : shape ≠ []) (n : Option Nat) (f : IterFitted) (hf : iterFit n shape = .ok f) (nJobs nJobs' : Nat) (hn : 1 ≤ nJobs) (hn' : 1 ≤ nJobs')
    (X X' : List (Img K)) (i i' : Nat) (x x' : Img K) (hi : X[i]? = some x) (hi' : X'[i']? = some x') (hx : IsBinary shape x) (hx' : IsBinary shape x') (hxx : ∀ p, IsPixel shape p → x p ≤ x' p) :
    (∀ y y', (dilationTransform f nJobs shape X)[i]? = some y → (dilationTransform f nJobs' shape X')[i']? = some y' → ∀ p, IsPixel shape p → y' p ≤ y p) ∧
    (∀ y y', (erosionTransform f nJobs shape X)[i]? = some y → (erosionTransform f nJobs' shape X')[i']? = some y' → ∀ p, IsPixel shape p → y p ≤ y' p) ∧
    (∀ y y', (signedDistanceTransform f nJobs shape X)[i]? = some y → (signedDistanceTransform f nJobs' shape X')[i']? = some y' → ∀ p, IsPixel shape p → y p ≤ y' p) := by
  have h1 : ∀ p, IsPixel shape p → x p = 1 → x' p = 1 := by
    intro p hp h
    rcases hx' p hp with h' | h'
    · have := hxx p hp
      rw [h, h'] at this
      exact absurd this (by norm_num)
    · exact h'
  have h0 : ∀ p, IsPixel shape p → x' p = 0 → x p = 0 := by
    intro p hp h
    rcases hx p hp with h' | h'
    · exact h'
    · rw [h1 p hp h'] at h
      exact absurd h (by norm_num)
  have hm : ∀ (A : List Nat → Prop) p d, IsPixel shape p → IsGridDist shape A p d → (d : K) ≤ f.maxValue := by
    intro A p d hp hd
    exact_mod_cast (C61_max_value shape hne n f hf A p hp d hd).le
  refine ⟨fun y y' hy hy' p hp => ?_, fun y y' hy hy' p hp => ?_, fun y y' hy hy' p hp => ?_⟩
  · exact val_mono h1 (hm _) hp (dilation_val hne hf hn hi hx hy hp) (dilation_val hne hf hn' hi' hx' hy' hp)
  · exact val_mono h0 (hm _) hp (erosion_val hne hf hn' hi' hy' hp) (erosion_val hne hf hn hi hy hp)
  · have s1 := signed_val hne hf hn hi hx hy hp
    have s2 := signed_val hne hf hn' hi' hx' hy' hp
    have hpos : ∀ {A : List Nat → Prop} {v : K}, Val shape A n (f.maxValue : K) p v → 0 ≤ v := by
      intro A v h
      rcases h with ⟨d, _, _, h⟩ | ⟨_, h⟩ <;> rw [h] <;> exact Nat.cast_nonneg _
    have hpos1 : ∀ {A : List Nat → Prop} {v : K}, ¬ A p → Val shape A n ((f.maxValue : K) + 1) p v → 1 ≤ v := by
      intro A v hA h
      rcases h with ⟨d, hd, _, h⟩ | ⟨_, h⟩
      · have := gridDist_pos hp hA hd
        rw [h]
        exact_mod_cast this
      · rw [h]
        have : (0 : K) ≤ f.maxValue := Nat.cast_nonneg _
        linarith
    rcases hx p hp with h | h
    · have a := hpos (s1.2 h)
      rcases hx' p hp with h' | h'
      · have := val_mono h1 (hm _) hp (s1.2 h) (s2.2 h')
        linarith
      · have b := hpos1 (by rw [h']; norm_num) (s2.1 h')
        linarith
    · have h' := h1 p hp h
      have := val_mono h0 (fun p d hp hd => (hm _ p d hp hd).trans (by linarith)) hp (s2.1 h') (s1.1 h)
      linarith

/-- **C132, complements**: exchanging active and inactive pixels exchanges the dilation and erosion filtrations. The signed distances of an image and of its complement add up to -1, or to 0 where there is
nothing within reach. -/
theorem C132_complement (shape : List Nat) (hne : shape ≠ []) (n : Option Nat) (f : IterFitted) (hf : iterFit n shape = .ok f) (nJobs nJobs' : Nat) (hn : 1 ≤ nJobs) (hn' : 1 ≤ nJobs')
    (X X' : List (Img K)) (i i' : Nat) (x x' : Img K) (hi : X[i]? = some x) (hi' : X'[i']? = some x') (hx : IsBinary shape x) (hxx : ∀ p, IsPixel shape p → x' p = 1 - x p) :
    (∀ y y', (dilationTransform f nJobs shape X)[i]? = some y → (erosionTransform f nJobs' shape X')[i']? = some y' → ∀ p, IsPixel shape p → y' p = y p) ∧
    (∀ y y', (signedDistanceTransform f nJobs shape X)[i]? = some y → (signedDistanceTransform f nJobs' shape X')[i']? = some y' → ∀ p, IsPixel shape p →
      ((∃ q, IsPixel shape q ∧ x q ≠ x p ∧ ∀ N, n = some N → manhattan p q ≤ N) → y p + y' p = -1) ∧
      ((¬ ∃ q, IsPixel shape q ∧ x q ≠ x p ∧ ∀ N, n = some N → manhattan p q ≤ N) → y p + y' p = 0)) := by
  have hx' : IsBinary shape x' := by
    intro p hp
    rw [hxx p hp]
    rcases hx p hp with h | h <;> rw [h] <;> norm_num
  have he : ∀ (A B : List Nat → Prop), (∀ q, IsPixel shape q → (A q ↔ B q)) → ∀ p d, IsGridDist shape A p d ↔ IsGridDist shape B p d := by
    intro A B h p d
    constructor
    · rintro ⟨⟨q, hq, hA, hd⟩, hm⟩
      exact ⟨⟨q, hq, (h q hq).1 hA, hd⟩, fun r hr hB => hm r hr ((h r hr).2 hB)⟩
    · rintro ⟨⟨q, hq, hA, hd⟩, hm⟩
      exact ⟨⟨q, hq, (h q hq).2 hA, hd⟩, fun r hr hB => hm r hr ((h r hr).1 hB)⟩
  have h10 : ∀ q, IsPixel shape q → (x q = 1 ↔ x' q = 0) := by
    intro q hq
    rw [hxx q hq]
    constructor <;> intro h <;> linarith
  have h01 : ∀ q, IsPixel shape q → (x q = 0 ↔ x' q = 1) := by
    intro q hq
    rw [hxx q hq]
    constructor <;> intro h <;> linarith
  have key : ∀ (A : List Nat → Prop) (p : List Nat) (v w : K), IsPixel shape p → (∀ q, IsPixel shape q → (A q ↔ x q ≠ x p)) → Val shape A n ((f.maxValue : K) + 1) p (v + 1) → Val shape A n (f.maxValue : K) p (-w) →
      ((∃ q, IsPixel shape q ∧ x q ≠ x p ∧ ∀ N, n = some N → manhattan p q ≤ N) → v + w = -1) ∧
      ((¬ ∃ q, IsPixel shape q ∧ x q ≠ x p ∧ ∀ N, n = some N → manhattan p q ≤ N) → v + w = 0) := by
    intro A p v w hp hA hv hw
    rcases hv with ⟨d, h1, h2, h3⟩ | ⟨h1, h2⟩ <;> rcases hw with ⟨d', h1', h2', h3'⟩ | ⟨h1', h2'⟩
    · have := gridDist_unique h1 h1'
      subst this
      obtain ⟨⟨q, hq, hAq, hd⟩, _⟩ := h1
      refine ⟨fun _ => by linarith, fun h => absurd ⟨q, hq, (hA q hq).1 hAq, fun N hN => by rw [hd]; exact h2 N hN⟩ h⟩
    · obtain ⟨N, hN, hlt⟩ := h1' d h1
      have := h2 N hN
      omega
    · obtain ⟨N, hN, hlt⟩ := h1 d' h1'
      have := h2' N hN
      omega
    · refine ⟨?_, fun _ => by linarith⟩
      · rintro ⟨q, hq, hxq, hN⟩
        obtain ⟨e, hle, he⟩ := exists_gridDist (A := A) (k := manhattan p q) (p := p) ⟨q, hq, (hA q hq).2 hxq, le_rfl⟩
        obtain ⟨N, hN', hlt⟩ := h1 e he
        have := hN N hN'
        omega
  refine ⟨fun y y' hy hy' p hp => ?_, fun y y' hy hy' p hp => ?_⟩
  · exact (val_unique (dilation_val hne hf hn hi hx hy hp) (erosion_val hne hf hn' hi' hy' hp) (he _ _ h10 p)).symm
  · have s1 := signed_val hne hf hn hi hx hy hp
    have s2 := signed_val hne hf hn' hi' hx' hy' hp
    have hv : ∀ (A B : List Nat → Prop) (m v : K), (∀ q, IsPixel shape q → (A q ↔ B q)) → Val shape A n m p v → Val shape B n m p v := by
      intro A B m v h hv
      rcases hv with ⟨d, h1, h2⟩ | ⟨h1, h2⟩
      · exact .inl ⟨d, (he A B h p d).1 h1, h2⟩
      · exact .inr ⟨fun d hd => h1 d ((he A B h p d).2 hd), h2⟩
    rcases hx p hp with h | h
    · rw [add_comm]
      refine key (fun q => x q = 1) p _ _ hp (fun q hq => ?_) (hv _ _ _ _ (fun q hq => (h10 q hq).symm) (s2.1 ((h01 p hp).1 h))) (s1.2 h)
      rw [h]
      rcases hx q hq with h | h <;> rw [h] <;> norm_num
    · refine key (fun q => x q = 0) p _ _ hp (fun q hq => ?_) (s1.1 h) (hv _ _ _ _ (fun q hq => (h01 q hq).symm) (s2.2 ((h10 p hp).1 h)))
      rw [h]
      rcases hx q hq with h | h <;> rw [h] <;> norm_num

/-- **C132, repeated dilation**: let `x'` be the image of the pixels reached after `k` steps, i.e. with value at most `k` in the dilation filtration of `x`. Its dilation filtration is that of `x`, `k` steps earlier (and 0 on the
pixels already reached). -/
theorem C132_semigroup (shape : List Nat) (hne : shape ≠ []) (n : Option Nat) (f : IterFitted) (hf : iterFit n shape = .ok f) (nJobs nJobs' : Nat) (hn : 1 ≤ nJobs) (hn' : 1 ≤ nJobs')
    (X X' : List (Img K)) (i i' : Nat) (x y : Img K) (hi : X[i]? = some x) (hx : IsBinary shape x) (hy : (dilationTransform f nJobs shape X)[i]? = some y) (k : Nat) (hk : ∀ N, n = some N → k ≤ N)
    (hkm : k < f.maxValue) (hi' : X'[i']? = some (indicator fun p => y p ≤ k)) (y' : Img K) (hy' : (dilationTransform f nJobs' shape X')[i']? = some y') (p : List Nat) (hp : IsPixel shape p)
    (hr : y p < f.maxValue) : y' p = max (y p - k) 0 := by
  have hb : IsBinary shape (indicator (K := K) fun p => y p ≤ k) := by
    intro p _
    unfold indicator
    split
    · exact .inr rfl
    · exact .inl rfl
  have hB : ∀ r, IsPixel shape r → ((indicator (K := K) (fun p => y p ≤ k)) r = 1 ↔ ∃ e, IsGridDist shape (fun q => x q = 1) r e ∧ e ≤ k) := by
    intro r hr
    have h1 : (indicator (K := K) (fun p => y p ≤ k)) r = 1 ↔ y r ≤ k := by
      unfold indicator
      split
      · simpa
      · rename_i h
        simp only [zero_ne_one, false_iff]
        exact h
    rw [h1]
    rcases dilation_val hne hf hn hi hx hy hr with ⟨d, h1, h2, h3⟩ | ⟨h1, h2⟩
    · rw [h3, Nat.cast_le]
      constructor
      · exact fun h => ⟨d, h1, h⟩
      · rintro ⟨e, he, hek⟩
        rwa [gridDist_unique h1 he]
    · rw [h2, Nat.cast_le]
      constructor
      · intro h
        omega
      · rintro ⟨e, he, hek⟩
        obtain ⟨N, hN, hlt⟩ := h1 e he
        have := hk N hN
        omega
  rcases dilation_val hne hf hn hi hx hy hp with ⟨d, h1, h2, h3⟩ | ⟨h1, h2⟩
  · have hd := gridDist_neighbourhood hB hp h1
    rcases dilation_val hne hf hn' hi' hb hy' hp with ⟨d', h1', h2', h3'⟩ | ⟨h1', h2'⟩
    · rw [h3', h3, gridDist_unique h1' hd]
      rcases le_total k d with h | h
      · rw [Nat.cast_sub h, max_eq_left]
        have : (k : K) ≤ d := by exact_mod_cast h
        linarith
      · rw [Nat.sub_eq_zero_of_le h, max_eq_right]
        · simp
        · have : (d : K) ≤ k := by exact_mod_cast h
          linarith
    · obtain ⟨N, hN, hlt⟩ := h1' _ hd
      have := h2 N hN
      omega
  · rw [h2] at hr
    exact absurd hr (lt_irrefl _)

/-- **C132**: without a limit on the number of iterations, and if there is an active pixel, neighbouring values of the dilation filtration differ by at most 1. -/
theorem C132_lipschitz (shape : List Nat) (hne : shape ≠ []) (f : IterFitted) (hf : iterFit none shape = .ok f) (nJobs : Nat) (hn : 1 ≤ nJobs) (X : List (Img K)) (i : Nat) (x y : Img K)
    (hi : X[i]? = some x) (hx : IsBinary shape x) (hy : (dilationTransform f nJobs shape X)[i]? = some y) (hact : ∃ q, IsPixel shape q ∧ x q = 1) (p q : List Nat) (hp : IsPixel shape p)
    (hq : IsPixel shape q) : |y p - y q| ≤ manhattan p q := by
  obtain ⟨a, ha, hxa⟩ := hact
  have hval : ∀ r, IsPixel shape r → ∃ d, IsGridDist shape (fun q => x q = 1) r d ∧ y r = (d : K) := by
    intro r hr
    rcases dilation_val hne hf hn hi hx hy hr with ⟨d, h1, _, h3⟩ | ⟨h1, _⟩
    · exact ⟨d, h1, h3⟩
    · obtain ⟨e, _, he⟩ := exists_gridDist (A := fun q => x q = 1) (k := manhattan r a) (p := r) ⟨a, ha, hxa, le_rfl⟩
      obtain ⟨N, hN, _⟩ := h1 e he
      cases hN
  have hle : ∀ p q, IsPixel shape p → IsPixel shape q → y p ≤ y q + manhattan p q := by
    intro p q hp hq
    obtain ⟨d, hd, h1⟩ := hval p hp
    obtain ⟨e, ⟨⟨s, hs, hxs, he⟩, _⟩, h2⟩ := hval q hq
    have t := manhattan_triangle (p := p) (q := q) (r := s) (by rw [pixel_length hp, pixel_length hq]) (by rw [pixel_length hq, pixel_length hs])
    have := hd.2 s hs hxs
    rw [h1, h2]
    exact_mod_cast (by omega : d ≤ e + manhattan p q)
  have h1 := hle p q hp hq
  have h2 := hle q p hq hp
  rw [manhattan_comm q p] at h2
  rw [abs_le]
  constructor <;> linarith

end

end Gtda.Props
