import Mathlib.Tactic.Linarith
import Mathlib.Tactic.NormNum
import Verif.Model.Images
import Verif.Spec.Images
import Verif.Props.Parallel

set_option autoImplicit false
set_option linter.unusedSectionVars false

/-!
# C61, C62, C63, C65: dilation, erosion and signed distance filtrations are grid distances
-/

namespace Gtda.Images
open Gtda.Py Gtda.Parallel Gtda.Spec.Images

variable {K : Type} [Field K] [LinearOrder K] [IsStrictOrderedRing K]

/-! ### Indices -/

theorem inShape_iff (p shape : List Nat) : inShape p shape = true ↔ IsPixel shape p := by
  unfold IsPixel
  induction p generalizing shape with
  | nil => cases shape <;> simp [inShape]
  | cons i p ih => cases shape <;> simp [inShape, ih]

theorem mem_inds (p shape : List Nat) : p ∈ inds shape ↔ IsPixel shape p := by
  unfold IsPixel
  induction shape generalizing p with
  | nil => simp [inds]
  | cons d ds ih =>
    cases p with
    | nil => simp [inds]
    | cons i p =>
      simp only [inds, List.mem_flatMap, List.mem_range, List.mem_map, List.forall₂_cons]
      constructor
      · rintro ⟨j, hj, q, hq, h⟩
        injection h with h1 h2
        subst h1 h2
        exact ⟨hj, (ih _).1 hq⟩
      · rintro ⟨h1, h2⟩
        exact ⟨i, h1, p, (ih _).2 h2, rfl⟩

theorem inds_nodup (shape : List Nat) : (inds shape).Nodup := by
  induction shape with
  | nil => simp [inds]
  | cons d ds ih =>
    simp only [inds]
    rw [List.nodup_flatMap]
    constructor
    · intro i _
      exact ih.map (by intro a b h; simpa using h)
    · refine List.Nodup.pairwise_of_forall_ne List.nodup_range ?_
      intro a _ b _ hab
      intro p hp hq
      simp only [List.mem_map] at hp hq
      obtain ⟨_, _, rfl⟩ := hp
      obtain ⟨_, _, h⟩ := hq
      injection h with h1
      exact hab h1.symm

theorem pixel_length {shape p : List Nat} (h : IsPixel shape p) : p.length = shape.length := List.Forall₂.length_eq h

/-! ### Grid distance -/

theorem manhattan_self (p : List Nat) : manhattan p p = 0 := by
  induction p with
  | nil => rfl
  | cons i p ih => simp [manhattan, ih]

theorem manhattan_eq_zero {p q : List Nat} (hl : p.length = q.length) (h : manhattan p q = 0) : p = q := by
  induction p generalizing q with
  | nil => cases q with
    | nil => rfl
    | cons => simp at hl
  | cons i p ih =>
    cases q with
    | nil => simp at hl
    | cons j q =>
      simp only [manhattan] at h
      rw [ih (by simpa using hl) (by omega)]
      congr 1
      omega

theorem manhattan_triangle {p q r : List Nat} (h1 : p.length = q.length) (h2 : q.length = r.length) :
    manhattan p r ≤ manhattan p q + manhattan q r := by
  induction p generalizing q r with
  | nil => simp [manhattan]
  | cons i p ih =>
    cases q with
    | nil => simp at h1
    | cons j q =>
      cases r with
      | nil => simp at h2
      | cons k r =>
        have := ih (q := q) (r := r) (by simpa using h1) (by simpa using h2)
        simp only [manhattan]
        omega

theorem manhattan_comm (p q : List Nat) : manhattan p q = manhattan q p := by
  induction p generalizing q with
  | nil => cases q <;> rfl
  | cons i p ih =>
    cases q with
    | nil => rfl
    | cons j q => simp only [manhattan, ih q]; omega

theorem manhattan_le_sum {shape p q : List Nat} (hp : IsPixel shape p) (hq : IsPixel shape q) : manhattan p q ≤ shape.sum := by
  unfold IsPixel at hp hq
  induction hp generalizing q with
  | nil => cases q <;> simp [manhattan]
  | cons h _ ih =>
    cases hq with
    | cons h' t' =>
      have := ih t'
      simp only [manhattan, List.sum_cons]
      omega

theorem manhattan_lt_sum {shape p q : List Nat} (hne : shape ≠ []) (hp : IsPixel shape p) (hq : IsPixel shape q) :
    manhattan p q < shape.sum := by
  cases hp with
  | nil => exact absurd rfl hne
  | cons h t =>
    cases hq with
    | cons h' t' =>
      have := manhattan_le_sum t t'
      simp only [manhattan, List.sum_cons]
      omega

/-! ### Neighbours -/

theorem mem_nbrs {shape p q : List Nat} (hp : IsPixel shape p) : q ∈ nbrs shape p ↔ IsPixel shape q ∧ manhattan p q = 1 := by
  unfold IsPixel at hp
  induction hp generalizing q with
  | nil =>
    simp only [nbrs, List.not_mem_nil, false_iff, not_and]
    intro h
    cases h
    simp [manhattan]
  | @cons i d p ds h t ih =>
    unfold IsPixel at ih ⊢
    simp only [nbrs, List.mem_append, List.mem_map]
    constructor
    · rintro ((h1 | h1) | ⟨a, ha, rfl⟩)
      · split at h1 <;> simp only [List.mem_cons, List.not_mem_nil, or_false] at h1
        subst h1
        refine ⟨List.Forall₂.cons (by omega) t, ?_⟩
        simp only [manhattan, manhattan_self]
        omega
      · split at h1 <;> simp only [List.mem_cons, List.not_mem_nil, or_false] at h1
        subst h1
        refine ⟨List.Forall₂.cons (by omega) t, ?_⟩
        simp only [manhattan, manhattan_self]
        omega
      · obtain ⟨h2, h3⟩ := ih.1 ha
        refine ⟨List.Forall₂.cons h h2, ?_⟩
        simp only [manhattan, h3]
        omega
    · rintro ⟨h1, h2⟩
      cases h1 with
      | @cons j _ q _ hj tq =>
        simp only [manhattan] at h2
        by_cases hm : manhattan p q = 0
        · have := manhattan_eq_zero (by rw [pixel_length t, pixel_length tq]) hm
          subst this
          left
          by_cases hlt : i < j
          · right
            have : j = i + 1 := by omega
            subst this
            simp [hj]
          · left
            have : j = i - 1 := by omega
            subst this
            have : 0 < i := by omega
            simp [this]
        · right
          refine ⟨q, ih.2 ⟨tq, by omega⟩, ?_⟩
          congr 1
          omega

/-- One step towards a target at grid distance `d + 1`. -/
theorem exists_step {shape p q : List Nat} (hp : IsPixel shape p) (hq : IsPixel shape q) {d : Nat} (h : manhattan p q = d + 1) :
    ∃ r, IsPixel shape r ∧ manhattan p r = 1 ∧ manhattan r q = d := by
  unfold IsPixel at hp hq ⊢
  induction hp generalizing q d with
  | nil => simp [manhattan] at h
  | @cons i n p ds hi t ih =>
    cases hq with
    | @cons j _ q _ hj tq =>
      simp only [manhattan] at h
      rcases Nat.lt_trichotomy i j with hij | hij | hij
      · refine ⟨(i + 1) :: p, List.Forall₂.cons (by omega) t, ?_, ?_⟩
        · simp only [manhattan, manhattan_self]; omega
        · simp only [manhattan]; omega
      · subst hij
        obtain ⟨r, h1, h2, h3⟩ := ih tq (d := d) (by omega)
        refine ⟨i :: r, List.Forall₂.cons hi h1, ?_, ?_⟩
        · simp only [manhattan, h2]; omega
        · simp only [manhattan, h3]; omega
      · refine ⟨(i - 1) :: p, List.Forall₂.cons (by omega) t, ?_, ?_⟩
        · simp only [manhattan, manhattan_self]; omega
        · simp only [manhattan]; omega

/-- Some pixel satisfying `A` lies within grid distance `k`. -/
def Within (shape : List Nat) (A : List Nat → Prop) (k : Nat) (p : List Nat) : Prop :=
  ∃ q, IsPixel shape q ∧ A q ∧ manhattan p q ≤ k

theorem within_succ {shape : List Nat} {A : List Nat → Prop} {k : Nat} {p : List Nat} (hp : IsPixel shape p) :
    Within shape A (k + 1) p ↔ Within shape A k p ∨ ∃ r, IsPixel shape r ∧ manhattan p r = 1 ∧ Within shape A k r := by
  constructor
  · rintro ⟨q, hq, hA, hd⟩
    by_cases h : manhattan p q ≤ k
    · exact Or.inl ⟨q, hq, hA, h⟩
    · obtain ⟨r, h1, h2, h3⟩ := exists_step hp hq (d := k) (by omega)
      exact Or.inr ⟨r, h1, h2, q, hq, hA, by omega⟩
  · rintro (⟨q, hq, hA, hd⟩ | ⟨r, hr, h1, q, hq, hA, hd⟩)
    · exact ⟨q, hq, hA, by omega⟩
    · refine ⟨q, hq, hA, ?_⟩
      have := manhattan_triangle (p := p) (q := r) (r := q) (by rw [pixel_length hp, pixel_length hr]) (by rw [pixel_length hr, pixel_length hq])
      omega

theorem exists_gridDist {shape : List Nat} {A : List Nat → Prop} {k : Nat} {p : List Nat} (h : Within shape A k p) :
    ∃ d, d ≤ k ∧ IsGridDist shape A p d := by
  classical
  obtain ⟨q, hq, hA, hd⟩ := h
  have hex : ∃ d, ∃ q, IsPixel shape q ∧ A q ∧ manhattan p q = d := ⟨_, q, hq, hA, rfl⟩
  refine ⟨Nat.find hex, ?_, Nat.find_spec hex, ?_⟩
  · exact (Nat.find_min' hex ⟨q, hq, hA, rfl⟩).trans hd
  · intro r hr hAr
    exact Nat.find_min' hex ⟨r, hr, hAr, rfl⟩

theorem gridDist_unique {shape : List Nat} {A : List Nat → Prop} {p : List Nat} {d e : Nat}
    (h1 : IsGridDist shape A p d) (h2 : IsGridDist shape A p e) : d = e := by
  obtain ⟨⟨q, hq, hA, rfl⟩, hm⟩ := h1
  obtain ⟨⟨r, hr, hB, rfl⟩, hm'⟩ := h2
  exact Nat.le_antisymm (hm r hr hB) (hm' q hq hA)

/-! ### The loop, image by image -/

/-- The pass of one iteration number over one image. -/
def pass (shape : List Nat) (minValue : K) (x : Img K) (it : Nat) : Img K := assignNew shape ((it : K) + minValue) x

theorem assignNew_of_none {shape : List Nat} {x : Img K} (h : (inds shape).any (newPixels shape x) = false) (v : K) :
    assignNew shape v x = x := by
  funext p
  unfold assignNew
  rw [if_neg]
  intro hp
  rw [List.any_eq_false] at h
  refine h p ?_ hp
  rw [mem_inds, ← inShape_iff]
  unfold newPixels at hp
  rw [Bool.and_eq_true] at hp
  exact hp.1

theorem dilateLoop_eq (shape : List Nat) (minValue : K) (its : List Nat) (X : List (Img K)) :
    dilateLoop shape minValue its X = X.map fun x => its.foldl (pass shape minValue) x := by
  induction its generalizing X with
  | nil => simp [dilateLoop]
  | cons it its ih =>
    unfold dilateLoop
    split
    · rw [ih, List.map_map]
      rfl
    · rename_i h
      rw [Bool.not_eq_true, List.any_eq_false] at h
      symm
      conv_rhs => rw [← List.map_id X]
      apply List.map_congr_left
      intro x hx
      have hx' : (inds shape).any (newPixels shape x) = false := by simpa using h x hx
      have : ∀ (l : List Nat), l.foldl (pass shape minValue) x = x := by
        intro l
        induction l with
        | nil => rfl
        | cons a l ihl =>
          rw [List.foldl_cons]
          unfold pass at ihl ⊢
          rw [assignNew_of_none hx']
          exact ihl
      exact this _

/-- What the image looks like after iteration `k`. -/
structure Reached (shape : List Nat) (minValue : K) (A : List Nat → Prop) (k : Nat) (x : Img K) : Prop where
  active : ∀ p, IsPixel shape p → A p → x p = 1
  reached : ∀ p, IsPixel shape p → ¬ A p → ∀ d, d ≤ k → IsGridDist shape A p d → x p = (d : K) + minValue
  other : ∀ p, IsPixel shape p → ¬ Within shape A k p → x p = 0

theorem within_of_active {shape : List Nat} {A : List Nat → Prop} {p : List Nat} (k : Nat) (hp : IsPixel shape p) (hA : A p) :
    Within shape A k p := ⟨p, hp, hA, by rw [manhattan_self]; omega⟩

theorem gridDist_pos {shape : List Nat} {A : List Nat → Prop} {p : List Nat} {d : Nat} (hp : IsPixel shape p) (hA : ¬ A p)
    (h : IsGridDist shape A p d) : 0 < d := by
  obtain ⟨⟨q, hq, hAq, hd⟩, _⟩ := h
  rcases Nat.eq_zero_or_pos d with h0 | h0
  · rw [h0] at hd
    have := manhattan_eq_zero (by rw [pixel_length hp, pixel_length hq]) hd
    subst this
    exact absurd hAq hA
  · exact h0

theorem Reached.ne_zero_iff {shape : List Nat} {c : K} (hc : 0 ≤ c) {A : List Nat → Prop} {k : Nat} {x : Img K}
    (h : Reached shape c A k x) {p : List Nat} (hp : IsPixel shape p) : x p ≠ 0 ↔ Within shape A k p := by
  classical
  constructor
  · intro hx
    by_contra hw
    exact hx (h.other p hp hw)
  · intro hw
    by_cases hA : A p
    · rw [h.active p hp hA]; exact one_ne_zero
    · obtain ⟨d, hd, hg⟩ := exists_gridDist hw
      rw [h.reached p hp hA d hd hg]
      have : (0 : K) < d := by exact_mod_cast gridDist_pos hp hA hg
      linarith [this]

theorem newPixels_iff {shape : List Nat} {c : K} (hc : 0 ≤ c) {A : List Nat → Prop} {k : Nat} {x : Img K}
    (h : Reached shape c A k x) {p : List Nat} (hp : IsPixel shape p) :
    newPixels shape x p = true ↔ ¬ Within shape A k p ∧ Within shape A (k + 1) p := by
  classical
  have hdil : binaryDilation shape x p = true ↔ Within shape A (k + 1) p := by
    unfold binaryDilation
    rw [Bool.or_eq_true, decide_eq_true_iff, h.ne_zero_iff hc hp, within_succ hp, List.any_eq_true]
    constructor
    · rintro (h1 | ⟨q, hq, h2⟩)
      · exact Or.inl h1
      · obtain ⟨hq1, hq2⟩ := (mem_nbrs hp).1 hq
        exact Or.inr ⟨q, hq1, hq2, (h.ne_zero_iff hc hq1).1 (by simpa using h2)⟩
    · rintro (h1 | ⟨q, hq1, hq2, h2⟩)
      · exact Or.inl h1
      · exact Or.inr ⟨q, (mem_nbrs hp).2 ⟨hq1, hq2⟩, by simpa using (h.ne_zero_iff hc hq1).2 h2⟩
  unfold newPixels
  rw [Bool.and_eq_true, inShape_iff, decide_eq_true_iff]
  by_cases hw1 : Within shape A (k + 1) p
  · rw [if_pos (hdil.2 hw1)]
    by_cases hw : Within shape A k p
    · have : x p ≠ 0 := (h.ne_zero_iff hc hp).2 hw
      simp [hp, hw, this]
    · simp [hp, hw, hw1, h.other p hp hw]
  · have hw : ¬ Within shape A k p := fun hw => hw1 ((within_succ hp).2 (Or.inl hw))
    rw [if_neg (fun hd => hw1 (hdil.1 hd))]
    simp [hw1, h.other p hp hw]

theorem Reached.step {shape : List Nat} {c : K} (hc : 0 ≤ c) {A : List Nat → Prop} {k : Nat} {x : Img K}
    (h : Reached shape c A k x) : Reached shape c A (k + 1) (pass shape c x (k + 1)) := by
  classical
  constructor
  · intro p hp hA
    unfold pass assignNew
    rw [if_neg, h.active p hp hA]
    rw [newPixels_iff hc h hp]
    exact fun hh => hh.1 (within_of_active k hp hA)
  · intro p hp hA d hd hg
    unfold pass assignNew
    by_cases hk : d ≤ k
    · rw [if_neg, h.reached p hp hA d hk hg]
      rw [newPixels_iff hc h hp]
      obtain ⟨⟨q, hq, hAq, hdq⟩, _⟩ := hg
      exact fun hh => hh.1 ⟨q, hq, hAq, by omega⟩
    · have hdk : d = k + 1 := by omega
      subst hdk
      rw [if_pos]
      rw [newPixels_iff hc h hp]
      obtain ⟨⟨q, hq, hAq, hdq⟩, hm⟩ := hg
      refine ⟨?_, q, hq, hAq, hdq.le⟩
      rintro ⟨r, hr, hAr, hdr⟩
      have := hm r hr hAr
      omega
  · intro p hp hw
    have hw' : ¬ Within shape A k p := fun h' => hw ((within_succ hp).2 (Or.inl h'))
    unfold pass assignNew
    rw [if_neg, h.other p hp hw']
    rw [newPixels_iff hc h hp]
    exact fun hh => hw hh.2

theorem Reached.iterate {shape : List Nat} {c : K} (hc : 0 ≤ c) {A : List Nat → Prop} {k : Nat} {x : Img K}
    (h : Reached shape c A k x) (n : Nat) : Reached shape c A (k + n) ((List.range' (k + 1) n).foldl (pass shape c) x) := by
  induction n generalizing k x with
  | zero => simpa using h
  | succ n ih =>
    rw [List.range'_succ, List.foldl_cons]
    have := ih (h.step hc)
    rwa [show k + 1 + n = k + (n + 1) by omega] at this

theorem reached_zero {shape : List Nat} (c : K) {x : Img K} (hx : IsBinary shape x) :
    Reached shape c (fun p => x p = 1) 0 x where
  active := fun p _ h => h
  reached := by
    intro p hp hA d hd hg
    have := gridDist_pos hp hA hg
    omega
  other := by
    intro p hp hw
    rcases hx p hp with h | h
    · exact h
    · exact absurd (within_of_active 0 hp h) hw

/-- Iteration number 0 (used by `_erode` in the signed distance) assigns 0 to pixels that are 0. -/
theorem pass_zero {shape : List Nat} {x : Img K} (hx : IsBinary shape x) : pass shape 0 x 0 = x := by
  classical
  funext p
  unfold pass assignNew
  split
  · rename_i h
    have hp : IsPixel shape p := by
      unfold newPixels at h
      rw [Bool.and_eq_true, inShape_iff] at h
      exact h.1
    have h0 := reached_zero (0 : K) hx
    rw [newPixels_iff le_rfl h0 hp] at h
    rw [h0.other p hp h.1]
    simp
  · rfl

/-! ### The value of `_dilate` -/

/-- The value at a pixel after a complete `_dilate` on a binary image. -/
theorem dilate_reached (shape : List Nat) (c : K) (hc : 0 ≤ c) (x : Img K) (hx : IsBinary shape x) (N M : Nat) :
    Reached shape c (fun p => x p = 1) (min N M) ((List.range' 1 (min N M + 1 - 1)).foldl (pass shape c) x) := by
  have := (reached_zero c hx).iterate hc (min N M)
  simpa using this

theorem dilate_eq (shape : List Nat) (X : List (Img K)) (a N M : Nat) (c : K) :
    dilate shape X a N c M = X.map fun x => (List.range' a (min N M + 1 - a)).foldl (pass shape c) x :=
  dilateLoop_eq ..

theorem isBinary_not {shape : List Nat} {x : Img K} : IsBinary shape (fun p => if x p = 0 then (1 : K) else 0) := by
  intro p _
  beta_reduce
  split <;> simp

/-! ### Batch independence -/

theorem calcDilation_eq (f : IterFitted) (shape : List Nat) (X : List (Img K)) :
    calcDilation f shape X = X.map fun x p =>
      if ((List.range' 1 (min f.nIterations f.maxValue + 1 - 1)).foldl (pass shape 1) x) p = 0 then (f.maxValue : K)
      else ((List.range' 1 (min f.nIterations f.maxValue + 1 - 1)).foldl (pass shape 1) x) p - 1 := by
  unfold calcDilation
  rw [dilate_eq, List.map_map]
  rfl

theorem calcErosion_eq (f : IterFitted) (shape : List Nat) (X : List (Img K)) :
    calcErosion f shape X = X.map fun x p =>
      if ((List.range' 1 (min f.nIterations f.maxValue + 1 - 1)).foldl (pass shape 1) (fun p => if x p = 0 then (1 : K) else 0)) p = 0
      then (f.maxValue : K)
      else ((List.range' 1 (min f.nIterations f.maxValue + 1 - 1)).foldl (pass shape 1) (fun p => if x p = 0 then (1 : K) else 0)) p - 1 := by
  unfold calcErosion erode
  rw [dilate_eq, List.map_map, List.map_map]
  rfl

/-- **C65** DilationFiltration: transforming a collection, with any number of jobs, is transforming each image on its own – although the loop's early
exit looks at all images of a chunk. -/
theorem C65_dilation_batch (f : IterFitted) (nJobs : Nat) (hn : 1 ≤ nJobs) (shape : List Nat) (X : List (Img K)) :
    dilationTransform f nJobs shape X = X.flatMap fun x => dilationTransform f 1 shape [x] := by
  have hF : calcDilation (K := K) f shape = List.map _ := funext (calcDilation_eq f shape)
  unfold dilationTransform
  rw [hF, Gtda.Props.C17_njobs_map _ nJobs hn]
  simp only [Gtda.Props.C17_njobs_map _ 1 le_rfl, List.map_cons, List.map_nil]
  rw [← List.map_eq_flatMap]

/-- **C65** ErosionFiltration, likewise. -/
theorem C65_erosion_batch (f : IterFitted) (nJobs : Nat) (hn : 1 ≤ nJobs) (shape : List Nat) (X : List (Img K)) :
    erosionTransform f nJobs shape X = X.flatMap fun x => erosionTransform f 1 shape [x] := by
  have hF : calcErosion (K := K) f shape = List.map _ := funext (calcErosion_eq f shape)
  unfold erosionTransform
  rw [hF, Gtda.Props.C17_njobs_map _ nJobs hn]
  simp only [Gtda.Props.C17_njobs_map _ 1 le_rfl, List.map_cons, List.map_nil]
  rw [← List.map_eq_flatMap]

theorem zipWith_zip_map {α β γ δ : Type} (F : α → β × γ → δ) (g : α → β) (h : α → γ) (X : List α) :
    List.zipWith F X ((X.map g).zip (X.map h)) = X.map fun x => F x (g x, h x) := by
  induction X with
  | nil => rfl
  | cons a X ih => simp [ih]

theorem calcSignedDistance_eq (f : IterFitted) (shape : List Nat) (X : List (Img K)) :
    calcSignedDistance f shape X = X.map fun x p => signedPixel f.maxValue (x p)
      (-((List.range' 1 (min f.nIterations f.maxValue + 1 - 1)).foldl (pass shape 0) x p))
      ((List.range' 0 (min f.nIterations f.maxValue + 1 - 0)).foldl (pass shape 0) (fun p => if x p = 0 then (1 : K) else 0) p) := by
  unfold calcSignedDistance erode
  simp only [dilate_eq, List.map_map]
  exact zipWith_zip_map _ _ _ X

/-- **C65** SignedDistanceFiltration, likewise. -/
theorem C65_signed_batch (f : IterFitted) (nJobs : Nat) (hn : 1 ≤ nJobs) (shape : List Nat) (X : List (Img K)) :
    signedDistanceTransform f nJobs shape X = X.flatMap fun x => signedDistanceTransform f 1 shape [x] := by
  have hF : calcSignedDistance (K := K) f shape = List.map _ := funext (calcSignedDistance_eq f shape)
  unfold signedDistanceTransform
  rw [hF, Gtda.Props.C17_njobs_map _ nJobs hn]
  simp only [Gtda.Props.C17_njobs_map _ 1 le_rfl, List.map_cons, List.map_nil]
  rw [← List.map_eq_flatMap]

/-! ### Dilation -/

theorem iterFit_ok {n : Option Nat} {shape : List Nat} {f : IterFitted} (h : iterFit n shape = .ok f) :
    f = ⟨n.getD shape.sum, shape.sum⟩ := by
  unfold iterFit checkDims at h
  by_cases h3 : 3 < shape.length
  · rw [if_pos h3] at h
    cases h
  · rw [if_neg h3] at h
    cases h
    rfl

/-- Shared core of C61 and C62: values after the final `X - 1` and masking. -/
theorem dilated_value {shape : List Nat} (hne : shape ≠ []) {n : Option Nat} {x : Img K} (hx : IsBinary shape x)
    {p : List Nat} (hp : IsPixel shape p) :
    let y := (List.range' 1 (min (n.getD shape.sum) shape.sum + 1 - 1)).foldl (pass shape (1 : K)) x
    let v := if y p = 0 then ((shape.sum : Nat) : K) else y p - 1
    (∀ d, IsGridDist shape (fun q => x q = 1) p d → (∀ N, n = some N → d ≤ N) → v = (d : K)) ∧
      ((∀ d, IsGridDist shape (fun q => x q = 1) p d → ∃ N, n = some N ∧ N < d) → v = ((shape.sum : Nat) : K)) := by
  classical
  intro y v
  have hR : Reached shape (1 : K) (fun p => x p = 1) (min (n.getD shape.sum) shape.sum) y := dilate_reached shape 1 zero_le_one x hx _ _
  constructor
  · intro d hg hN
    have hlt : d < shape.sum := by
      obtain ⟨⟨q, hq, _, rfl⟩, _⟩ := hg
      exact manhattan_lt_sum hne hp hq
    have hd : d ≤ min (n.getD shape.sum) shape.sum := by
      cases n with
      | none => simp; omega
      | some N => have := hN N rfl; simp; omega
    by_cases hA : x p = 1
    · have h0 : d = 0 := by
        have h1 := hg.2 p hp hA
        rw [manhattan_self] at h1
        omega
      have hy := hR.active p hp hA
      subst h0
      simp [v, hy]
    · have hy := hR.reached p hp hA d hd hg
      have : y p ≠ 0 := by
        rw [hy]
        positivity
      simp only [v, if_neg this, hy]
      ring
  · intro hno
    have hw : ¬ Within shape (fun p => x p = 1) (min (n.getD shape.sum) shape.sum) p := by
      intro hw
      obtain ⟨d, hd, hg⟩ := exists_gridDist hw
      obtain ⟨N, rfl, hN⟩ := hno d hg
      simp at hd
      omega
    simp only [v, if_pos (hR.other p hp hw)]

/-- **C61** DilationFiltration, fitted on images of some shape with `n_iterations` (or `None`, no limit): at every pixel `p` of every binary image `x` of the
collection, if `d` is the Manhattan distance of `p` to the nearest active pixel and does not exceed `n_iterations` the value is `d`; if no active pixel lies
within `n_iterations` (or there is none at all) the value is `max_value_`. -/
theorem C61_dilation (shape : List Nat) (hne : shape ≠ []) (n : Option Nat) (f : IterFitted) (hf : iterFit n shape = .ok f)
    (nJobs : Nat) (hn : 1 ≤ nJobs) (X : List (Img K)) (i : Nat) (x : Img K) (hi : X[i]? = some x) (hx : IsBinary shape x) :
    ∃ y, (dilationTransform f nJobs shape X)[i]? = some y ∧ ∀ p, IsPixel shape p →
      (∀ d, IsGridDist shape (fun q => x q = 1) p d → (∀ N, n = some N → d ≤ N) → y p = (d : K)) ∧
      ((∀ d, IsGridDist shape (fun q => x q = 1) p d → ∃ N, n = some N ∧ N < d) → y p = (f.maxValue : K)) := by
  have hF : calcDilation (K := K) f shape = List.map _ := funext (calcDilation_eq f shape)
  unfold dilationTransform
  rw [hF, Gtda.Props.C17_njobs_map _ nJobs hn, List.getElem?_map, hi]
  refine ⟨_, rfl, ?_⟩
  intro p hp
  rw [iterFit_ok hf]
  exact dilated_value hne hx hp

/-- **C61** `max_value_` exceeds every distance between pixels of the image, so it is never mistaken for a distance. -/
theorem C61_max_value (shape : List Nat) (hne : shape ≠ []) (n : Option Nat) (f : IterFitted) (hf : iterFit n shape = .ok f)
    (A : List Nat → Prop) (p : List Nat) (hp : IsPixel shape p) (d : Nat) (hd : IsGridDist shape A p d) : d < f.maxValue := by
  rw [iterFit_ok hf]
  obtain ⟨⟨q, hq, _, rfl⟩, _⟩ := hd
  exact manhattan_lt_sum hne hp hq

/-- **C61** the distance to the nearest active pixel changes by at most 1 between neighbours, is 0 exactly on active pixels, and exists as soon as the
image has an active pixel. -/
theorem C61_distance_facts (shape : List Nat) (A : List Nat → Prop) (p : List Nat) (hp : IsPixel shape p) :
    (A p ↔ IsGridDist shape A p 0) ∧
    ((∃ q, IsPixel shape q ∧ A q) → ∃ d, IsGridDist shape A p d) ∧
    ∀ q, IsPixel shape q → Neighbours p q → ∀ d e, IsGridDist shape A p d → IsGridDist shape A q e → d ≤ e + 1 ∧ e ≤ d + 1 := by
  refine ⟨⟨?_, ?_⟩, ?_, ?_⟩
  · intro h
    exact ⟨⟨p, hp, h, manhattan_self p⟩, fun _ _ _ => Nat.zero_le _⟩
  · rintro ⟨⟨q, hq, hA, h0⟩, _⟩
    rwa [manhattan_eq_zero (by rw [pixel_length hp, pixel_length hq]) h0]
  · rintro ⟨q, hq, hA⟩
    obtain ⟨d, _, hd⟩ := exists_gridDist (k := manhattan p q) ⟨q, hq, hA, le_rfl⟩
    exact ⟨d, hd⟩
  · rintro q hq ⟨hl, h1⟩ d e hd he
    obtain ⟨⟨a, ha, hAa, rfl⟩, hmd⟩ := hd
    obtain ⟨⟨b, hb, hAb, rfl⟩, hme⟩ := he
    have t1 := manhattan_triangle (p := p) (q := q) (r := b) hl (by rw [pixel_length hq, pixel_length hb])
    have t2 := manhattan_triangle (p := q) (q := p) (r := a) hl.symm (by rw [pixel_length hp, pixel_length ha])
    rw [manhattan_comm q p] at t2
    have h2 := hmd b hb hAb
    have h3 := hme a ha hAa
    omega

/-! ### Erosion -/

/-- **C62** ErosionFiltration: Manhattan distance to the nearest *inactive* pixel within `n_iterations`, `max_value_` otherwise. -/
theorem C62_erosion (shape : List Nat) (hne : shape ≠ []) (n : Option Nat) (f : IterFitted) (hf : iterFit n shape = .ok f)
    (nJobs : Nat) (hn : 1 ≤ nJobs) (X : List (Img K)) (i : Nat) (x : Img K) (hi : X[i]? = some x) :
    ∃ y, (erosionTransform f nJobs shape X)[i]? = some y ∧ ∀ p, IsPixel shape p →
      (∀ d, IsGridDist shape (fun q => x q = 0) p d → (∀ N, n = some N → d ≤ N) → y p = (d : K)) ∧
      ((∀ d, IsGridDist shape (fun q => x q = 0) p d → ∃ N, n = some N ∧ N < d) → y p = (f.maxValue : K)) := by
  have hF : calcErosion (K := K) f shape = List.map _ := funext (calcErosion_eq f shape)
  unfold erosionTransform
  rw [hF, Gtda.Props.C17_njobs_map _ nJobs hn, List.getElem?_map, hi]
  refine ⟨_, rfl, ?_⟩
  intro p hp
  rw [iterFit_ok hf]
  have h := dilated_value (K := K) hne (n := n) (isBinary_not (x := x)) hp
  have hiff : ∀ q, ((if x q = 0 then (1 : K) else 0) = 1) ↔ x q = 0 := by
    intro q
    split <;> simp [*]
  simp only [hiff] at h
  exact h

/-- **C62** it is DilationFiltration of the inverted images. -/
theorem C62_erosion_is_dilation (f : IterFitted) (nJobs : Nat) (hn : 1 ≤ nJobs) (shape : List Nat) (X : List (Img K)) :
    erosionTransform f nJobs shape X = dilationTransform f nJobs shape (X.map fun x p => if x p = 0 then 1 else 0) := by
  have h1 : calcErosion (K := K) f shape = List.map _ := funext (calcErosion_eq f shape)
  have h2 : calcDilation (K := K) f shape = List.map _ := funext (calcDilation_eq f shape)
  unfold erosionTransform dilationTransform
  rw [h1, h2, Gtda.Props.C17_njobs_map _ nJobs hn, Gtda.Props.C17_njobs_map _ nJobs hn, List.map_map]
  rfl

/-! ### Signed distance -/

/-- **C63** SignedDistanceFiltration: at an active pixel, the Manhattan distance to the nearest inactive pixel minus 1 (`max_value_` if there is none within
`n_iterations`); at an inactive pixel, minus the distance to the nearest active pixel (`-max_value_` if there is none within `n_iterations`). -/
theorem C63_signed_distance (shape : List Nat) (hne : shape ≠ []) (n : Option Nat) (f : IterFitted) (hf : iterFit n shape = .ok f)
    (nJobs : Nat) (hn : 1 ≤ nJobs) (X : List (Img K)) (i : Nat) (x : Img K) (hi : X[i]? = some x) (hx : IsBinary shape x) :
    ∃ y, (signedDistanceTransform f nJobs shape X)[i]? = some y ∧ ∀ p, IsPixel shape p →
      (x p = 1 →
        (∀ d, IsGridDist shape (fun q => x q = 0) p d → (∀ N, n = some N → d ≤ N) → y p = (d : K) - 1) ∧
        ((∀ d, IsGridDist shape (fun q => x q = 0) p d → ∃ N, n = some N ∧ N < d) → y p = (f.maxValue : K))) ∧
      (x p = 0 →
        (∀ d, IsGridDist shape (fun q => x q = 1) p d → (∀ N, n = some N → d ≤ N) → y p = -(d : K)) ∧
        ((∀ d, IsGridDist shape (fun q => x q = 1) p d → ∃ N, n = some N ∧ N < d) → y p = -(f.maxValue : K))) := by
  classical
  have hF : calcSignedDistance (K := K) f shape = List.map _ := funext (calcSignedDistance_eq f shape)
  unfold signedDistanceTransform
  rw [hF, Gtda.Props.C17_njobs_map _ nJobs hn, List.getElem?_map, hi]
  refine ⟨_, rfl, ?_⟩
  intro p hp
  rw [iterFit_ok hf]
  dsimp only
  set M := min (n.getD shape.sum) shape.sum with hM
  set z : Img K := fun p => if x p = 0 then (1 : K) else 0 with hz
  have hzb : IsBinary shape z := isBinary_not
  have hziff : ∀ q, z q = 1 ↔ x q = 0 := by
    intro q
    simp only [hz]
    split <;> simp [*]
  have hRd : Reached shape (0 : K) (fun p => x p = 1) M ((List.range' 1 (M + 1 - 1)).foldl (pass shape 0) x) :=
    dilate_reached shape 0 le_rfl x hx _ _
  have hRe : Reached shape (0 : K) (fun p => x p = 0) M ((List.range' 0 (M + 1 - 0)).foldl (pass shape 0) z) := by
    have h0 := dilate_reached shape (0 : K) le_rfl z hzb (n.getD shape.sum) shape.sum
    simp only [hziff, ← hM] at h0
    rw [show M + 1 - 0 = M + 1 from rfl, List.range'_succ, List.foldl_cons, pass_zero hzb]
    exact h0
  set yd := (List.range' 1 (M + 1 - 1)).foldl (pass shape (0 : K)) x with hyd
  set ye := (List.range' 0 (M + 1 - 0)).foldl (pass shape (0 : K)) z with hye
  have hle : ∀ (A : List Nat → Prop) (d : Nat), IsGridDist shape A p d → (∀ N, n = some N → d ≤ N) → d ≤ M := by
    intro A d hg hN
    have hlt : d < shape.sum := by
      obtain ⟨⟨q, hq, _, rfl⟩, _⟩ := hg
      exact manhattan_lt_sum hne hp hq
    rw [hM]
    cases n with
    | none => simp; omega
    | some N => have := hN N rfl; simp; omega
  have hnw : ∀ (A : List Nat → Prop), (∀ d, IsGridDist shape A p d → ∃ N, n = some N ∧ N < d) → ¬ Within shape A M p := by
    intro A hno hw
    obtain ⟨d, hd, hg⟩ := exists_gridDist hw
    obtain ⟨N, rfl, hN⟩ := hno d hg
    simp [hM] at hd
    omega
  constructor
  · intro h1
    have hx0 : ¬ x p = 0 := by rw [h1]; exact one_ne_zero
    have hd1 : yd p = 1 := hRd.active p hp h1
    constructor
    · intro d hg hN
      have he := hRe.reached p hp hx0 d (hle _ d hg hN) hg
      have hdpos : (d : K) ≠ 0 := by exact_mod_cast (gridDist_pos hp hx0 hg).ne'
      simp only [add_zero] at he
      unfold signedPixel
      simp [h1, hd1, he, hdpos]
    · intro hno
      have he := hRe.other p hp (hnw _ hno)
      unfold signedPixel
      simp [h1, hd1, he]
  · intro h0
    have hx1 : ¬ x p = 1 := by rw [h0]; exact zero_ne_one
    have he1 : ye p = 1 := hRe.active p hp h0
    constructor
    · intro d hg hN
      have hd := hRd.reached p hp hx1 d (hle _ d hg hN) hg
      have hdpos : (d : K) ≠ 0 := by exact_mod_cast (gridDist_pos hp hx1 hg).ne'
      simp only [add_zero] at hd
      unfold signedPixel
      simp [h0, hd, he1, hdpos]
    · intro hno
      have hd := hRd.other p hp (hnw _ hno)
      unfold signedPixel
      simp [h0, hd, he1]

/-! ### A concrete collection -/

section Example

/-- A 3×4 image with one active corner pixel and one active pixel at the right border. -/
def exA : Img ℚ := fun p => if p = [0, 0] ∨ p = [1, 3] then 1 else 0
/-- A 3×4 image with all pixels active but one. -/
def exB : Img ℚ := fun p => if p = [2, 2] then 0 else 1
/-- An image without active pixels. -/
def exC : Img ℚ := fun _ => 0

example : iterFit (some 2) [3, 4] = .ok ⟨2, 7⟩ := rfl
example : iterFit none [3, 4] = .ok ⟨7, 7⟩ := rfl
example : IsBinary [3, 4] exA := fun p _ => by unfold exA; split <;> simp
example : IsPixel [3, 4] [2, 1] ∧ IsPixel [3, 4] [2, 3] := by
  refine ⟨?_, ?_⟩ <;> exact .cons (by decide) (.cons (by decide) .nil)

/-- Dilation of the first image: pixel `(2, 3)` is one step from `(1, 3)`, pixel `(2, 0)` two steps from `(0, 0)`, pixel `(2, 1)` three steps (beyond two
iterations); an image without active pixels is `max_value_` everywhere. -/
example : ((dilationTransform ⟨2, 7⟩ 2 [3, 4] [exA, exB, exC]).map fun y => (y [2, 3], y [2, 0], y [2, 1], y [0, 0])) =
    [(1, 2, 7, 0), (0, 0, 0, 0), (7, 7, 7, 7)] := by decide +kernel

example : ((erosionTransform ⟨2, 7⟩ 2 [3, 4] [exA, exB]).map fun y => (y [0, 0], y [2, 2], y [1, 1], y [0, 2])) = [(1, 0, 0, 0), (7, 0, 2, 2)] := by
  decide +kernel

example : ((signedDistanceTransform ⟨2, 7⟩ 1 [3, 4] [exA, exB]).map fun y => (y [0, 0], y [2, 2], y [1, 1], y [0, 0])) =
    [(0, -2, -2, 0), (7, -1, 1, 7)] := by decide +kernel

end Example

end Gtda.Images
