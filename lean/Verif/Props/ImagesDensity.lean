import Mathlib.Tactic.Linarith
import Mathlib.Tactic.Ring
import Mathlib.Data.Set.Card
import Mathlib.Data.List.ProdSigma
import Mathlib.Analysis.Real.Sqrt
import Mathlib.Algebra.Order.Floor.Ring
import Verif.Props.ImagesMesh

set_option autoImplicit false
set_option linter.unusedSectionVars false

/-!
# C64: DensityFiltration counts the active pixels in a ball
-/

namespace Gtda.Images
open Gtda.Py Gtda.Parallel Gtda.Spec.Images

variable {K : Type} [Field K] [LinearOrder K] [IsStrictOrderedRing K]

/-! ### Cropping -/

theorem cropAxis_eq (s d : Nat) (hs : 1 ≤ s) : cropAxis s (s + d + s) = (List.range d).map fun i => s + i := by
  unfold cropAxis
  have hcast : sliceStop ((List.range (s + d + s)).length : Int) 1 (some (-(s : Int))) = sliceStop ((List.range (s + d + s)).length : Int) 1 (some ((s + d : Nat) : Int)) := by
    simp only [sliceStop, adjustBound, List.length_range]
    split <;> split <;> (try split) <;> (try split) <;> (try split) <;> push_cast at * <;> omega
  have h1 : pySlice (some (s : Int)) (some (-(s : Int))) 1 (List.range (s + d + s)) =
      pySlice (some (s : Int)) (some ((s + d : Nat) : Int)) 1 (List.range (s + d + s)) := by
    simp only [pySlice, hcast]
  rw [h1, Gtda.Props.pySlice_block _ _ _ (by omega) (by simp)]
  apply List.ext_getElem
  · simp
  · intro i h2 h3
    simp

theorem cropAxis_getD {s d i : Nat} (hs : 1 ≤ s) (hi : i < d) : (cropAxis s (s + d + s)).getD i 0 = s + i := by
  rw [cropAxis_eq s d hs]
  simp [List.getD, hi]

/-! ### Iterator -/

theorem mem_symRange {s : Nat} {i : Int} : i ∈ symRange s ↔ -(s : Int) ≤ i ∧ i ≤ s := by
  unfold symRange
  rw [List.mem_map]
  constructor
  · rintro ⟨a, ha, rfl⟩
    rw [List.mem_range] at ha
    omega
  · rintro ⟨h1, h2⟩
    exact ⟨(i + s).toNat, by rw [List.mem_range]; omega, by omega⟩

theorem symRange_nodup (s : Nat) : (symRange s).Nodup := by
  unfold symRange
  apply List.nodup_range.map
  intro a b h
  simp only at h
  omega

/-- The iterator as a product of three ranges. -/
def triples (s t : Nat) : List (Int × Int × Int) := (symRange s).flatMap fun i => (symRange s).flatMap fun j => (symRange t).map fun k => (i, j, k)

theorem mem_triples {s t : Nat} {a : Int × Int × Int} : a ∈ triples s t ↔ a.1 ∈ symRange s ∧ a.2.1 ∈ symRange s ∧ a.2.2 ∈ symRange t := by
  obtain ⟨i, j, k⟩ := a
  simp only [triples, List.mem_flatMap, List.mem_map, Prod.mk.injEq]
  constructor
  · rintro ⟨i', hi, j', hj, k', hk, rfl, rfl, rfl⟩
    exact ⟨hi, hj, hk⟩
  · rintro ⟨hi, hj, hk⟩
    exact ⟨i, hi, j, hj, k, hk, rfl, rfl, rfl⟩

theorem triples_nodup (s t : Nat) : (triples s t).Nodup := by
  have : triples s t = (symRange s).product ((symRange s).product (symRange t)) := by
    simp [triples, List.product, List.map_flatMap, Function.comp_def]
  rw [this]
  exact (symRange_nodup s).product ((symRange_nodup s).product (symRange_nodup t))

/-! ### The sum is a count -/

theorem foldl_add_eq_sum {α : Type} (g : α → K) (l : List α) (a : K) : l.foldl (fun acc t => acc + g t) a = a + (l.map g).sum := by
  induction l generalizing a with
  | nil => simp
  | cons b l ih => rw [List.foldl_cons, ih, List.map_cons, List.sum_cons]; ring

theorem sum_indicator {α : Type} (P : α → Prop) [DecidablePred P] (l : List α) : (l.map fun a => if P a then (1 : K) else 0).sum = ((l.filter fun a => decide (P a)).length : K) := by
  induction l with
  | nil => simp
  | cons b l ih =>
    rw [List.map_cons, List.sum_cons, ih]
    by_cases h : P b
    · simp [h]; ring
    · simp [h]

/-- A duplicate-free list of images under an injective function has as many elements as the set it lists. -/
theorem ncard_of_list {α β : Type} (l : List α) (hl : l.Nodup) (g : α → β) (hg : ∀ a ∈ l, ∀ b ∈ l, g a = g b → a = b) (S : Set β)
    (hS : ∀ q, q ∈ S ↔ ∃ a ∈ l, g a = q) : S.ncard = l.length := by
  classical
  have h1 : S = ((l.map g).toFinset : Set β) := by
    ext q
    simp [hS]
  rw [h1, Set.ncard_coe_finset, List.toFinset_card_of_nodup, List.length_map]
  exact hl.map_on hg

/-- The pixel from which offset `(i, j, k)` brings a value to `(r, c, z)`. -/
def source (r c z : Nat) (a : Int × Int × Int) : Idx := [((r : Int) - a.1).toNat, ((c : Int) - a.2.1).toNat, ((z : Int) - a.2.2).toNat]

theorem roll_pad (s t H W D : Nat) (x : Img K) (r c z : Nat) (hr : r < H) (hc : c < W) (hz : z < D) (a : Int × Int × Int) (ha : a ∈ triples s t) :
    npRoll [s + H + s, s + W + s, t + D + t] 0 a.1 (npRoll [s + H + s, s + W + s, t + D + t] 1 a.2.1 (npRoll [s + H + s, s + W + s, t + D + t] 2 a.2.2
      (npPad [s, s, t] [H, W, D] 0 x))) [s + r, s + c, t + z] =
    if (0 ≤ (r : Int) - a.1 ∧ (r : Int) - a.1 < H) ∧ (0 ≤ (c : Int) - a.2.1 ∧ (c : Int) - a.2.1 < W) ∧ (0 ≤ (z : Int) - a.2.2 ∧ (z : Int) - a.2.2 < D)
    then x (source r c z a) else 0 := by
  obtain ⟨i, j, k⟩ := a
  obtain ⟨h1, h2, h3⟩ := mem_triples.1 ha
  rw [mem_symRange] at h1 h2 h3
  simp only at h1 h2 h3
  have hidx : npRoll [s + H + s, s + W + s, t + D + t] 0 i (npRoll [s + H + s, s + W + s, t + D + t] 1 j (npRoll [s + H + s, s + W + s, t + D + t] 2 k
      (npPad [s, s, t] [H, W, D] 0 x))) [s + r, s + c, t + z] =
      npPad [s, s, t] [H, W, D] 0 x [((s + r : Nat) - i : Int).toNat, ((s + c : Nat) - j : Int).toNat, ((t + z : Nat) - k : Int).toNat] := by
    change npPad [s, s, t] [H, W, D] 0 x [((((s + r : Nat) : Int) - i) % ((s + H + s : Nat) : Int)).toNat,
      ((((s + c : Nat) : Int) - j) % ((s + W + s : Nat) : Int)).toNat, ((((t + z : Nat) : Int) - k) % ((t + D + t : Nat) : Int)).toNat] = _
    rw [Int.emod_eq_of_lt (by push_cast; omega) (by push_cast; omega), Int.emod_eq_of_lt (by push_cast; omega) (by push_cast; omega),
      Int.emod_eq_of_lt (by push_cast; omega) (by push_cast; omega)]
  rw [hidx]
  unfold npPad source
  simp only
  by_cases hin : (0 ≤ (r : Int) - i ∧ (r : Int) - i < H) ∧ (0 ≤ (c : Int) - j ∧ (c : Int) - j < W) ∧ (0 ≤ (z : Int) - k ∧ (z : Int) - k < D)
  · rw [if_pos hin]
    have : unpadIdx [s, s, t] [H, W, D] [((s + r : Nat) - i : Int).toNat, ((s + c : Nat) - j : Int).toNat, ((t + z : Nat) - k : Int).toNat] =
        some [((r : Int) - i).toNat, ((c : Int) - j).toNat, ((z : Int) - k).toNat] := by
      simp only [unpadIdx]
      rw [if_pos (by omega), if_pos (by omega), if_pos (by omega)]
      simp only [Option.map_some]
      congr 2
      · omega
      · congr 1
        · omega
        · congr 1
          omega
    rw [this]
  · rw [if_neg hin]
    have : unpadIdx [s, s, t] [H, W, D] [((s + r : Nat) - i : Int).toNat, ((s + c : Nat) - j : Int).toNat, ((t + z : Nat) - k : Int).toNat] = none := by
      simp only [unpadIdx]
      split
      · split
        · split
          · exact absurd (by omega) hin
          · rfl
        · rfl
      · rfl
    rw [this]

theorem isPixel3 {H W D r c z : Nat} : IsPixel [H, W, D] [r, c, z] ↔ r < H ∧ c < W ∧ z < D := by
  simp [IsPixel]

/-- The core count on 3D arrays padded by `s`, `s`, `t`. -/
theorem density_core (f : DensityFitted) (s t H W D : Nat) (dist : List K → List K → K) (radius : K) (hsize : f.size = s) (hit : f.iterator = triples s t)
    (hts : t ≤ s)
    (hmask : ∀ a b e : Nat, a < 2 * s + 1 → b < 2 * s + 1 → e < 2 * s + 1 → f.mask [a, b, e] = decide (dist [(s : K), s, s] [(b : K), a, e] ≤ radius))
    (hd : IsGridMetric dist radius)
    (hcov : ∀ p q : List Nat, IsPixel [H, W, D] p → IsPixel [H, W, D] q → dist (coords p) (coords q) ≤ radius →
      List.Forall₂ (fun (ab : Nat × Nat) (w : Nat) => |((ab.1 : Nat) : Int) - ab.2| ≤ w) (p.zip q) [s, s, t])
    (x : Img K) (hx : IsBinary [H, W, D] x) (r c z : Nat) (hp : IsPixel [H, W, D] [r, c, z]) :
    calcDensity f [s + H + s, s + W + s, t + D + t] (npPad [s, s, t] [H, W, D] 0 x) [s + r, s + c, t + z] =
      ({q | IsPixel [H, W, D] q ∧ x q = 1 ∧ dist (coords [r, c, z]) (coords q) ≤ radius}.ncard : K) := by
  classical
  obtain ⟨hr, hc, hz⟩ := isPixel3.1 hp
  let P : Int × Int × Int → Prop := fun a =>
    ((0 ≤ (r : Int) - a.1 ∧ (r : Int) - a.1 < H) ∧ (0 ≤ (c : Int) - a.2.1 ∧ (c : Int) - a.2.1 < W) ∧ (0 ≤ (z : Int) - a.2.2 ∧ (z : Int) - a.2.2 < D)) ∧
      x (source r c z a) = 1 ∧ dist (coords [r, c, z]) (coords (source r c z a)) ≤ radius
  have hterm : ∀ a ∈ triples s t,
      npRoll [s + H + s, s + W + s, t + D + t] 0 a.1 (npRoll [s + H + s, s + W + s, t + D + t] 1 a.2.1 (npRoll [s + H + s, s + W + s, t + D + t] 2 a.2.2
        (npPad [s, s, t] [H, W, D] 0 x))) [s + r, s + c, t + z] *
        (if f.mask [((f.size : Int) + a.1).toNat, ((f.size : Int) + a.2.1).toNat, ((f.size : Int) + a.2.2).toNat] then (1 : K) else 0) =
      if P a then (1 : K) else 0 := by
    intro a ha
    rw [roll_pad s t H W D x r c z hr hc hz a ha]
    obtain ⟨h1, h2, h3⟩ := mem_triples.1 ha
    rw [mem_symRange] at h1 h2 h3
    by_cases hin : (0 ≤ (r : Int) - a.1 ∧ (r : Int) - a.1 < H) ∧ (0 ≤ (c : Int) - a.2.1 ∧ (c : Int) - a.2.1 < W) ∧ (0 ≤ (z : Int) - a.2.2 ∧ (z : Int) - a.2.2 < D)
    · rw [if_pos hin]
      have hpix : IsPixel [H, W, D] (source r c z a) := by
        unfold source
        rw [isPixel3]
        omega
      have hm : f.mask [((f.size : Int) + a.1).toNat, ((f.size : Int) + a.2.1).toNat, ((f.size : Int) + a.2.2).toNat] = true ↔
          dist (coords [r, c, z]) (coords (source r c z a)) ≤ radius := by
        rw [hsize, hmask _ _ _ (by omega) (by omega) (by omega), decide_eq_true_iff]
        have htr := hd.translate [(s : K), s, s] [((((s : Int) + a.2.1).toNat : Nat) : K), (((s : Int) + a.1).toNat : Nat), (((s : Int) + a.2.2).toNat : Nat)]
          [((((c : Int) - a.2.1).toNat : Nat) : K) - s, ((((r : Int) - a.1).toNat : Nat) : K) - s, ((((z : Int) - a.2.2).toNat : Nat) : K) - s] rfl rfl rfl
        have e1 : ∀ (u v : Nat) (o : Int), -(s : Int) ≤ o → 0 ≤ (u : Int) - o → (((((s : Int) + o).toNat : Nat) : K) + (((((u : Int) - o).toNat : Nat) : K) - s)) = (u : K) := by
          intro u _ o ho hu
          have h4 : ((s : Int) + o).toNat + ((u : Int) - o).toNat = u + s := by omega
          have h5 : ((((s : Int) + o).toNat : Nat) : K) + ((((u : Int) - o).toNat : Nat) : K) = (u : K) + (s : K) := by exact_mod_cast h4
          linarith
        simp only [List.zipWith_cons_cons, List.zipWith_nil_left] at htr
        rw [e1 c 0 _ h2.1 hin.2.1.1, e1 r 0 _ h1.1 hin.1.1, e1 z 0 _ (by omega) hin.2.2.1] at htr
        have e2 : ∀ v : K, (s : K) + (v - s) = v := by intro v; ring
        simp only [e2] at htr
        rw [← htr, hd.symm _ _ rfl rfl]
        rfl
      by_cases hmv : dist (coords [r, c, z]) (coords (source r c z a)) ≤ radius
      · rw [if_pos (hm.2 hmv), mul_one]
        rcases hx _ hpix with h0 | h1'
        · have hPno : ¬ P a := by
            rintro ⟨_, h4, _⟩
            rw [h0] at h4
            exact zero_ne_one h4
          rw [if_neg hPno, h0]
        · have hPyes : P a := ⟨hin, h1', hmv⟩
          rw [if_pos hPyes, h1']
      · rw [if_neg (fun h => hmv (hm.1 h)), mul_zero, if_neg]
        exact fun h => hmv h.2.2
    · rw [if_neg hin, zero_mul, if_neg]
      exact fun h => hin h.1
  unfold calcDensity
  rw [foldl_add_eq_sum, zero_add, hit, List.map_congr_left hterm, sum_indicator]
  norm_cast
  symm
  apply ncard_of_list _ ((triples_nodup s t).filter _) (source r c z)
  · intro a ha b hb hab
    rw [List.mem_filter, decide_eq_true_iff] at ha hb
    obtain ⟨i, j, k⟩ := a
    obtain ⟨i', j', k'⟩ := b
    obtain ⟨_, ⟨hA, _⟩⟩ := ha
    obtain ⟨_, ⟨hB, _⟩⟩ := hb
    simp only at hA hB
    simp only [source, List.cons.injEq, and_true] at hab
    obtain ⟨h1, h2, h3⟩ := hab
    have : i = i' := by omega
    have : j = j' := by omega
    have : k = k' := by omega
    subst_vars
    rfl
  · intro q
    simp only [Set.mem_setOf_eq, List.mem_filter, decide_eq_true_iff]
    constructor
    · rintro ⟨hq, hxq, hdq⟩
      have hcv := hcov _ _ hp hq hdq
      obtain ⟨r', c', z', rfl⟩ := List.length_eq_three.1 (pixel_length hq)
      obtain ⟨hr', hc', hz'⟩ := isPixel3.1 hq
      have hs' : source r c z ((r : Int) - r', (c : Int) - c', (z : Int) - z') = [r', c', z'] := by
        simp only [source]
        congr 1
        · omega
        · congr 1
          · omega
          · congr 1
            omega
      simp only [List.zip_cons_cons, List.zip_nil_right, List.forall₂_cons, abs_le, and_true, List.Forall₂.nil] at hcv
      refine ⟨((r : Int) - r', (c : Int) - c', (z : Int) - z'), ⟨?_, ?_⟩, hs'⟩
      · rw [mem_triples, mem_symRange, mem_symRange, mem_symRange]
        simp only
        omega
      · refine ⟨by simp only; omega, ?_, ?_⟩
        · rw [hs']; exact hxq
        · rw [hs']; exact hdq
    · rintro ⟨a, ⟨ha, hP⟩, rfl⟩
      obtain ⟨hin, h1, h2⟩ := hP
      refine ⟨?_, h1, h2⟩
      unfold source
      rw [isPixel3]
      omega

/-! ### fit -/

theorem arange_getD' {d i : Nat} (h : i < d) : (arange (K := K) d).getD i 0 = i := arange_getD h

/-- Facts about a fitted density filtration. -/
theorem densityFit_ok [FloorRing K] (shape : List Nat) (hs : shape.length = 2 ∨ shape.length = 3) (radius : K) (dist : List K → List K → K) :
    ∃ f, densityFit shape radius dist = .ok f ∧ f.nDims = shape.length ∧ f.size = ⌈dist [0] [radius]⌉.toNat ∧
      f.iterator = triples f.size (if shape.length = 2 then 0 else f.size) ∧
      f.padding = [(f.size : Int), f.size, if shape.length = 2 then 0 else f.size] ∧
      ∀ a b e : Nat, a < 2 * f.size + 1 → b < 2 * f.size + 1 → e < 2 * f.size + 1 →
        f.mask [a, b, e] = decide (dist [(f.size : K), f.size, f.size] [(b : K), a, e] ≤ radius) := by
  have hmesh : ∀ s a b e : Nat, a < 2 * s + 1 → b < 2 * s + 1 → e < 2 * s + 1 →
      meshgridXY (List.replicate 3 (arange (K := K) (2 * s + 1))) [a, b, e] = [(b : K), a, e] := by
    intro s a b e ha hb he
    change [(arange (K := K) (2 * s + 1)).getD b 0, (arange (K := K) (2 * s + 1)).getD a 0, (arange (K := K) (2 * s + 1)).getD e 0] = _
    rw [arange_getD hb, arange_getD ha, arange_getD he]
  set s := ⌈dist [0] [radius]⌉.toNat with hsdef
  rcases hs with hs | hs
  · obtain ⟨H, W, rfl⟩ := List.length_eq_two.1 hs
    refine ⟨⟨2, s, fun q => decide (dist (List.replicate 3 (s : K)) (meshgridXY (List.replicate 3 (arange (2 * s + 1))) q) ≤ radius),
      triples s 0, [(s : Int), s, 0]⟩, ?_, rfl, rfl, rfl, rfl, ?_⟩
    · unfold densityFit
      rw [checkDims_ok (by simp)]
      rfl
    · intro a b e ha hb he
      simp only [hmesh s a b e ha hb he]
      rfl
  · obtain ⟨H, W, D, rfl⟩ := List.length_eq_three.1 hs
    refine ⟨⟨3, s, fun q => decide (dist (List.replicate 3 (s : K)) (meshgridXY (List.replicate 3 (arange (2 * s + 1))) q) ≤ radius),
      triples s s, [(s : Int), s, s]⟩, ?_, rfl, rfl, rfl, rfl, ?_⟩
    · unfold densityFit
      rw [checkDims_ok (by simp)]
      rfl
    · intro a b e ha hb he
      simp only [hmesh s a b e ha hb he]
      rfl

/-! ### transform -/

theorem padderTransform_eq [FloorRing K] (s t : Nat) (nJobs : Nat) (hn : 1 ≤ nJobs) (shape : List Nat) (X : List (Img K)) :
    padderTransform .float [(s : Int), s, t] (0 : K) nJobs shape X = .ok (padShape [s, s, t] shape, X.map (npPad [s, s, t] shape 0)) := by
  unfold padderTransform
  have hneg : ([(s : Int), s, t].any fun x => decide (x < 0)) = false := by
    simp
  rw [hneg]
  simp only [Bool.false_eq_true, if_false, Gtda.Props.C17_njobs_map _ nJobs hn, List.map_cons, List.map_nil, Int.toNat_natCast, castTo]
  rfl

/-- **C64** DensityFiltration on 2D or 3D binary images with a finite radius and a metric that is symmetric, translation invariant and not smaller than the coordinate
differences within the radius: `fit` and `transform` succeed and every pixel gets the number of active pixels of its image at distance at most `radius` – in particular
nothing is counted across the borders. -/
theorem C64_density [FloorRing K] (shape : List Nat) (hs : shape.length = 2 ∨ shape.length = 3) (radius : K) (dist : List K → List K → K)
    (hd : IsGridMetric dist radius) :
    ∃ f, densityFit shape radius dist = .ok f ∧ ∀ (nJobs : Nat), 1 ≤ nJobs → ∀ X : List (Img K), ∃ Y, densityTransform f nJobs shape X = .ok Y ∧ Y.length = X.length ∧
      ∀ (i : Nat) x, X[i]? = some x → IsBinary shape x → ∃ y, Y[i]? = some y ∧ ∀ p, IsPixel shape p →
        y p = ({q | IsPixel shape q ∧ x q = 1 ∧ dist (coords3 p) (coords3 q) ≤ radius}.ncard : K) := by
  obtain ⟨f, hf, hnd, hsz, hit, hpad, hmask⟩ := densityFit_ok shape hs radius dist
  refine ⟨f, hf, ?_⟩
  intro nJobs hn X
  have hs1 : 1 ≤ f.size := by
    rw [hsz]
    have := Int.ceil_pos.2 hd.pos
    omega
  have hwidth : ∀ u v : Nat, |(u : K) - v| ≤ dist [0] [radius] → |(u : Int) - v| ≤ f.size := by
    intro u v h
    have h1 : ((|(u : Int) - v| : Int) : K) ≤ dist [0] [radius] := by push_cast; exact h
    have h2 : ((|(u : Int) - v| : Int) : K) ≤ ((⌈dist [0] [radius]⌉ : Int) : K) := h1.trans (Int.le_ceil _)
    have h3 : |(u : Int) - v| ≤ ⌈dist [0] [radius]⌉ := by exact_mod_cast h2
    rw [hsz]
    exact h3.trans (Int.self_le_toNat _)
  rcases hs with hs | hs
  · obtain ⟨H, W, rfl⟩ := List.length_eq_two.1 hs
    simp only [List.length_cons, List.length_nil, Nat.zero_add, Nat.reduceAdd, if_true] at hit hpad hnd
    have hcov : ∀ p q : List Nat, IsPixel [H, W, 1] p → IsPixel [H, W, 1] q → dist (coords p) (coords q) ≤ radius →
        List.Forall₂ (fun (ab : Nat × Nat) (w : Nat) => |((ab.1 : Nat) : Int) - ab.2| ≤ w) (p.zip q) [f.size, f.size, 0] := by
      intro p q hp hq h
      obtain ⟨r, c, z, rfl⟩ := List.length_eq_three.1 (pixel_length hp)
      obtain ⟨r', c', z', rfl⟩ := List.length_eq_three.1 (pixel_length hq)
      obtain ⟨_, _, hz⟩ := isPixel3.1 hp
      obtain ⟨_, _, hz'⟩ := isPixel3.1 hq
      have hco := hd.coordinate _ _ rfl rfl h
      simp only [coords, List.map_cons, List.map_nil, List.forall₂_cons, List.Forall₂.nil, and_true] at hco
      have hzz : z = z' := by omega
      subst hzz
      exact .cons (hwidth _ _ hco.2.1) (.cons (hwidth _ _ hco.1) (.cons (by simp) .nil))
    let X3 : List (Img K) := X.map fun x q => x (q.take 2)
    let Y : List (Img K) := X3.map fun x3 p =>
      crop 2 f.size [f.size + H + f.size, f.size + W + f.size, 0 + 1 + 0]
        (calcDensity f [f.size + H + f.size, f.size + W + f.size, 0 + 1 + 0] (npPad [f.size, f.size, 0] [H, W, 1] 0 x3)) (p ++ List.replicate 1 0)
    refine ⟨Y, ?_, by simp [Y, X3], ?_⟩
    · unfold densityTransform
      rw [hpad, hnd]
      have hp0 := padderTransform_eq (K := K) f.size 0 nJobs hn [H, W, 1] X3
      simp only [Nat.cast_zero] at hp0
      change (padderTransform Dtype.float [(f.size : Int), f.size, 0] (0 : K) nJobs [H, W, 1] X3 >>= fun r => _) = _
      rw [hp0]
      have hsh : (cropShape 2 f.size (padShape [f.size, f.size, 0] [H, W, 1])).foldl (· * ·) 1 = [H, W].foldl (· * ·) 1 := by
        simp [cropShape, padShape, cropAxis_eq _ _ hs1]
      simp only [bind, Except.bind, Gtda.Props.C17_njobs_map _ nJobs hn, hsh]
      rw [if_neg (by simp)]
      simp only [List.map_map]
      rfl
    · intro i x hi hx
      refine ⟨_, by simp only [Y, X3, List.getElem?_map, hi]; rfl, ?_⟩
      intro p hp
      obtain ⟨r, c, rfl⟩ := List.length_eq_two.1 (pixel_length hp)
      have hrc : r < H ∧ c < W := by simpa [IsPixel] using hp
      have hcrop : ∀ g : Img K, crop 2 f.size [f.size + H + f.size, f.size + W + f.size, 0 + 1 + 0] g ([r, c] ++ List.replicate 1 0) =
          g [f.size + r, f.size + c, 0 + 0] := by
        intro g
        change g [(cropAxis f.size (f.size + H + f.size)).getD r 0, (cropAxis f.size (f.size + W + f.size)).getD c 0, 0] = _
        rw [cropAxis_getD hs1 hrc.1, cropAxis_getD hs1 hrc.2]
      beta_reduce
      rw [hcrop]
      have hx3 : IsBinary [H, W, 1] (fun q : Idx => x (q.take 2)) := by
        intro q hq
        obtain ⟨r', c', z', rfl⟩ := List.length_eq_three.1 (pixel_length hq)
        obtain ⟨h1, h2, _⟩ := isPixel3.1 hq
        exact hx [r', c'] (by simp [IsPixel, h1, h2])
      rw [density_core f f.size 0 H W 1 dist radius rfl hit (by omega) hmask hd hcov _ hx3 r c 0 (isPixel3.2 ⟨hrc.1, hrc.2, by omega⟩)]
      norm_cast
      refine Set.ncard_congr (fun q _ => q.take 2) ?_ ?_ ?_
      · rintro q ⟨hq, hxq, hdq⟩
        obtain ⟨r', c', z', rfl⟩ := List.length_eq_three.1 (pixel_length hq)
        obtain ⟨h1, h2, h3⟩ := isPixel3.1 hq
        have : z' = 0 := by omega
        subst this
        refine ⟨by simp [IsPixel, h1, h2], hxq, ?_⟩
        simpa [coords3, coords] using hdq
      · rintro q q' ⟨hq, _⟩ ⟨hq', _⟩ h
        obtain ⟨r', c', z', rfl⟩ := List.length_eq_three.1 (pixel_length hq)
        obtain ⟨r2, c2, z2, rfl⟩ := List.length_eq_three.1 (pixel_length hq')
        obtain ⟨_, _, h3⟩ := isPixel3.1 hq
        obtain ⟨_, _, h3'⟩ := isPixel3.1 hq'
        simp only [List.take_succ_cons, List.take_zero, List.cons.injEq, and_true] at h ⊢
        omega
      · rintro q ⟨hq, hxq, hdq⟩
        obtain ⟨r', c', rfl⟩ := List.length_eq_two.1 (pixel_length hq)
        have hrc' : r' < H ∧ c' < W := by simpa [IsPixel] using hq
        refine ⟨[r', c', 0], ⟨isPixel3.2 ⟨hrc'.1, hrc'.2, by omega⟩, hxq, ?_⟩, rfl⟩
        simpa [coords3, coords] using hdq
  · obtain ⟨H, W, D, rfl⟩ := List.length_eq_three.1 hs
    simp only [List.length_cons, List.length_nil, Nat.zero_add, Nat.reduceAdd, Nat.reduceEqDiff, if_false] at hit hpad hnd
    have hcov : ∀ p q : List Nat, IsPixel [H, W, D] p → IsPixel [H, W, D] q → dist (coords p) (coords q) ≤ radius →
        List.Forall₂ (fun (ab : Nat × Nat) (w : Nat) => |((ab.1 : Nat) : Int) - ab.2| ≤ w) (p.zip q) [f.size, f.size, f.size] := by
      intro p q hp hq h
      obtain ⟨r, c, z, rfl⟩ := List.length_eq_three.1 (pixel_length hp)
      obtain ⟨r', c', z', rfl⟩ := List.length_eq_three.1 (pixel_length hq)
      have hco := hd.coordinate _ _ rfl rfl h
      simp only [coords, List.map_cons, List.map_nil, List.forall₂_cons, List.Forall₂.nil, and_true] at hco
      exact .cons (hwidth _ _ hco.2.1) (.cons (hwidth _ _ hco.1) (.cons (hwidth _ _ hco.2.2) .nil))
    let X3 : List (Img K) := X.map fun x q => x (q.take 3)
    let Y : List (Img K) := X3.map fun x3 p =>
      crop 3 f.size [f.size + H + f.size, f.size + W + f.size, f.size + D + f.size]
        (calcDensity f [f.size + H + f.size, f.size + W + f.size, f.size + D + f.size] (npPad [f.size, f.size, f.size] [H, W, D] 0 x3)) (p ++ List.replicate 0 0)
    refine ⟨Y, ?_, by simp [Y, X3], ?_⟩
    · unfold densityTransform
      rw [hpad, hnd]
      have hp0 := padderTransform_eq (K := K) f.size f.size nJobs hn [H, W, 1 * D] X3
      change (padderTransform Dtype.float [(f.size : Int), f.size, f.size] (0 : K) nJobs [H, W, 1 * D] X3 >>= fun r => _) = _
      rw [hp0]
      have h1D : 1 * D = D := Nat.one_mul D
      rw [h1D]
      have hsh : (cropShape 3 f.size (padShape [f.size, f.size, f.size] [H, W, D])).foldl (· * ·) 1 = [H, W, D].foldl (· * ·) 1 := by
        simp [cropShape, padShape, cropAxis_eq _ _ hs1]
      simp only [bind, Except.bind, Gtda.Props.C17_njobs_map _ nJobs hn, hsh]
      rw [if_neg (by simp)]
      simp only [List.map_map]
      rfl
    · intro i x hi hx
      refine ⟨_, by simp only [Y, X3, List.getElem?_map, hi]; rfl, ?_⟩
      intro p hp
      obtain ⟨r, c, z, rfl⟩ := List.length_eq_three.1 (pixel_length hp)
      obtain ⟨hr, hc, hz⟩ := isPixel3.1 hp
      have hcrop : ∀ g : Img K, crop 3 f.size [f.size + H + f.size, f.size + W + f.size, f.size + D + f.size] g ([r, c, z] ++ List.replicate 0 0) =
          g [f.size + r, f.size + c, f.size + z] := by
        intro g
        change g [(cropAxis f.size (f.size + H + f.size)).getD r 0, (cropAxis f.size (f.size + W + f.size)).getD c 0,
          (cropAxis f.size (f.size + D + f.size)).getD z 0] = _
        rw [cropAxis_getD hs1 hr, cropAxis_getD hs1 hc, cropAxis_getD hs1 hz]
      beta_reduce
      rw [hcrop]
      have hx3 : IsBinary [H, W, D] (fun q : Idx => x (q.take 3)) := by
        intro q hq
        obtain ⟨r', c', z', rfl⟩ := List.length_eq_three.1 (pixel_length hq)
        exact hx [r', c', z'] hq
      rw [density_core f f.size f.size H W D dist radius rfl hit le_rfl hmask hd hcov _ hx3 r c z hp]
      congr 2
      ext q
      simp only [Set.mem_setOf_eq]
      constructor
      · rintro ⟨hq, hxq, hdq⟩
        obtain ⟨r', c', z', rfl⟩ := List.length_eq_three.1 (pixel_length hq)
        exact ⟨hq, hxq, by simpa [coords3, coords] using hdq⟩
      · rintro ⟨hq, hxq, hdq⟩
        obtain ⟨r', c', z', rfl⟩ := List.length_eq_three.1 (pixel_length hq)
        exact ⟨hq, hxq, by simpa [coords3, coords] using hdq⟩

/-! ### Metrics -/

/-- The taxicab metric (`metric='manhattan'`) qualifies for every positive radius. -/
theorem isGridMetric_taxicab (radius : K) (hr : 0 < radius) : IsGridMetric (fun a b : List K => (List.zipWith (fun s t => |s - t|) a b).sum) radius where
  symm := by
    intro a b ha hb
    obtain ⟨a1, a2, a3, rfl⟩ := List.length_eq_three.1 ha
    obtain ⟨b1, b2, b3, rfl⟩ := List.length_eq_three.1 hb
    simp [abs_sub_comm]
  translate := by
    intro a b t ha hb ht
    obtain ⟨a1, a2, a3, rfl⟩ := List.length_eq_three.1 ha
    obtain ⟨b1, b2, b3, rfl⟩ := List.length_eq_three.1 hb
    obtain ⟨t1, t2, t3, rfl⟩ := List.length_eq_three.1 ht
    simp
  coordinate := by
    intro a b ha hb h
    obtain ⟨a1, a2, a3, rfl⟩ := List.length_eq_three.1 ha
    obtain ⟨b1, b2, b3, rfl⟩ := List.length_eq_three.1 hb
    simp only [List.zipWith_cons_cons, List.zipWith_nil_left, List.sum_cons, List.sum_nil, add_zero] at h
    have h1 := abs_nonneg (a1 - b1)
    have h2 := abs_nonneg (a2 - b2)
    have h3 := abs_nonneg (a3 - b3)
    have h0 : (List.zipWith (fun s t : K => |s - t|) [0] [radius]).sum = radius := by simp [abs_of_pos hr]
    simp only [List.forall₂_cons, List.Forall₂.nil, and_true, h0]
    refine ⟨by linarith, by linarith, by linarith⟩
  pos := by simpa using hr.ne'

/-- The Chebyshev metric qualifies for every positive radius. -/
theorem isGridMetric_chebyshev (radius : K) (hr : 0 < radius) : IsGridMetric (fun a b : List K => (List.zipWith (fun s t => |s - t|) a b).foldr max 0) radius where
  symm := by
    intro a b ha hb
    obtain ⟨a1, a2, a3, rfl⟩ := List.length_eq_three.1 ha
    obtain ⟨b1, b2, b3, rfl⟩ := List.length_eq_three.1 hb
    simp [abs_sub_comm]
  translate := by
    intro a b t ha hb ht
    obtain ⟨a1, a2, a3, rfl⟩ := List.length_eq_three.1 ha
    obtain ⟨b1, b2, b3, rfl⟩ := List.length_eq_three.1 hb
    obtain ⟨t1, t2, t3, rfl⟩ := List.length_eq_three.1 ht
    simp
  coordinate := by
    intro a b ha hb h
    obtain ⟨a1, a2, a3, rfl⟩ := List.length_eq_three.1 ha
    obtain ⟨b1, b2, b3, rfl⟩ := List.length_eq_three.1 hb
    simp only [List.zipWith_cons_cons, List.zipWith_nil_left, List.foldr_cons, List.foldr_nil, max_le_iff] at h
    have h0 : (List.zipWith (fun s t : K => |s - t|) [0] [radius]).foldr max 0 = radius := by simp [abs_of_pos hr, hr.le]
    simp only [List.forall₂_cons, List.Forall₂.nil, and_true, h0]
    exact ⟨h.1, h.2.1, h.2.2.1⟩
  pos := by simpa using hr.ne'

/-- The Euclidean metric (the default) qualifies for every positive radius. -/
theorem isGridMetric_euclidean (radius : ℝ) (hr : 0 < radius) :
    IsGridMetric (fun a b : List ℝ => Real.sqrt (List.zipWith (fun s t => (s - t) ^ 2) a b).sum) radius where
  symm := by
    intro a b ha hb
    obtain ⟨a1, a2, a3, rfl⟩ := List.length_eq_three.1 ha
    obtain ⟨b1, b2, b3, rfl⟩ := List.length_eq_three.1 hb
    have hsq : ∀ u v : ℝ, (u - v) ^ 2 = (v - u) ^ 2 := by intro u v; ring
    simp only [List.zipWith_cons_cons, List.zipWith_nil_left, hsq a1 b1, hsq a2 b2, hsq a3 b3]
  translate := by
    intro a b t ha hb ht
    obtain ⟨a1, a2, a3, rfl⟩ := List.length_eq_three.1 ha
    obtain ⟨b1, b2, b3, rfl⟩ := List.length_eq_three.1 hb
    obtain ⟨t1, t2, t3, rfl⟩ := List.length_eq_three.1 ht
    simp
  coordinate := by
    intro a b ha hb h
    obtain ⟨a1, a2, a3, rfl⟩ := List.length_eq_three.1 ha
    obtain ⟨b1, b2, b3, rfl⟩ := List.length_eq_three.1 hb
    have h0 : Real.sqrt (List.zipWith (fun s t : ℝ => (s - t) ^ 2) [0] [radius]).sum = radius := by
      simp [Real.sqrt_sq hr.le]
    simp only [List.forall₂_cons, List.Forall₂.nil, and_true, h0]
    rw [Real.sqrt_le_left hr.le] at h
    simp only [List.zipWith_cons_cons, List.zipWith_nil_left, List.sum_cons, List.sum_nil, add_zero] at h
    have h1 := sq_nonneg (a1 - b1)
    have h2 := sq_nonneg (a2 - b2)
    have h3 := sq_nonneg (a3 - b3)
    refine ⟨abs_le_of_sq_le_sq (by linarith) hr.le, abs_le_of_sq_le_sq (by linarith) hr.le, abs_le_of_sq_le_sq (by linarith) hr.le⟩
  pos := by
    simp only [List.zipWith_cons_cons, List.zipWith_nil_left, List.sum_cons, List.sum_nil, add_zero]
    apply Real.sqrt_pos.2
    rw [zero_sub, neg_sq]
    positivity

/-- Two active pixels at opposite borders of a 1×4 image do not see each other, radius 1. -/
example : ((densityFit (K := ℚ) [1, 4] 1 taxicab) >>= fun f => densityTransform (K := ℚ) f 1 [1, 4] [fun p => if p = [0, 0] ∨ p = [0, 3] ∨ p = [0, 2] then 1 else 0]).map
    (fun Y => Y.map fun y => [y [0, 0], y [0, 1], y [0, 2], y [0, 3]]) = .ok [[1, 2, 2, 2]] := by decide +kernel

/-- **C65** DensityFiltration treats images one by one, whatever the number of jobs. -/
theorem C65_density_batch [FloorRing K] (f : DensityFitted) (nJobs : Nat) (hn : 1 ≤ nJobs) (shape : List Nat) (X : List (Img K)) (Y : List (Img K))
    (h : densityTransform f nJobs shape X = .ok Y) : ∀ (i : Nat) x, X[i]? = some x → ∃ y, densityTransform f 1 shape [x] = .ok [y] ∧ Y[i]? = some y := by
  intro i x hi
  unfold densityTransform padderTransform at h ⊢
  by_cases hneg : (f.padding.any fun x => decide (x < 0)) = true
  · simp only [hneg, if_true] at h
    cases h
  · simp only [hneg, bind, Except.bind, pure, Except.pure, Gtda.Props.C17_njobs_map _ nJobs hn, Gtda.Props.C17_njobs_map _ 1 le_rfl] at h ⊢
    simp only [Bool.false_eq_true, if_false] at h ⊢
    split at h
    · cases h
    · rename_i hsh
      rw [if_neg hsh]
      injection h with h
      refine ⟨_, rfl, ?_⟩
      rw [← h]
      simp [List.getElem?_map, hi]

end Gtda.Images
