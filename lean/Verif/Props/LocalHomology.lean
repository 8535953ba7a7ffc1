import Verif.Model.LocalHomology
import Verif.Lemmas.List
import Mathlib.Tactic.Linarith
import Mathlib.Data.List.Perm.Basic
import Mathlib.Data.List.Nodup
import Mathlib.Data.List.Induction
import Mathlib.Data.Rat.Floor

set_option autoImplicit false
set_option linter.unusedSectionVars false

/-!
# C72, C73, C74, C87: local homology and collection transformers
-/

namespace Gtda.Props
open Gtda.Py Gtda.Local

/-! ### C72 -/

/-- Entry `(i, j)` of a matrix given by rows. -/
def matEntry {α : Type} (M : List (List α)) (i j : Nat) : Option α := M[i]?.bind fun r => r[j]?

/-- **C72.** `annulus` is `relevant` without `close` (in any order). If there is a close point, the matrix handed over to persistent homology is square with one row for each close
point, then one for each annulus point, then one for the cone point. Distances of points are unchanged, the cone point is at distance zero from the annulus points and from itself and
at infinity from the close points, and the matrix is symmetric if the distance is. Without close points it is the matrix of a single point. -/
theorem C72_coned_matrix {K : Type} [Zero K] (dist : Nat → Nat → K) (close annulus relevant : List Nat) (hann : ∀ v, v ∈ annulus ↔ v ∈ relevant ∧ v ∉ close) :
    (close = [] → conedMatrix dist close annulus = [[0]]) ∧
    (close ≠ [] → ∃ pts : List Nat, pts = close ++ annulus ∧ (∀ v, v ∈ pts ↔ v ∈ close ∨ v ∈ relevant) ∧
      (conedMatrix dist close annulus).length = pts.length + 1 ∧ (∀ r ∈ conedMatrix dist close annulus, r.length = pts.length + 1) ∧
      (∀ (i j u v : Nat), pts[i]? = some u → pts[j]? = some v → matEntry (conedMatrix dist close annulus) i j = some ((dist u v : K) : WithTop K)) ∧
      (∀ (i u : Nat), pts[i]? = some u → u ∈ close → (i < close.length) →
        matEntry (conedMatrix dist close annulus) i pts.length = some ⊤ ∧ matEntry (conedMatrix dist close annulus) pts.length i = some ⊤) ∧
      (∀ (i u : Nat), pts[i]? = some u → u ∈ annulus →
        matEntry (conedMatrix dist close annulus) i pts.length = some 0 ∧ matEntry (conedMatrix dist close annulus) pts.length i = some 0) ∧
      matEntry (conedMatrix dist close annulus) pts.length pts.length = some 0 ∧
      ((∀ u v, dist u v = dist v u) → ∀ i j, matEntry (conedMatrix dist close annulus) i j = matEntry (conedMatrix dist close annulus) j i)) := by
  constructor
  · rintro rfl; rfl
  · intro hc
    have hlen : close.length ≠ 0 := by simpa using hc
    refine ⟨close ++ annulus, rfl, ?_, ?_⟩
    · intro v
      rw [List.mem_append, hann]
      by_cases h : v ∈ close <;> simp [h]
    · set pts := close ++ annulus with hpts
      set newRow : List (WithTop K) := List.replicate close.length ⊤ ++ List.replicate annulus.length 0 with hnr
      have hnl : newRow.length = pts.length := by simp [hnr, hpts]
      have hM : conedMatrix dist close annulus =
          List.zipWith (fun r x => r ++ [x]) ((pts.map fun u => pts.map fun v => ((dist u v : K) : WithTop K)) ++ [newRow]) (newRow ++ [0]) := by
        unfold conedMatrix; rw [if_neg hlen]
      have hclose : ∀ i < close.length, newRow[i]? = some ⊤ := by
        intro i hi
        rw [hnr, List.getElem?_append_left (by simpa using hi)]
        simp [hi]
      have hannu : ∀ i, close.length ≤ i → i < pts.length → newRow[i]? = some 0 := by
        intro i hi hi'
        rw [hnr, List.getElem?_append_right (by simpa using hi)]
        have : i - close.length < annulus.length := by simp [hpts] at hi'; omega
        simp [this]
      -- rows of the matrix
      have hrow : ∀ (i u : Nat), pts[i]? = some u → ∀ x, newRow[i]? = some x →
          (conedMatrix dist close annulus)[i]? = some ((pts.map fun v => ((dist u v : K) : WithTop K)) ++ [x]) := by
        intro i u hu x hx
        have hi : i < pts.length := (List.getElem?_eq_some_iff.1 hu).1
        rw [hM, List.getElem?_zipWith, List.getElem?_append_left (by simpa using hi), List.getElem?_append_left (by rw [hnl]; exact hi), List.getElem?_map, hu, hx]
        rfl
      have hlast : (conedMatrix dist close annulus)[pts.length]? = some (newRow ++ [0]) := by
        rw [hM, List.getElem?_zipWith, List.getElem?_append_right (by simp), List.getElem?_append_right (by rw [hnl])]
        simp [hnl]
      have hL : (conedMatrix dist close annulus).length = pts.length + 1 := by rw [hM]; simp [hnl]
      have hnew : ∀ i < pts.length, ∃ x, newRow[i]? = some x := by
        intro i hi
        exact ⟨newRow[i], List.getElem?_eq_getElem (by rw [hnl]; exact hi)⟩
      have hpt : ∀ (i j u v : Nat), pts[i]? = some u → pts[j]? = some v → matEntry (conedMatrix dist close annulus) i j = some ((dist u v : K) : WithTop K) := by
        intro i j u v hu hv
        obtain ⟨x, hx⟩ := hnew i (List.getElem?_eq_some_iff.1 hu).1
        have hj : j < pts.length := (List.getElem?_eq_some_iff.1 hv).1
        unfold matEntry
        rw [hrow i u hu x hx]
        simp only [Option.bind_some]
        rw [List.getElem?_append_left (by simpa using hj), List.getElem?_map, hv]
        rfl
      have hcol : ∀ i < pts.length, matEntry (conedMatrix dist close annulus) i pts.length = newRow[i]? := by
        intro i hi
        obtain ⟨x, hx⟩ := hnew i hi
        unfold matEntry
        rw [hrow i pts[i] (List.getElem?_eq_getElem hi) x hx, hx]
        simp
      have hrw : ∀ i < pts.length, matEntry (conedMatrix dist close annulus) pts.length i = newRow[i]? := by
        intro i hi
        unfold matEntry
        rw [hlast]
        simp only [Option.bind_some]
        rw [List.getElem?_append_left (by rw [hnl]; exact hi)]
      refine ⟨hL, ?_, hpt, ?_, ?_, ?_, ?_⟩
      · intro r hr
        obtain ⟨i, hi, rfl⟩ := List.mem_iff_getElem.1 hr
        rw [hL] at hi
        by_cases hip : i < pts.length
        · obtain ⟨x, hx⟩ := hnew i hip
          have := hrow i pts[i] (List.getElem?_eq_getElem hip) x hx
          rw [List.getElem?_eq_getElem (by rw [hL]; exact hi), Option.some.injEq] at this
          rw [this]; simp
        · have hie : i = pts.length := by omega
          subst hie
          rw [List.getElem?_eq_getElem (by rw [hL]; exact hi), Option.some.injEq] at hlast
          rw [hlast]; simp [hnl]
      · intro i u hu _ hi
        have hip : i < pts.length := (List.getElem?_eq_some_iff.1 hu).1
        rw [hcol i hip, hrw i hip, hclose i hi]
        exact ⟨rfl, rfl⟩
      · intro i u hu hua
        have hip : i < pts.length := (List.getElem?_eq_some_iff.1 hu).1
        have hge : close.length ≤ i := by
          by_contra hlt
          have h1 : i < close.length := by omega
          rw [hpts, List.getElem?_append_left h1] at hu
          exact ((hann u).1 hua).2 (List.mem_of_getElem? hu)
        rw [hcol i hip, hrw i hip, hannu i hge hip]
        exact ⟨rfl, rfl⟩
      · unfold matEntry
        rw [hlast]
        simp [← hnl]
      · intro hsym i j
        have hout : ∀ i j, ¬ (i ≤ pts.length ∧ j ≤ pts.length) → matEntry (conedMatrix dist close annulus) i j = none := by
          intro i j h
          unfold matEntry
          by_cases hi : i < pts.length
          · obtain ⟨x, hx⟩ := hnew i hi
            rw [hrow i pts[i] (List.getElem?_eq_getElem hi) x hx]
            simp only [Option.bind_some]
            apply List.getElem?_eq_none
            simp; omega
          · by_cases hie : i = pts.length
            · subst hie
              rw [hlast]
              simp only [Option.bind_some]
              apply List.getElem?_eq_none
              simp [hnl]; omega
            · rw [List.getElem?_eq_none (by rw [hL]; omega)]; rfl
        by_cases hb : i ≤ pts.length ∧ j ≤ pts.length
        · rcases Nat.lt_or_eq_of_le hb.1 with hi | hi <;> rcases Nat.lt_or_eq_of_le hb.2 with hj | hj
          · rw [hpt i j _ _ (List.getElem?_eq_getElem hi) (List.getElem?_eq_getElem hj), hpt j i _ _ (List.getElem?_eq_getElem hj) (List.getElem?_eq_getElem hi), hsym]
          · rw [hj, hcol i hi, hrw i hi]
          · rw [hi, hcol j hj, hrw j hj]
          · rw [hi, hj]
        · rw [hout i j hb, hout j i (by tauto)]

/-- Non-vacuity of C72: point 0 with close points 0, 1 and relevant points 0, 1, 2 on the line. -/
example : conedMatrix (fun u v => (u - v : Int).natAbs) [0, 1] [2] =
    ([[some 0, some 1, some 2, ⊤], [some 1, some 0, some 1, ⊤], [some 2, some 1, some 0, some 0], [⊤, ⊤, some 0, some 0]] : List (List (WithTop ℕ))) := by
  decide +kernel

/-! ### C73 -/

/-- **C73.** A fresh transformer with `1 ≤ a`, `1 ≤ b`: fitted on at least `max a b` points, with `min a b` less than the number of points, it uses `min a b` and `max a b`
neighbours. Fitting it earlier on any point clouds of at least that size changes nothing. Missing: fits on smaller point clouds, see `C73_refuted_refit`. -/
theorem C73_refit_partial (a b : Int) (ha : 1 ≤ a) (hb : 1 ≤ b) (sizes : List Nat) (hsizes : ∀ s ∈ sizes, max a b ≤ s ∧ min a b < s) (n : Nat) (hn : max a b ≤ n ∧ min a b < n) :
    ((sizes.foldl (fun (s : KNeighbors) m => (s.fit m).1) (KNeighbors.init (a, b))).fit n).2 = .ok (min a b, max a b) ∧
    ((KNeighbors.init (a, b)).fit n).2 = .ok (min a b, max a b) := by
  have hstep : ∀ (s : KNeighbors) (m : Nat), s.nNeighbors = (a, b) → (s.params = (a, b) ∨ s.params = (min a b, max a b)) → (max a b ≤ m ∧ min a b < m) →
      s.fit m = (⟨(a, b), (min a b, max a b)⟩, .ok (min a b, max a b)) := by
    rintro ⟨nn, p⟩ m h1 h2 ⟨h3, h4⟩
    simp only at h1 h2
    subst h1
    have hbase : KNeighbors.baseFit ⟨(a, b), p⟩ = (⟨(a, b), (min a b, max a b)⟩, .ok ()) := by
      have hmax : max a b ≠ 0 := by omega
      unfold KNeighbors.baseFit
      rcases h2 with rfl | rfl
      · by_cases hlt : b < a
        · have e1 : min a b = b := by omega
          have e2 : max a b = a := by omega
          rw [e1, e2] at *
          simp [hlt]; omega
        · have e1 : min a b = a := by omega
          have e2 : max a b = b := by omega
          rw [e1, e2] at *
          simp [hlt]; omega
      · have : ¬ max a b < min a b := by omega
        simp only [this, if_false]
        rw [if_neg hmax]
    unfold KNeighbors.fit
    rw [hbase]
    simp only
    have c1 : ¬ (a < 1 ∨ b < 1) := by omega
    have c2 : ¬ m = 0 := by omega
    have c3 : ¬ (m : Int) ≤ min a b := by omega
    have c4 : ¬ (m : Int) < max a b := by omega
    rw [if_neg c1, if_neg c2, if_neg c3, if_neg c4]
  have hfold : ∀ (l : List Nat) (s : KNeighbors), s.nNeighbors = (a, b) → (s.params = (a, b) ∨ s.params = (min a b, max a b)) → (∀ m ∈ l, max a b ≤ m ∧ min a b < m) →
      (l.foldl (fun (s : KNeighbors) m => (s.fit m).1) s).nNeighbors = (a, b) ∧
      ((l.foldl (fun (s : KNeighbors) m => (s.fit m).1) s).params = (a, b) ∨ (l.foldl (fun (s : KNeighbors) m => (s.fit m).1) s).params = (min a b, max a b)) := by
    intro l
    induction l with
    | nil => intro s h1 h2 _; exact ⟨h1, h2⟩
    | cons m t ih =>
      intro s h1 h2 h3
      rw [List.foldl_cons, hstep s m h1 h2 (h3 m (by simp))]
      exact ih _ rfl (Or.inr rfl) fun m hm => h3 m (by simp [hm])
  obtain ⟨h1, h2⟩ := hfold sizes (KNeighbors.init (a, b)) rfl (Or.inl rfl) hsizes
  exact ⟨by rw [hstep _ n h1 h2 hn], by rw [hstep _ n rfl (Or.inl rfl) hn]⟩

example : ((KNeighbors.init (5, 3)).fit 10).2 = .ok (3, 5) := by decide +kernel

/-- **C73, false.** After a fit on three points the numbers of neighbours 5 and 10 stay clipped for a later fit on a hundred points. -/
theorem C73_refuted_refit :
    ((KNeighbors.init (5, 10)).fit 100).2 = .ok (5, 10) ∧ ((((KNeighbors.init (5, 10)).fit 3).1).fit 100).2 = .ok (2, 3) := by decide +kernel

/-- `RadiusLocalVietorisRips` always forgets earlier fits: the radii of the neighbour searches depend only on the constructor's argument. -/
theorem C73_radius_refit {K : Type} [Field K] [LinearOrder K] [IsStrictOrderedRing K] (r : K × K) (hr : 0 ≤ r.1 ∧ 0 ≤ r.2) (sizes : List Nat) (n : Nat) (hn : 0 < n) :
    ((sizes.foldl (fun (s : Radius K) m => (s.fit m).1) (Radius.init r)).fit n).2 = .ok (min r.1 r.2, max r.1 r.2) := by
  have key : ∀ s : Radius K, (0 ≤ s.radii.1 ∧ 0 ≤ s.radii.2) → (s.params = r ∨ s.params = (min r.1 r.2, max r.1 r.2)) → ∀ m : Nat,
      (0 ≤ (s.fit m).1.radii.1 ∧ 0 ≤ (s.fit m).1.radii.2) ∧ (s.fit m).1.params = (min r.1 r.2, max r.1 r.2) ∧ (0 < m → (s.fit m).2 = .ok (min r.1 r.2, max r.1 r.2)) := by
    rintro ⟨rad, p⟩ h1 h2 m
    simp only at h1 h2
    -- the first step sorts the two radii
    have hsort : (if p.2 < p.1 then ({ radii := rad, params := (p.2, p.1) } : Radius K) else ⟨rad, p⟩) = ⟨rad, (min r.1 r.2, max r.1 r.2)⟩ := by
      rcases h2 with rfl | rfl
      · split
        · rename_i h; rw [min_eq_right h.le, max_eq_left h.le]
        · rename_i h; rw [min_eq_left (not_lt.1 h), max_eq_right (not_lt.1 h)]
      · rw [if_neg]
        simp [not_lt, min_le_max]
    unfold Radius.fit
    simp only [hsort]
    by_cases h0 : max r.1 r.2 = 0
    · simp only [h0, if_true]
      have hn1 : ¬ (rad.1 < 0 ∨ (1 : K) < 0) := by
        push Not; exact ⟨h1.1, zero_le_one⟩
      simp only [hn1, if_false]
      split
      · exact ⟨⟨h1.1, zero_le_one⟩, by simp, fun h => by omega⟩
      · exact ⟨⟨h1.1, zero_le_one⟩, by simp, fun h => by simp⟩
    · simp only [h0, if_false]
      have hn1 : ¬ (rad.1 < 0 ∨ rad.2 < 0) := by
        push Not; exact h1
      simp only [hn1, if_false]
      split
      · exact ⟨h1, by simp, fun h => by omega⟩
      · exact ⟨h1, by simp, fun h => by simp⟩
  have hfold : ∀ (l : List Nat) (s : Radius K), (0 ≤ s.radii.1 ∧ 0 ≤ s.radii.2) → (s.params = r ∨ s.params = (min r.1 r.2, max r.1 r.2)) →
      (0 ≤ (l.foldl (fun (s : Radius K) m => (s.fit m).1) s).radii.1 ∧ 0 ≤ (l.foldl (fun (s : Radius K) m => (s.fit m).1) s).radii.2) ∧
      ((l.foldl (fun (s : Radius K) m => (s.fit m).1) s).params = r ∨ (l.foldl (fun (s : Radius K) m => (s.fit m).1) s).params = (min r.1 r.2, max r.1 r.2)) := by
    intro l
    induction l with
    | nil => intro s h1 h2; exact ⟨h1, h2⟩
    | cons m t ih =>
      intro s h1 h2
      obtain ⟨h3, h4, -⟩ := key s h1 h2 m
      rw [List.foldl_cons]
      exact ih _ h3 (Or.inr h4)
  obtain ⟨h1, h2⟩ := hfold sizes (Radius.init r) hr (Or.inl rfl)
  exact (key _ h1 h2 n).2.2 hn

/-! ### C87 -/

/-- **C87, false.** Setting `n_neighbors` (to admissible values) on a transformer has no effect on later fits: the neighbour searches are those of the values before. -/
theorem C87_refuted_set_n_neighbors (s : KNeighbors) (n : Int × Int) (hs : 1 ≤ s.nNeighbors.1 ∧ 1 ≤ s.nNeighbors.2) (hn : 1 ≤ n.1 ∧ 1 ≤ n.2) (size : Nat) :
    ((s.setParams n).fit size).2 = (s.fit size).2 := by
  obtain ⟨nn, p⟩ := s
  simp only at hs
  obtain ⟨p1, p2⟩ := p
  have h1 : ¬ (nn.1 < 1 ∨ nn.2 < 1) := by omega
  have h2 : ¬ (n.1 < 1 ∨ n.2 < 1) := by omega
  have key : ∀ m : Int × Int, ¬ (m.1 < 1 ∨ m.2 < 1) → (KNeighbors.fit ⟨m, (p1, p2)⟩ size).2 = (KNeighbors.fit ⟨(1, 1), (p1, p2)⟩ size).2 := by
    intro m hm
    have hb : ∀ q : Int × Int, KNeighbors.baseFit ⟨q, (p1, p2)⟩ =
        (⟨q, (min p1 p2, max p1 p2)⟩, if max p1 p2 = 0 then .error .attributeError else .ok ()) := by
      intro q
      unfold KNeighbors.baseFit
      by_cases hsw : p2 < p1
      · have e1 : min p1 p2 = p2 := by omega
        have e2 : max p1 p2 = p1 := by omega
        simp only [hsw, if_true, e1, e2]
      · have e1 : min p1 p2 = p1 := by omega
        have e2 : max p1 p2 = p2 := by omega
        simp only [hsw, if_false, e1, e2]
    unfold KNeighbors.fit
    rw [hb, hb]
    by_cases h0 : max p1 p2 = 0
    · rw [if_pos h0]
    · rw [if_neg h0]
      simp only
      have h11 : ¬ ((1 : Int) < 1 ∨ (1 : Int) < 1) := by decide
      rw [if_neg hm, if_neg h11]
      by_cases hz : size = 0
      · simp only [hz, if_true]
      · simp only [hz, if_false]
        by_cases hA : (size : Int) ≤ min p1 p2
        · simp only [hA, if_true, lt_irrefl, if_false]
        · simp only [hA, if_false]
          by_cases hB : (size : Int) < max p1 p2
          · simp only [hB, if_true]
          · simp only [hB, if_false]
  exact (key n h2).trans (key nn h1).symm

/-- The documented effect fails: a fresh transformer with (3, 6) uses 3 and 6 neighbours; one constructed with (1, 2) and set to (3, 6) uses 1 and 2. -/
theorem C87_refuted_witness :
    ((KNeighbors.init (3, 6)).fit 10).2 = .ok (3, 6) ∧ (((KNeighbors.init (1, 2)).setParams (3, 6)).fit 10).2 = .ok (1, 2) := by decide +kernel

/-- The same for `radii` of `RadiusLocalVietorisRips`. -/
theorem C87_refuted_set_radii {K : Type} [Field K] [LinearOrder K] [IsStrictOrderedRing K] (s : Radius K) (r : K × K) (hs : 0 ≤ s.radii.1 ∧ 0 ≤ s.radii.2) (hr : 0 ≤ r.1 ∧ 0 ≤ r.2)
    (size : Nat) : ((s.setParams r).fit size).2 = (s.fit size).2 := by
  obtain ⟨rad, p⟩ := s
  simp only at hs
  have h1 : ¬ (rad.1 < 0 ∨ rad.2 < 0) := by push Not; exact hs
  have h2 : ¬ (r.1 < 0 ∨ r.2 < 0) := by push Not; exact hr
  have h3 : ¬ (rad.1 < 0 ∨ (1 : K) < 0) := by push Not; exact ⟨hs.1, zero_le_one⟩
  have h4 : ¬ (r.1 < 0 ∨ (1 : K) < 0) := by push Not; exact ⟨hr.1, zero_le_one⟩
  unfold Radius.setParams Radius.fit
  by_cases hsw : p.2 < p.1
  · simp only [hsw, if_true]
    by_cases h0 : p.1 = 0
    · simp only [h0, if_true, h3, h4, if_false]; split <;> rfl
    · simp only [h0, if_false, h1, h2]; split <;> rfl
  · simp only [hsw, if_false]
    by_cases h0 : p.2 = 0
    · simp only [h0, if_true, h3, h4, if_false]; split <;> rfl
    · simp only [h0, if_false, h1, h2]; split <;> rfl

/-- The message "Second radius set to 1" is wrong: with two radii zero the neighbour searches use radius zero. -/
theorem C87_refuted_second_radius_set_to_one : ((Radius.init ((0 : ℚ), 0)).fit 5).2 = .ok (0, 0) ∧ ((Radius.init ((0 : ℚ), 0)).fit 5).1.radii = (0, 1) := by decide +kernel

/-! ### C74 -/

section
variable {S A B : Type} (T : Transformer S A B)

/-- Invariant of the parallel execution: the wrapped transformer is untouched, clones of tasks not yet executed are fresh, results of executed tasks are those of fresh clones. -/
theorem collection_inv (s : S) (X : List A) (order : List Nat) (hnd : order.Nodup) (hlt : ∀ k ∈ order, k < X.length) :
    let final := order.foldl (collectionStep T X) (s :: X.map (fun _ => T.clone s), List.replicate X.length none)
    final.1[0]? = some s ∧ (∀ k, k < X.length → k ∉ order → final.1[k + 1]? = some (T.clone s)) ∧ final.2.length = X.length ∧
      (∀ (k : Nat) x, k ∈ order → X[k]? = some x → final.2[k]? = some (some (T.fitTransform (T.clone s) x).2)) := by
  induction order using List.reverseRec with
  | nil =>
    refine ⟨rfl, ?_, by simp, by simp⟩
    intro k hk _
    simp [hk]
  | append_singleton order k ih =>
    have hk : k < X.length := hlt k (by simp)
    have hnk : k ∉ order := by
      intro h
      have := List.nodup_append.1 hnd
      exact this.2.2 k h k (by simp) rfl
    obtain ⟨h1, h2, h3, h4⟩ := ih (List.nodup_append.1 hnd).1 fun j hj => hlt j (by simp [hj])
    simp only [List.foldl_append, List.foldl_cons, List.foldl_nil]
    generalize order.foldl (collectionStep T X) (s :: X.map (fun _ => T.clone s), List.replicate X.length none) = st at h1 h2 h3 h4
    have hX : X[k]? = some X[k] := List.getElem?_eq_getElem hk
    have hc : st.1[k + 1]? = some (T.clone s) := h2 k hk hnk
    have hstep : collectionStep T X st k = (st.1.set (k + 1) (T.fitTransform (T.clone s) X[k]).1, st.2.set k (some (T.fitTransform (T.clone s) X[k]).2)) := by
      unfold collectionStep
      rw [hX, hc]
    rw [hstep]
    refine ⟨?_, ?_, by simpa using h3, ?_⟩
    · rw [List.getElem?_set_ne (by omega)]; exact h1
    · intro j hj hjn
      have hjk : j ≠ k := by rintro rfl; exact hjn (by simp)
      show (st.1.set (k + 1) _)[j + 1]? = _
      rw [List.getElem?_set_ne (by omega)]
      exact h2 j hj fun h => hjn (by simp [h])
    · intro j x hj hx
      show (st.2.set k _)[j]? = _
      by_cases hjk : j = k
      · subst hjk
        rw [hX] at hx
        cases hx
        rw [List.getElem?_set_self (by rw [h3]; exact hk)]
      · rw [List.getElem?_set_ne (by omega)]
        apply h4 j x _ hx
        simpa [hjk] using hj

/-- **C74.** For a cloneable transformer with `fit_transform` and a non-empty collection, executing the parallel tasks in any order, the result is the list of results of
`fit_transform` of a fresh clone on each entry (the first exception in order of entries if one raises), and the wrapped transformer is unchanged. Missing: transformers that are not
cloneable, see `C74_refuted_not_an_estimator`. -/
theorem C74_collection_partial (hf : T.hasFitTransform = true) (hc : T.cloneable = true) (s : S) (X : List A) (hX : X ≠ []) (order : List Nat)
    (horder : order.Perm (List.range X.length)) :
    collectionFitTransform T s order X = (some s, X.mapM fun x => (T.fitTransform (T.clone s) x).2) := by
  have hne : X.length ≠ 0 := by simpa using hX
  obtain ⟨h1, -, h3, h4⟩ := collection_inv T s X order (horder.nodup_iff.2 List.nodup_range) fun k hk => List.mem_range.1 (horder.mem_iff.1 hk)
  unfold collectionFitTransform
  rw [if_neg (by simp [hf]), if_neg hne, if_neg (by simp [hc])]
  simp only
  have hres : (order.foldl (collectionStep T X) (s :: X.map (fun _ => T.clone s), List.replicate X.length none)).2 =
      X.map fun x => some (T.fitTransform (T.clone s) x).2 := by
    apply List.ext_getElem?
    intro k
    by_cases hk : k < X.length
    · rw [h4 k X[k] (horder.mem_iff.2 (List.mem_range.2 hk)) (List.getElem?_eq_getElem hk), List.getElem?_map, List.getElem?_eq_getElem hk]; rfl
    · rw [List.getElem?_eq_none (by rw [h3]; omega), List.getElem?_eq_none (by simp; omega)]
  rw [List.head?_eq_getElem?, h1, hres, List.mapM_map]
  rfl

/-- Non-vacuity of C74: a transformer that counts its calls; each clone is used once, whatever the order. -/
example : let T : Transformer Nat Nat Nat := ⟨true, true, fun _ => 0, fun s x => (s + 1, .ok (s + x))⟩
    collectionFitTransform T 7 [2, 0, 1] [10, 20, 30] = (some 7, .ok [10, 20, 30]) := by decide +kernel

/-- **C74, false for transformers that are not estimators.** An object with `fit_transform` but without `get_params` gives a `TypeError` (from `clone`), although only `fit_transform`
is documented as necessary. -/
theorem C74_refuted_not_an_estimator (hf : T.hasFitTransform = true) (hc : T.cloneable = false) (s : S) (order : List Nat) (X : List A) (hX : X ≠ []) :
    (collectionFitTransform T s order X).2 = .error .typeError := by
  unfold collectionFitTransform
  rw [if_neg (by simp [hf]), if_neg (by simpa using hX), if_pos hc]

end

end Gtda.Props
