import Verif.Props.Graphs
import Verif.Props.PointClouds
import Mathlib.Data.List.FinRange
import Mathlib.Data.Fintype.EquivFin
import Mathlib.Algebra.Group.Submonoid.Pointwise
import Mathlib.Order.WellFoundedSet

set_option autoImplicit false
set_option linter.unusedSectionVars false

/-!
# C142: graphs with renumbered vertices, other weights, more edges, reversed time
-/

namespace Gtda.Props
open Gtda.Py Gtda.Graphs Gtda.Spec Gtda.PointClouds

section geodesic
variable {K : Type} [Field K] [LinearOrder K] [IsStrictOrderedRing K]

theorem walk_map {E E' : Nat → Nat → K → Prop} (φ : Nat → Nat) (c : K) (h : ∀ i j w, E i j w → E' (φ i) (φ j) (c * w)) {i j : Nat} {l : K} (hw : Walk E i j l) : Walk E' (φ i) (φ j) (c * l) := by
  induction hw with
  | nil i => rw [mul_zero]; exact .nil _
  | cons i k j w l h1 _ ih =>
    rw [mul_add]
    exact .cons _ _ _ _ _ (h i k w h1) ih

theorem walk_flipped {E E' : Nat → Nat → K → Prop} (h : ∀ i j w, E i j w → E' j i w) {i j : Nat} {l : K} (hw : Walk E i j l) : Walk E' j i l := by
  induction hw with
  | nil i => exact .nil _
  | cons i k j w l h1 _ ih =>
    have := walk_append ih (.cons k i i w 0 (h i k w h1) (.nil i))
    rwa [add_zero, add_comm] at this

theorem docEdges_finite (X : GraphInput K) : {w | ∃ i j, DocEdge X i j w}.Finite := by
  have hrows : ∀ rows : List (List (Option K)), {w : K | ∃ i j : Nat, ∃ r, rows[i]? = some r ∧ r[j]? = some (some w)}.Finite := by
    intro rows
    apply Set.Finite.subset (List.finite_toSet (rows.flatten.filterMap id))
    rintro w ⟨i, j, r, h1, h2⟩
    exact List.mem_filterMap.mpr ⟨some w, List.mem_flatten.mpr ⟨r, List.mem_of_getElem? h1, List.mem_of_getElem? h2⟩, rfl⟩
  cases X with
  | bool rows =>
    apply Set.Finite.subset (Set.finite_singleton (1 : K))
    rintro w ⟨i, j, -, rfl⟩
    rfl
  | dense rows => exact hrows rows
  | masked rows => exact hrows rows
  | sparse nr nc stored =>
    apply Set.Finite.subset (List.finite_toSet (stored.map (·.2)))
    rintro w ⟨i, j, h⟩
    exact List.mem_map.mpr ⟨_, h, rfl⟩

theorem distance_exists (X : GraphInput K) (n : Nat) (a u : Bool) (hw : u = true ∨ ∀ i j w, DocEdge X i j w → 0 ≤ w) : ∃ d, IsDistance n (Step (DocEdge X) a u) d := by
  classical
  set W : Set K := {w | ∃ i j, Step (DocEdge X) a u i j w} with hW
  have hfin : W.Finite := by
    apply Set.Finite.subset ((docEdges_finite X).insert (1 : K))
    rintro w ⟨i, j, v, h, rfl⟩
    split_ifs
    · exact Set.mem_insert _ _
    · apply Set.mem_insert_of_mem
      rcases h with h | ⟨-, h⟩
      · exact ⟨i, j, h⟩
      · exact ⟨j, i, h⟩
  have hpos : ∀ w ∈ W, 0 ≤ w := by
    rintro w ⟨i, j, v, h, rfl⟩
    split_ifs with h0
    · exact zero_le_one
    · rcases hw with hw | hw
      · exact absurd hw h0
      · rcases h with h | ⟨-, h⟩
        · exact hw _ _ _ h
        · exact hw _ _ _ h
  have hpwo : (AddSubmonoid.closure W : Set K).IsPWO := hfin.isPWO.addSubmonoid_closure hpos
  have hmem : ∀ i j l, Walk (Step (DocEdge X) a u) i j l → l ∈ (AddSubmonoid.closure W : Set K) := by
    intro i j l h
    induction h with
    | nil i => exact AddSubmonoid.zero_mem _
    | cons i k j w l h1 _ ih => exact AddSubmonoid.add_mem _ (AddSubmonoid.subset_closure ⟨i, k, h1⟩) ih
  have hmin : ∀ i j, ∃ x : WithTop K, (∀ l, Walk (Step (DocEdge X) a u) i j l → x ≤ (l : WithTop K)) ∧ (x = ⊤ ∨ ∃ l, Walk (Step (DocEdge X) a u) i j l ∧ x = (l : WithTop K)) := by
    intro i j
    by_cases hne : {l | Walk (Step (DocEdge X) a u) i j l}.Nonempty
    · have hwf : {l | Walk (Step (DocEdge X) a u) i j l}.IsWF := (hpwo.mono fun l hl => hmem i j l hl).isWF
      exact ⟨(hwf.min hne : K), fun l hl => WithTop.coe_le_coe.mpr (hwf.min_le hne hl), .inr ⟨_, hwf.min_mem hne, rfl⟩⟩
    · exact ⟨⊤, fun l hl => absurd ⟨l, hl⟩ hne, .inl rfl⟩
  choose d hd using hmin
  exact ⟨d, fun i _ j _ => hd i j⟩

/-- **C142**, well-definedness: whenever no weight is negative, or weights are ignored, the transformer returns, for every pair of vertices, the length of a walk that no other walk undercuts, and infinity exactly if there is no walk. -/
theorem C142_well_defined (engine : Engine K) (hE : Correct engine) (p : GeodesicParams) (X : GraphInput K) (hX : WellFormed X)
    (hD : p.method = .D ∨ p.unweighted = false → ∀ i j w, DocEdge X i j w → 0 ≤ w) :
    ∃ out, geodesic engine p X = .ok (vertices X, out) ∧ ∀ i < vertices X, ∀ j < vertices X,
      (out i j = ⊤ ↔ ¬∃ l, Walk (Step (DocEdge X) p.directed p.unweighted) i j l) ∧
      ∀ x : K, out i j = (x : WithTop K) ↔ Walk (Step (DocEdge X) p.directed p.unweighted) i j x ∧ ∀ l, Walk (Step (DocEdge X) p.directed p.unweighted) i j l → x ≤ l := by
  obtain ⟨d, hd⟩ := distance_exists X (vertices X) p.directed p.unweighted (by
    cases h : p.unweighted
    · exact .inr (hD (.inr h))
    · exact .inl rfl)
  obtain ⟨out, h1, h2⟩ := (C70_shortest_walks engine hE p X hX (fun h => hD (.inl h)) d hd).1
  refine ⟨out, h1, fun i hi j hj => ?_⟩
  rw [h2 i hi j hj]
  obtain ⟨u1, u2⟩ := hd i hi j hj
  constructor
  · constructor
    · rintro h ⟨l, hl⟩
      have := u1 l hl
      rw [h] at this
      simp at this
    · intro h
      rcases u2 with u2 | ⟨l, hl, -⟩
      · exact u2
      · exact absurd ⟨l, hl⟩ h
  · intro x
    constructor
    · intro h
      rcases u2 with u2 | ⟨l, hl, e⟩
      · rw [u2] at h
        simp at h
      · rw [h] at e
        rw [WithTop.coe_inj.mp e]
        refine ⟨hl, fun m hm => ?_⟩
        have := u1 m hm
        rw [h, e] at this
        exact WithTop.coe_le_coe.mp this
    · rintro ⟨hx, hle⟩
      apply le_antisymm (u1 x hx)
      rcases u2 with u2 | ⟨l, hl, e⟩
      · rw [u2]
        exact le_top
      · rw [e]
        exact WithTop.coe_le_coe.mpr (hle l hl)

/-- **C142**, renumbering: if the edges of the second graph are those of the first one with the vertices renumbered by `σ`, so are the distances; whatever kinds of matrices the graphs are given by and whatever the two methods. -/
theorem C142_renumbered (engine : Engine K) (hE : Correct engine) (p p' : GeodesicParams) (hp : p'.directed = p.directed ∧ p'.unweighted = p.unweighted)
    (X X' : GraphInput K) (hX : WellFormed X) (hX' : WellFormed X') (σ : Equiv.Perm Nat) (hn : vertices X' = vertices X) (hσ : ∀ i, σ i < vertices X ↔ i < vertices X)
    (hedge : ∀ i j w, DocEdge X' (σ i) (σ j) w ↔ DocEdge X i j w)
    (hD : p.method = .D ∨ p'.method = .D → ∀ i j w, DocEdge X i j w → 0 ≤ w) (hex : ∃ d, IsDistance (vertices X) (Step (DocEdge X) p.directed p.unweighted) d) :
    ∃ out out', geodesic engine p X = .ok (vertices X, out) ∧ geodesic engine p' X' = .ok (vertices X, out') ∧
      ∀ i < vertices X, ∀ j < vertices X, out' (σ i) (σ j) = out i j := by
  obtain ⟨d, hd⟩ := hex
  obtain ⟨out, h1, h2⟩ := (C70_shortest_walks engine hE p X hX (fun h => hD (.inl h)) d hd).1
  have hedge' : ∀ i j w, DocEdge X' i j w ↔ DocEdge X (σ.symm i) (σ.symm j) w := by
    intro i j w
    rw [← hedge, Equiv.apply_symm_apply, Equiv.apply_symm_apply]
  have hs' : ∀ i, σ.symm i < vertices X ↔ i < vertices X := by
    intro i
    rw [← hσ, Equiv.apply_symm_apply]
  have st : ∀ i j w, Step (DocEdge X') p'.directed p'.unweighted i j w ↔ Step (DocEdge X) p.directed p.unweighted (σ.symm i) (σ.symm j) w := by
    intro i j w
    unfold Step
    simp only [hedge', hp.1, hp.2]
  have wk : ∀ i j l, Walk (Step (DocEdge X') p'.directed p'.unweighted) i j l ↔ Walk (Step (DocEdge X) p.directed p.unweighted) (σ.symm i) (σ.symm j) l := by
    intro i j l
    constructor
    · intro h
      have := walk_map (E' := Step (DocEdge X) p.directed p.unweighted) σ.symm 1 (fun i j w h => by rw [one_mul]; exact (st i j w).mp h) h
      rwa [one_mul] at this
    · intro h
      have := walk_map (E' := Step (DocEdge X') p'.directed p'.unweighted) σ 1 (fun i j w h => by
        rw [one_mul, st, Equiv.symm_apply_apply, Equiv.symm_apply_apply]
        exact h) h
      rwa [one_mul, Equiv.apply_symm_apply, Equiv.apply_symm_apply] at this
  obtain ⟨out', g1, g2⟩ := (C70_shortest_walks engine hE p' X' hX' (fun h i j w he => hD (.inr h) _ _ w ((hedge' i j w).mp he)) (fun i j => d (σ.symm i) (σ.symm j)) (by
    intro i hi j hj
    rw [hn] at hi hj
    obtain ⟨u1, u2⟩ := hd _ ((hs' i).mpr hi) _ ((hs' j).mpr hj)
    refine ⟨fun l hl => u1 l ((wk i j l).mp hl), ?_⟩
    rcases u2 with u2 | ⟨l, hl, e⟩
    · exact .inl u2
    · exact .inr ⟨l, (wk i j l).mpr hl, e⟩)).1
  rw [hn] at g1 g2
  refine ⟨out, out', h1, g1, ?_⟩
  intro i hi j hj
  rw [h2 i hi j hj, g2 _ ((hσ i).mpr hi) _ ((hσ j).mpr hj), Equiv.symm_apply_apply, Equiv.symm_apply_apply]

/-- **C142**, units: multiplying all weights by a positive number multiplies the distances by it, and does not change distances in the unweighted graph. -/
theorem C142_units (engine : Engine K) (hE : Correct engine) (p p' : GeodesicParams) (hp : p'.directed = p.directed ∧ p'.unweighted = p.unweighted)
    (X X' : GraphInput K) (hX : WellFormed X) (hX' : WellFormed X') (c : K) (hc : 0 < c) (hn : vertices X' = vertices X)
    (hedge : ∀ i j w, DocEdge X' i j w ↔ ∃ v, DocEdge X i j v ∧ w = c * v)
    (hD : p.method = .D ∨ p'.method = .D → ∀ i j w, DocEdge X i j w → 0 ≤ w) (hex : ∃ d, IsDistance (vertices X) (Step (DocEdge X) p.directed p.unweighted) d) :
    ∃ out out', geodesic engine p X = .ok (vertices X, out) ∧ geodesic engine p' X' = .ok (vertices X, out') ∧
      ∀ i < vertices X, ∀ j < vertices X, out' i j = (out i j).map fun x => (if p.unweighted then 1 else c) * x := by
  obtain ⟨d, hd⟩ := hex
  obtain ⟨out, h1, h2⟩ := (C70_shortest_walks engine hE p X hX (fun h => hD (.inl h)) d hd).1
  set k : K := if p.unweighted then 1 else c with hk
  have hk0 : 0 < k := by
    rw [hk]
    split_ifs
    · exact one_pos
    · exact hc
  have st : ∀ i j w, Step (DocEdge X') p'.directed p'.unweighted i j w ↔ ∃ v, Step (DocEdge X) p.directed p.unweighted i j v ∧ w = k * v := by
    intro i j w
    unfold Step
    simp only [hedge, hp.1, hp.2, hk]
    constructor
    · rintro ⟨v, h, rfl⟩
      have : ∃ u, (DocEdge X i j u ∨ (p.directed = false ∧ DocEdge X j i u)) ∧ v = c * u := by
        rcases h with ⟨u, h, e⟩ | ⟨h0, u, h, e⟩
        · exact ⟨u, .inl h, e⟩
        · exact ⟨u, .inr ⟨h0, h⟩, e⟩
      obtain ⟨u, hu, rfl⟩ := this
      refine ⟨_, ⟨u, hu, rfl⟩, ?_⟩
      split_ifs <;> simp
    · rintro ⟨v, ⟨u, hu, rfl⟩, rfl⟩
      refine ⟨c * u, ?_, ?_⟩
      · rcases hu with h | ⟨h0, h⟩
        · exact .inl ⟨u, h, rfl⟩
        · exact .inr ⟨h0, u, h, rfl⟩
      · split_ifs <;> simp
  have w1 : ∀ i j l, Walk (Step (DocEdge X) p.directed p.unweighted) i j l → Walk (Step (DocEdge X') p'.directed p'.unweighted) i j (k * l) := by
    intro i j l h
    exact walk_map (E' := Step (DocEdge X') p'.directed p'.unweighted) id k (fun i j w h => (st i j _).mpr ⟨w, h, rfl⟩) h
  have w2 : ∀ i j l, Walk (Step (DocEdge X') p'.directed p'.unweighted) i j l → Walk (Step (DocEdge X) p.directed p.unweighted) i j (k⁻¹ * l) := by
    intro i j l h
    refine walk_map (E' := Step (DocEdge X) p.directed p.unweighted) id k⁻¹ (fun i j w h => ?_) h
    obtain ⟨v, hv, rfl⟩ := (st i j w).mp h
    rwa [inv_mul_cancel_left₀ hk0.ne']
  obtain ⟨out', g1, g2⟩ := (C70_shortest_walks engine hE p' X' hX' (fun h i j w he => by
      obtain ⟨v, hv, rfl⟩ := (hedge i j w).mp he
      exact mul_nonneg hc.le (hD (.inr h) i j v hv)) (fun i j => (d i j).map fun x => k * x) (by
    intro i hi j hj
    rw [hn] at hi hj
    obtain ⟨u1, u2⟩ := hd i hi j hj
    dsimp only
    constructor
    · intro l hl
      have := u1 _ (w2 i j l hl)
      rcases u2 with u2 | ⟨m, hm, e⟩
      · rw [u2] at this
        exact absurd (top_le_iff.mp this) WithTop.coe_ne_top
      · rw [e] at this ⊢
        rw [WithTop.coe_le_coe] at this
        rw [WithTop.map_coe, WithTop.coe_le_coe]
        have := mul_le_mul_of_nonneg_left this hk0.le
        rwa [mul_inv_cancel_left₀ hk0.ne'] at this
    · rcases u2 with u2 | ⟨m, hm, e⟩
      · left
        rw [u2]
        rfl
      · right
        refine ⟨k * m, w1 i j m hm, ?_⟩
        rw [e, WithTop.map_coe])).1
  rw [hn] at g1 g2
  refine ⟨out, out', h1, g1, ?_⟩
  intro i hi j hj
  rw [g2 i hi j hj, h2 i hi j hj]

/-- **C142**, more edges: if every edge of the first graph is an edge of the second one, with a weight that is not larger, no distance in the second graph is larger than in the first. -/
theorem C142_monotone (engine : Engine K) (hE : Correct engine) (p p' : GeodesicParams) (hp : p'.directed = p.directed ∧ p'.unweighted = p.unweighted)
    (X X' : GraphInput K) (hX : WellFormed X) (hX' : WellFormed X') (hn : vertices X ≤ vertices X')
    (hedge : ∀ i j w, DocEdge X i j w → ∃ w', DocEdge X' i j w' ∧ w' ≤ w)
    (hD : p.method = .D → ∀ i j w, DocEdge X i j w → 0 ≤ w) (hD' : p'.method = .D → ∀ i j w, DocEdge X' i j w → 0 ≤ w)
    (hex : ∃ d, IsDistance (vertices X) (Step (DocEdge X) p.directed p.unweighted) d) (hex' : ∃ d, IsDistance (vertices X') (Step (DocEdge X') p'.directed p'.unweighted) d) :
    ∃ out out', geodesic engine p X = .ok (vertices X, out) ∧ geodesic engine p' X' = .ok (vertices X', out') ∧
      ∀ i < vertices X, ∀ j < vertices X, out' i j ≤ out i j := by
  obtain ⟨d, hd⟩ := hex
  obtain ⟨d', hd'⟩ := hex'
  obtain ⟨out, h1, h2⟩ := (C70_shortest_walks engine hE p X hX hD d hd).1
  obtain ⟨out', g1, g2⟩ := (C70_shortest_walks engine hE p' X' hX' hD' d' hd').1
  refine ⟨out, out', h1, g1, ?_⟩
  have st : ∀ i j w, Step (DocEdge X) p.directed p.unweighted i j w → ∃ w', Step (DocEdge X') p'.directed p'.unweighted i j w' ∧ w' ≤ w := by
    rintro i j w ⟨v, h, rfl⟩
    unfold Step
    simp only [hp.1, hp.2]
    have : ∃ u, (DocEdge X' i j u ∨ (p.directed = false ∧ DocEdge X' j i u)) ∧ u ≤ v := by
      rcases h with h | ⟨h0, h⟩
      · obtain ⟨u, h, e⟩ := hedge _ _ _ h
        exact ⟨u, .inl h, e⟩
      · obtain ⟨u, h, e⟩ := hedge _ _ _ h
        exact ⟨u, .inr ⟨h0, h⟩, e⟩
    obtain ⟨u, hu, e⟩ := this
    refine ⟨_, ⟨u, hu, rfl⟩, ?_⟩
    split_ifs
    · exact le_rfl
    · exact e
  have wk : ∀ i j l, Walk (Step (DocEdge X) p.directed p.unweighted) i j l → ∃ l', Walk (Step (DocEdge X') p'.directed p'.unweighted) i j l' ∧ l' ≤ l := by
    intro i j l h
    induction h with
    | nil i => exact ⟨0, .nil i, le_rfl⟩
    | cons i k j w l h1 _ ih =>
      obtain ⟨w', hw, e1⟩ := st _ _ _ h1
      obtain ⟨l', hl, e2⟩ := ih
      exact ⟨w' + l', .cons _ _ _ _ _ hw hl, add_le_add e1 e2⟩
  intro i hi j hj
  rw [h2 i hi j hj, g2 i (lt_of_lt_of_le hi hn) j (lt_of_lt_of_le hj hn)]
  rcases (hd i hi j hj).2 with h | ⟨l, hl, e⟩
  · rw [h]
    exact le_top
  · obtain ⟨l', hl', hle⟩ := wk i j l hl
    rw [e]
    exact le_trans ((hd' i (lt_of_lt_of_le hi hn) j (lt_of_lt_of_le hj hn)).1 l' hl') (WithTop.coe_le_coe.mpr hle)

/-- **C142**, reversed edges: reversing all edges transposes the matrix of distances. -/
theorem C142_reversed_edges (engine : Engine K) (hE : Correct engine) (p p' : GeodesicParams) (hp : p'.directed = p.directed ∧ p'.unweighted = p.unweighted)
    (X X' : GraphInput K) (hX : WellFormed X) (hX' : WellFormed X') (hn : vertices X' = vertices X)
    (hedge : ∀ i j w, DocEdge X' j i w ↔ DocEdge X i j w)
    (hD : p.method = .D ∨ p'.method = .D → ∀ i j w, DocEdge X i j w → 0 ≤ w) (hex : ∃ d, IsDistance (vertices X) (Step (DocEdge X) p.directed p.unweighted) d) :
    ∃ out out', geodesic engine p X = .ok (vertices X, out) ∧ geodesic engine p' X' = .ok (vertices X, out') ∧
      ∀ i < vertices X, ∀ j < vertices X, out' j i = out i j := by
  obtain ⟨d, hd⟩ := hex
  obtain ⟨out, h1, h2⟩ := (C70_shortest_walks engine hE p X hX (fun h => hD (.inl h)) d hd).1
  have st : ∀ i j w, Step (DocEdge X') p'.directed p'.unweighted j i w ↔ Step (DocEdge X) p.directed p.unweighted i j w := by
    intro i j w
    unfold Step
    simp only [hedge, hp.1, hp.2]
  have wk : ∀ i j l, Walk (Step (DocEdge X') p'.directed p'.unweighted) j i l ↔ Walk (Step (DocEdge X) p.directed p.unweighted) i j l :=
    fun i j l => ⟨walk_flipped fun a b w h => (st b a w).mp h, walk_flipped fun a b w h => (st a b w).mpr h⟩
  obtain ⟨out', g1, g2⟩ := (C70_shortest_walks engine hE p' X' hX' (fun h i j w he => hD (.inr h) _ _ w ((hedge j i w).mp he)) (fun i j => d j i) (by
    intro i hi j hj
    rw [hn] at hi hj
    obtain ⟨u1, u2⟩ := hd j hj i hi
    refine ⟨fun l hl => u1 l ((wk j i l).mp hl), ?_⟩
    rcases u2 with u2 | ⟨l, hl, e⟩
    · exact .inl u2
    · exact .inr ⟨l, (wk j i l).mpr hl, e⟩)).1
  rw [hn] at g1 g2
  refine ⟨out, out', h1, g1, ?_⟩
  intro i hi j hj
  rw [h2 i hi j hj, g2 j hj i hi]

/-- Non-vacuity: an edge of length two from vertex 0 to vertex 1 of three vertices, and the same edge renumbered, in other units, cheaper, and reversed. -/
example : let X : GraphInput ℚ := .sparse 3 3 [((0, 1), 2)]
    WellFormed X ∧ WellFormed (.sparse 3 3 [((2, 1), 2)] : GraphInput ℚ) ∧
      (∀ i j w, DocEdge (.sparse 3 3 [((2, 1), 2)]) (Equiv.swap 0 2 i) (Equiv.swap 0 2 j) w ↔ DocEdge X i j w) ∧ (∀ i, Equiv.swap 0 2 i < vertices X ↔ i < vertices X) ∧
      (∀ i j w, DocEdge (.sparse 3 3 [((0, 1), 6)]) i j w ↔ ∃ v, DocEdge X i j v ∧ w = 3 * v) ∧
      (∀ i j w, DocEdge X i j w → ∃ w', DocEdge (.sparse 3 3 [((0, 1), 1), ((1, 2), 5)]) i j w' ∧ w' ≤ w) ∧
      (∀ i j w, DocEdge (.sparse 3 3 [((1, 0), 2)]) j i w ↔ DocEdge X i j w) ∧
      (∀ i j w, DocEdge X i j w → 0 ≤ w) ∧ ∃ d, IsDistance (vertices X) (Step (DocEdge X) true false) d := by
  intro X
  have h0 : ∀ i j w, DocEdge X i j w → 0 ≤ w := by
    intro i j w h
    simp [X, DocEdge] at h
    rw [h.2]
    norm_num
  refine ⟨⟨by simp, by simp⟩, ⟨by simp, by simp⟩, ?_, ?_, ?_, ?_, ?_, h0, distance_exists X _ _ _ (.inr h0)⟩
  · intro i j w
    simp only [X, DocEdge, List.mem_singleton, Prod.mk.injEq]
    rw [show Equiv.swap 0 2 i = 2 ↔ i = 0 by rw [Equiv.swap_apply_eq_iff]; simp, show Equiv.swap 0 2 j = 1 ↔ j = 1 by rw [Equiv.swap_apply_eq_iff]; simp [Equiv.swap_apply_of_ne_of_ne]]
  · intro i
    show Equiv.swap 0 2 i < 3 ↔ i < 3
    rw [Equiv.swap_apply_def]
    split_ifs <;> omega
  · intro i j w
    simp only [X, DocEdge, List.mem_singleton, Prod.mk.injEq]
    constructor
    · rintro ⟨h, rfl⟩
      exact ⟨2, ⟨h, rfl⟩, by norm_num⟩
    · rintro ⟨v, ⟨h, rfl⟩, rfl⟩
      exact ⟨h, by norm_num⟩
  · intro i j w h
    simp only [X, DocEdge, List.mem_singleton, Prod.mk.injEq] at h
    obtain ⟨⟨rfl, rfl⟩, rfl⟩ := h
    exact ⟨1, by simp [DocEdge], by norm_num⟩
  · intro i j w
    simp only [X, DocEdge, List.mem_singleton, Prod.mk.injEq]
    tauto

end geodesic

section transition
variable {K S T : Type} [LinearOrder S] [LinearOrder T]

theorem followCount_map (f : S → T) (Y : List S) (hf : ∀ a ∈ Y, ∀ b ∈ Y, f a = f b → a = b) (a b : S) (ha : a ∈ Y) (hb : b ∈ Y) : followCount (Y.map f) (f a) (f b) = followCount Y a b := by
  unfold followCount
  rw [List.length_map]
  apply List.countP_congr
  intro t ht
  rw [List.mem_range] at ht
  have h1 : t < Y.length := by omega
  have h2 : t + 1 < Y.length := by omega
  simp only [List.getElem?_map, List.getElem?_eq_getElem h1, List.getElem?_eq_getElem h2, Option.map_some, Option.some.injEq, Bool.and_eq_true, decide_eq_true_eq]
  constructor
  · rintro ⟨h3, h4⟩
    exact ⟨hf _ (List.getElem_mem h1) _ ha h3, hf _ (List.getElem_mem h2) _ hb h4⟩
  · rintro ⟨h3, h4⟩
    rw [h3, h4]
    exact ⟨rfl, rfl⟩

theorem followCount_reverse (Y : List S) (a b : S) : followCount Y.reverse b a = followCount Y a b := by
  unfold followCount
  rw [List.length_reverse]
  have e : (List.range (Y.length - 1)).Perm ((List.range (Y.length - 1)).map fun t => Y.length - 2 - t) := by
    have := (List.reverse_perm (List.range (Y.length - 1))).symm
    refine this.trans (List.Perm.of_eq ?_)
    apply List.ext_getElem
    · simp
    · intro i h1 h2
      simp at h1 h2 ⊢
      omega
  rw [e.countP_eq, List.countP_map]
  apply List.countP_congr
  intro t ht
  rw [List.mem_range] at ht
  simp only [Function.comp_apply]
  rw [List.getElem?_reverse (by omega), List.getElem?_reverse (by omega)]
  rw [show Y.length - 1 - (Y.length - 2 - t) = t + 1 by omega, show Y.length - 1 - (Y.length - 2 - t + 1) = t by omega]
  simp [and_comm]

/-- **C142**, names of states: renaming the states of a `TransitionGraph` by an injective map only renumbers the vertices. -/
theorem C142_renamed_states (func : List K → S) (f : S → T) (hf : Function.Injective f) (X : List (List K)) :
    ∃ (n : Nat) (σ : Equiv.Perm (Fin n)), (adjacency func X).length = n ∧ (adjacency (fun r => f (func r)) X).length = n ∧
      ∀ i j : Fin n, ((adjacency (fun r => f (func r)) X).getD (σ i) []).getD (σ j) 0 = ((adjacency func X).getD i []).getD j 0 := by
  obtain ⟨s, s1, s2, s3, s4, s5⟩ := C66_transitions func X
  obtain ⟨u, u1, u2, u3, u4, u5⟩ := C66_transitions (fun r => f (func r)) X
  have us : u.Nodup := u1.imp fun h => h.ne
  have ss : s.Nodup := s1.imp fun h => h.ne
  have hm : ∀ x, x ∈ u ↔ x ∈ s.map f := by
    intro x
    rw [u2]
    simp [s2]
  have hperm : u.Perm (s.map f) := (List.perm_ext_iff_of_nodup us (ss.map hf)).mpr hm
  have hlen : u.length = s.length := by rw [hperm.length_eq, List.length_map]
  have hidx : ∀ i : Fin s.length, u.idxOf (f s[i]) < s.length := by
    intro i
    exact lt_of_lt_of_eq (List.idxOf_lt_length_of_mem ((hm _).mpr (List.mem_map_of_mem (List.getElem_mem i.2)))) hlen
  have hget : ∀ i : Fin s.length, u[u.idxOf (f s[i])]? = some (f s[i]) := by
    intro i
    have := hidx i
    rw [List.getElem?_eq_getElem (by omega)]
    simp
  have hinj : Function.Injective fun i : Fin s.length => (⟨u.idxOf (f s[i]), hidx i⟩ : Fin s.length) := by
    intro i j h
    have h := congrArg Fin.val h
    have e1 := hget i
    simp only at h
    rw [h, hget j] at e1
    have := hf (Option.some.inj e1)
    exact Fin.ext ((ss.getElem_inj_iff).mp this).symm
  refine ⟨s.length, Equiv.ofBijective _ (Finite.injective_iff_bijective.mp hinj), s3, by rw [u3, hlen], ?_⟩
  intro i j
  rw [Equiv.ofBijective_apply, Equiv.ofBijective_apply, (u5 _ _ _ _ (hget i) (hget j)).1, (s5 i j _ _ (List.getElem?_eq_getElem i.2) (List.getElem?_eq_getElem j.2)).1]
  have e : (u.idxOf (f s[i]) = u.idxOf (f s[j])) ↔ (i : Nat) = j := by
    constructor
    · intro h
      exact congrArg Fin.val (hinj (Fin.ext h))
    · intro h
      rw [Fin.ext h]
  have hcount := followCount_map f (X.map func) (fun a _ b _ h => hf h) s[i] s[j] ((s2 _).mp (List.getElem_mem i.2)) ((s2 _).mp (List.getElem_mem j.2))
  rw [List.map_map] at hcount
  simp only [e]
  split_ifs
  · rfl
  · exact hcount

/-- **C142**, reversed time: a `TransitionGraph` of the reversed series has the transposed matrix. -/
theorem C142_reversed_time (func : List K → S) (X : List (List K)) :
    (adjacency func X.reverse).length = (adjacency func X).length ∧
      ∀ i j, i < (adjacency func X).length → j < (adjacency func X).length → ((adjacency func X.reverse).getD j []).getD i 0 = ((adjacency func X).getD i []).getD j 0 := by
  obtain ⟨s, s1, s2, s3, s4, s5⟩ := C66_transitions func X
  obtain ⟨u, u1, u2, u3, u4, u5⟩ := C66_transitions func X.reverse
  have e : u = s := by
    apply List.Perm.eq_of_pairwise (le := (· < ·)) (fun a b _ _ h h' => absurd h' h.asymm) u1 s1
    apply (List.perm_ext_iff_of_nodup (u1.imp fun h => h.ne) (s1.imp fun h => h.ne)).mpr
    intro x
    rw [u2, s2]
    simp
  subst e
  refine ⟨by rw [u3, s3], ?_⟩
  intro i j hi hj
  rw [s3] at hi hj
  rw [(u5 j i _ _ (List.getElem?_eq_getElem hj) (List.getElem?_eq_getElem hi)).1, (s5 i j _ _ (List.getElem?_eq_getElem hi) (List.getElem?_eq_getElem hj)).1, List.map_reverse, followCount_reverse]
  simp only [eq_comm]

example : adjacency (fun r : List Nat => r) [[0], [1], [2], [1]] = [[0, 1, 0], [0, 0, 1], [0, 1, 0]] ∧ adjacency (fun r : List Nat => r.map (10 - ·)) [[0], [1], [2], [1]] = [[0, 1, 0], [1, 0, 0], [0, 1, 0]] ∧
    adjacency (fun r : List Nat => r) [[1], [2], [1], [0]] = [[0, 0, 0], [1, 0, 1], [0, 1, 0]] := by decide +kernel

end transition

section rescaling

/-- **C142**, order of points: for a symmetric metric, permuting the points of a cloud permutes the rows and columns of the rescaled distance matrix. -/
theorem C142_reordered_points {P : Type} (d : P → P → ℝ) (hd : ∀ a b, d a b = d b a) (k : Nat) (hk : 1 ≤ k) (x : List P) (hx : k < x.length) (σ : Equiv.Perm (Fin x.length)) :
    ∃ M N, consistentTransform (.func d) (k : Int) [x] = .ok [M] ∧ consistentTransform (.func d) (k : Int) [List.ofFn fun i => x[σ i]] = .ok [N] ∧
      IsSquare x.length M ∧ IsSquare x.length N ∧ ∀ i j : Fin x.length, cell N i j = cell M (σ i) (σ j) := by
  have one : ∀ y : List P, k < y.length → ∃ M, consistentTransform (.func d) (k : Int) [y] = .ok [M] ∧ IsSquare y.length M ∧
      ∀ (i j : Nat) a b va vb, y[i]? = some a → y[j]? = some b → IsKth k (y.map (d a)) va → IsKth k (y.map (d b)) vb → cell M i j = if i = j then some 0 else some (d a b / Real.sqrt (va * vb)) := by
    intro y hy
    obtain ⟨R, h1, h2, h3⟩ := C68_points d k hk [y] (by simpa using hy)
    obtain ⟨M, h4, h5, h6⟩ := h3 0 y rfl
    refine ⟨M, ?_, h5, ?_⟩
    · rw [h1]
      match R, h2, h4 with
      | [M'], _, h4 =>
        rw [List.getElem?_cons_zero] at h4
        rw [Option.some.inj h4]
    · intro i j a b va vb ha hb hva hvb
      rcases lt_trichotomy i j with h | h | h
      · rw [if_neg (by omega)]
        exact ((h6 i j a b ha hb).2 h va vb hva hvb).1
      · rw [if_pos h]
        exact (h6 i j a b ha hb).1 h
      · rw [if_neg (by omega), ((h6 j i b a hb ha).2 h vb va hvb hva).2, hd b a, mul_comm vb va]
  set y := List.ofFn fun i => x[σ i] with hy
  have hperm : y.Perm x := by
    have := Equiv.Perm.ofFn_comp_perm σ fun i => x[i]
    rw [show List.ofFn (fun i : Fin x.length => x[i]) = x from List.ofFn_getElem] at this
    exact this
  obtain ⟨M, m1, m2, m3⟩ := one x hx
  obtain ⟨N, n1, n2, n3⟩ := one y (by rw [hperm.length_eq]; exact hx)
  rw [hperm.length_eq] at n2
  refine ⟨M, N, m1, n1, m2, n2, ?_⟩
  intro i j
  have hv : ∀ a, ∃ v, IsKth k (x.map (d a)) v := fun a => by
    obtain ⟨v, -, h⟩ := npIndex_kth (x.map (d a)) k (by simpa using hx)
    exact ⟨v, h⟩
  have hyg : ∀ i : Fin x.length, y[(i : Nat)]? = some x[σ i] := by
    intro i
    rw [hy, List.getElem?_ofFn]
    simp
  obtain ⟨va, hva⟩ := hv x[σ i]
  obtain ⟨vb, hvb⟩ := hv x[σ j]
  rw [m3 (σ i) (σ j) x[σ i] x[σ j] va vb (List.getElem?_eq_getElem (σ i).2) (List.getElem?_eq_getElem (σ j).2) hva hvb,
    n3 i j x[σ i] x[σ j] va vb (hyg i) (hyg j) ((isKth_perm (hperm.map _) va).mpr hva) ((isKth_perm (hperm.map _) vb).mpr hvb)]
  have : (i : Nat) = j ↔ ((σ i : Fin _) : Nat) = σ j := by
    rw [← Fin.ext_iff, ← Fin.ext_iff, σ.injective.eq_iff]
  simp only [this]

/-- Without symmetry the order matters: only distances from earlier to later points are used. -/
theorem C142_asymmetric_order : let d : Bool → Bool → ℝ := fun a b => if a = b then 0 else if a then 4 else 1
    ∃ M N, consistentTransform (.func d) 1 [[false, true]] = .ok [M] ∧ consistentTransform (.func d) 1 [[true, false]] = .ok [N] ∧ cell M 0 1 = some (1 / 2) ∧ cell N 1 0 = some 2 := by
  intro d
  have s4 : Real.sqrt 4 = 2 := by rw [show (4 : ℝ) = 2 ^ 2 by norm_num, Real.sqrt_sq (by norm_num)]
  have kth : ∀ a b : ℝ, a = 0 → 0 < b → IsKth 1 [a, b] b ∧ IsKth 1 [b, a] b := by
    rintro a b rfl hb
    constructor <;> refine ⟨by simp, ?_, ?_⟩ <;> simp [List.countP_cons, hb, hb.le]
  have one : ∀ y : List Bool, 1 < y.length → ∃ M, consistentTransform (.func d) 1 [y] = .ok [M] ∧
        ∀ (i j : Nat) a b, y[i]? = some a → y[j]? = some b → 
          (i < j → ∀ va vb, IsKth 1 (y.map (d a)) va → IsKth 1 (y.map (d b)) vb → cell M i j = some (d a b / Real.sqrt (va * vb)) ∧ cell M j i = some (d a b / Real.sqrt (va * vb))) := by
    intro y hy
    obtain ⟨R, h1, h2, h3⟩ := C68_points d 1 le_rfl [y] (by simpa using hy)
    obtain ⟨M, h4, h5, h6⟩ := h3 0 y rfl
    refine ⟨M, ?_, fun i j a b ha hb => (h6 i j a b ha hb).2⟩
    rw [Nat.cast_one] at h1
    rw [h1]
    match R, h2, h4 with
    | [M'], _, h4 =>
      rw [List.getElem?_cons_zero] at h4
      rw [Option.some.inj h4]
  obtain ⟨M, m1, m2⟩ := one [false, true] (by simp)
  obtain ⟨N, n1, n2⟩ := one [true, false] (by simp)
  refine ⟨M, N, m1, n1, ?_, ?_⟩
  · rw [(m2 0 1 false true rfl rfl (by norm_num) 1 4 (by simpa [d] using (kth 0 1 rfl (by norm_num)).1) (by simpa [d] using (kth 0 4 rfl (by norm_num)).2)).1]
    norm_num [d, s4]
  · rw [(n2 0 1 true false rfl rfl (by norm_num) 4 1 (by simpa [d] using (kth 0 4 rfl (by norm_num)).1) (by simpa [d] using (kth 0 1 rfl (by norm_num)).2)).2]
    norm_num [d, s4]

end rescaling

end Gtda.Props
