import Verif.Spec.Plotting
import Verif.Lemmas.Homology
import Verif.Props.Persistence
import Verif.Props.Curves
import Verif.Props.Raster
import Verif.Props.CurveFeatures
import Mathlib.Data.List.GetD

set_option autoImplicit false
set_option linter.unusedSectionVars false

/-!
# Plots

C101: persistence diagrams. C102: `transform_plot`. C103: curves. C104: Betti curves and surfaces as functions. C105: derivatives. C106: heat maps. C107: point clouds.
-/

namespace Gtda.Plotting
open Gtda.Py Gtda.Diagrams Gtda.Validation

section Diagrams
variable {K Q : Type} [Field K] [LinearOrder K] [IsStrictOrderedRing K] [LinearOrder Q]

/-! ### C101: persistence diagrams -/

theorem removeDiagonal_filter (D : List (Pt (WithTop K) Q)) (q : Q) : (removeDiagonal D).filter (fun p => decide (p.q = q)) = features D q := by
  unfold removeDiagonal features
  rw [List.filter_filter]
  apply List.filter_congr
  intro p _
  simp [and_comm]

theorem hoverTexts_eq (print : WithTop K → WithTop K → String) (P : List (Pt (WithTop K) Q)) :
    hoverTexts print P = P.map fun p => print p.b p.d ++ (if P.count p > 1 then ", multiplicity: " ++ toString (P.count p) else "") := by
  unfold hoverTexts
  simp only [List.filterMap_map]
  conv_rhs => rw [← List.filterMap_eq_map]
  apply List.filterMap_congr
  intro p hp
  have hm : p ∈ uniqueRows P := by
    unfold uniqueRows
    rw [List.mem_insertionSort, List.mem_dedup]
    exact hp
  have h1 : (uniqueRows P)[(uniqueRows P).idxOf p]? = some p := by
    rw [List.getElem?_eq_getElem (List.idxOf_lt_length_of_mem hm), List.getElem_idxOf]
  simp [h1]

theorem count_features (D : List (Pt (WithTop K) Q)) (q : Q) (p : Pt (WithTop K) Q) (hp : p ∈ features D q) : (features D q).count p = D.count p := by
  unfold features at *
  exact List.count_filter (by simpa using (List.mem_filter.1 hp).2)

/-- **C101.** What `plot_diagram` draws for the requested homology dimensions: one scatter per dimension in the requested order, showing exactly the points of the diagram in that
dimension off the diagonal, in order; finite points at `(birth, death)`, classes that never die at one common height; the hover text of each point gives its true coordinates and how
often it occurs in the diagram. The height is marked by a line, which is there only if some class never dies. -/
theorem C101_markers (print : WithTop K → WithTop K → String) (label : Q → String) (qs : List Q) (D : List (Pt (WithTop K) Q)) (hb : ∀ p ∈ D, p.b ≤ p.d) :
    ∃ h : K, (plotDiagram print label (some qs) D).markers = qs.map (fun q =>
        { x := (features D q).map fun p => p.b
          y := (features D q).map fun p => if p.d = ⊤ then (h : WithTop K) else p.d
          text := (features D q).map fun p => print p.b p.d ++ (if 1 < D.count p then ", multiplicity: " ++ toString (D.count p) else "")
          name := label q }) ∧
      (HasInfinite D → (plotDiagram print label (some qs) D).infinityLine = some h) ∧
      (¬ HasInfinite D → (plotDiagram print label (some qs) D).infinityLine = none) := by
  have hinf : ((removeDiagonal D).any fun p => decide (p.d = ⊤)) = true ↔ HasInfinite D := by
    simp only [removeDiagonal, List.any_eq_true, List.mem_filter, decide_eq_true_eq, HasInfinite]
    constructor
    · rintro ⟨p, ⟨hp, hne⟩, ht⟩
      exact ⟨p, hp, fun h => hne (h.trans ht.symm), ht⟩
    · rintro ⟨p, hp, hne, ht⟩
      exact ⟨p, ⟨hp, fun h => hne (h.trans ht)⟩, ht⟩
  refine ⟨(limits (removeDiagonal D)).2 + 1 / 10 * ((limits (removeDiagonal D)).2 - (limits (removeDiagonal D)).1), ?_, ?_, ?_⟩
  · unfold plotDiagram
    dsimp only
    apply List.map_congr_left
    intro q _
    unfold dimMarkers
    dsimp only
    rw [removeDiagonal_filter, hoverTexts_eq]
    congr 1
    · apply List.map_congr_left
      intro p hp
      by_cases ht : p.d = ⊤
      · have hm := List.mem_filter.1 hp
        have : ((removeDiagonal D).any fun p => decide (p.d = ⊤)) = true := by
          rw [List.any_eq_true]
          refine ⟨p, List.mem_filter.2 ⟨hm.1, ?_⟩, by simpa using ht⟩
          have := hm.2
          simp only [decide_eq_true_eq] at this
          simpa using this.1
        simp [ht, this]
      · simp [ht]
    · apply List.map_congr_left
      intro p hp
      rw [count_features D q p hp]
  · intro h
    unfold plotDiagram
    dsimp only
    rw [if_pos (hinf.2 h)]
  · intro h
    unfold plotDiagram
    dsimp only
    rw [if_neg (fun h' => h (hinf.1 h'))]

/-- **C101.** Without requested dimensions, all dimensions present in the diagram are drawn, each once and in increasing order, and every point off the diagonal is drawn. -/
theorem C101_default (print : WithTop K → WithTop K → String) (label : Q → String) (D : List (Pt (WithTop K) Q)) :
    ∃ qs : List Q, qs.Pairwise (· < ·) ∧ (∀ q, q ∈ qs ↔ ∃ p ∈ D, p.q = q) ∧ plotDiagram print label none D = plotDiagram print label (some qs) D := by
  refine ⟨(D.map (·.q)).dedup.insertionSort (· ≤ ·), ?_, ?_, rfl⟩
  · have h1 := List.pairwise_insertionSort (· ≤ ·) ((D.map (·.q)).dedup)
    have h2 : ((D.map (·.q)).dedup.insertionSort (· ≤ ·)).Nodup := (List.perm_insertionSort _ _).nodup_iff.2 (List.nodup_dedup _)
    exact (h1.and h2).imp fun ⟨a, b⟩ => lt_of_le_of_ne a b
  · intro q
    rw [List.mem_insertionSort, List.mem_dedup, List.mem_map]

theorem mem_finiteEntries (D : List (Pt (WithTop K) Q)) (v : K) : v ∈ finiteEntries (removeDiagonal D) ↔ Coordinate D v := by
  unfold finiteEntries Coordinate removeDiagonal
  simp only [List.mem_flatMap, List.mem_filter, decide_eq_true_eq, List.mem_filterMap]
  constructor
  · rintro ⟨p, ⟨hp, hne⟩, a, ha, hv⟩
    refine ⟨p, hp, hne, ?_⟩
    rcases List.mem_cons.1 ha with ha | ha
    · rw [ha] at hv
      exact Or.inl hv
    · rw [List.mem_singleton.1 ha] at hv
      exact Or.inr hv
  · rintro ⟨p, hp, hne, h | h⟩
    · exact ⟨p, ⟨hp, hne⟩, _, List.mem_cons_self, h⟩
    · exact ⟨p, ⟨hp, hne⟩, _, List.mem_cons_of_mem _ (List.mem_singleton.2 rfl), h⟩

theorem foldl_min_le (t : List K) (v : K) : t.foldl min v ≤ v ∧ ∀ x ∈ t, t.foldl min v ≤ x := by
  induction t generalizing v with
  | nil => simp
  | cons a t ih =>
    obtain ⟨h1, h2⟩ := ih (min v a)
    refine ⟨le_trans h1 (min_le_left _ _), ?_⟩
    intro x hx
    rcases List.mem_cons.1 hx with rfl | hx
    · exact le_trans h1 (min_le_right _ _)
    · exact h2 x hx

theorem le_foldl_maxK (t : List K) (v : K) : v ≤ t.foldl max v ∧ ∀ x ∈ t, x ≤ t.foldl max v := by
  induction t generalizing v with
  | nil => simp
  | cons a t ih =>
    obtain ⟨h1, h2⟩ := ih (max v a)
    refine ⟨le_trans (le_max_left _ _) h1, ?_⟩
    intro x hx
    rcases List.mem_cons.1 hx with rfl | hx
    · exact le_trans (le_max_right _ _) h1
    · exact h2 x hx

theorem limits_spec (D : List (Pt (WithTop K) Q)) (v : K) (h : Coordinate D v) : (limits (removeDiagonal D)).1 ≤ v ∧ v ≤ (limits (removeDiagonal D)).2 := by
  have hm := (mem_finiteEntries D v).2 h
  unfold limits
  cases hl : finiteEntries (removeDiagonal D) with
  | nil => rw [hl] at hm; cases hm
  | cons a t =>
    rw [hl] at hm
    dsimp only
    rcases List.mem_cons.1 hm with rfl | hm
    · exact ⟨(foldl_min_le t _).1, (le_foldl_maxK t _).1⟩
    · exact ⟨(foldl_min_le t a).2 v hm, (le_foldl_maxK t a).2 v hm⟩

/-- **C101.** If the finite births and deaths off the diagonal are not all equal, everything drawn lies strictly inside the common range of the two axes, the dashed diagonal
spans that range, and the line for classes that never die lies strictly above all finite births and deaths. -/
theorem C101_axes (print : WithTop K → WithTop K → String) (label : Q → String) (hdims : Option (List Q)) (D : List (Pt (WithTop K) Q)) (hb : ∀ p ∈ D, p.b ≤ p.d)
    (v w : K) (hv : Coordinate D v) (hw : Coordinate D w) (hvw : v < w) :
    let fig := plotDiagram print label hdims D
    (∀ m ∈ fig.markers, ∀ z ∈ m.x ++ m.y, (fig.range.1 : WithTop K) < z ∧ z < (fig.range.2 : WithTop K)) ∧ fig.diagonal = fig.range ∧
      ∀ h, fig.infinityLine = some h → h < fig.range.2 ∧ ∀ u, Coordinate D u → u < h := by
  intro fig
  set lim := limits (removeDiagonal D) with hlim
  have hr : 0 < lim.2 - lim.1 := by
    have h1 := (limits_spec D v hv).1
    have h2 := (limits_spec D w hw).2
    rw [← hlim] at h1 h2
    linarith
  obtain ⟨c, hc, hlo, hhi, hc2⟩ : ∃ c : K, 0 < c ∧ fig.range.1 = lim.1 - c * (lim.2 - lim.1) ∧ fig.range.2 = lim.2 + c * (lim.2 - lim.1) ∧
      (fig.infinityLine ≠ none → 1 / 10 < c) := by
    refine ⟨if ((removeDiagonal D).any fun p => decide (p.d = ⊤)) then 1 / 50 + 1 / 10 else 1 / 50, ?_, rfl, rfl, ?_⟩
    · split <;> norm_num
    · intro h
      split
      · norm_num
      · rename_i h'
        exact absurd (by show (if _ then _ else _) = none; rw [if_neg h']) h
  have hcr : 0 < c * (lim.2 - lim.1) := mul_pos hc hr
  have inside : ∀ u : K, Coordinate D u → fig.range.1 < u ∧ u < fig.range.2 := by
    intro u hu
    have h := limits_spec D u hu
    rw [← hlim] at h
    rw [hlo, hhi]
    constructor <;> linarith [h.1, h.2]
  have line : ∀ h, fig.infinityLine = some h → h = lim.2 + 1 / 10 * (lim.2 - lim.1) := by
    intro h hh
    have hh' : (if ((removeDiagonal D).any fun p => decide (p.d = ⊤)) then some (lim.2 + 1 / 10 * (lim.2 - lim.1)) else none) = some h := hh
    split at hh'
    · exact (Option.some.inj hh').symm
    · cases hh'
  have below : ∀ h, fig.infinityLine = some h → h < fig.range.2 ∧ lim.2 < h := by
    intro h hh
    have hc' := hc2 (by rw [hh]; simp)
    rw [line h hh, hhi]
    constructor
    · have := mul_lt_mul_of_pos_right hc' hr
      linarith
    · have : 0 < 1 / 10 * (lim.2 - lim.1) := mul_pos (by norm_num) hr
      linarith
  refine ⟨?_, rfl, ?_⟩
  · intro m hm z hz
    have hD : ∃ qs, fig = plotDiagram print label (some qs) D := by
      cases hdims with
      | none => exact ⟨_, (C101_default print label D).choose_spec.2.2⟩
      | some qs => exact ⟨qs, rfl⟩
    obtain ⟨qs, hqs⟩ := hD
    obtain ⟨h, hmk, hinf, -⟩ := C101_markers print label qs D hb
    rw [← hqs] at hmk hinf
    rw [hmk] at hm
    obtain ⟨q, -, rfl⟩ := List.mem_map.1 hm
    have coord : ∀ p ∈ features D q, ∀ u : K, (p.b = (u : WithTop K) ∨ p.d = (u : WithTop K)) → Coordinate D u := by
      intro p hp u hu
      have hm := List.mem_filter.1 hp
      have hm2 := hm.2
      simp only [decide_eq_true_eq] at hm2
      exact ⟨p, hm.1, hm2.1, hu⟩
    rcases List.mem_append.1 hz with hz | hz
    · obtain ⟨p, hp, rfl⟩ := List.mem_map.1 hz
      have hm := List.mem_filter.1 hp
      have hm2 := hm.2
      simp only [decide_eq_true_eq] at hm2
      have hne : p.b ≠ ⊤ := by
        intro h
        have := hb p hm.1
        rw [h, top_le_iff] at this
        exact hm2.1 (h.trans this.symm)
      obtain ⟨u, hu⟩ := WithTop.ne_top_iff_exists.1 hne
      have := inside u (coord p hp u (Or.inl hu.symm))
      rw [← hu]
      exact ⟨WithTop.coe_lt_coe.2 this.1, WithTop.coe_lt_coe.2 this.2⟩
    · obtain ⟨p, hp, rfl⟩ := List.mem_map.1 hz
      by_cases ht : p.d = ⊤
      · have hm := List.mem_filter.1 hp
        have hm2 := hm.2
        simp only [decide_eq_true_eq] at hm2
        have hI : HasInfinite D := ⟨p, hm.1, fun h => hm2.1 (h.trans ht.symm), ht⟩
        have hl := hinf hI
        rw [if_pos ht]
        have h1 := below h hl
        have h2 := inside w hw
        have h3 := limits_spec D w hw
        rw [← hlim] at h3
        exact ⟨WithTop.coe_lt_coe.2 (by linarith [h3.2]), WithTop.coe_lt_coe.2 h1.1⟩
      · rw [if_neg ht]
        obtain ⟨u, hu⟩ := WithTop.ne_top_iff_exists.1 ht
        have := inside u (coord p hp u (Or.inr hu.symm))
        rw [← hu]
        exact ⟨WithTop.coe_lt_coe.2 this.1, WithTop.coe_lt_coe.2 this.2⟩
  · intro h hh
    refine ⟨(below h hh).1, fun u hu => lt_of_le_of_lt ?_ (below h hh).2⟩
    exact (limits_spec D u hu).2

/-- **C101.** The scatters for the dimensions `0`, `1`, … are named `H0`, `H1`, …; the one for infinite dimension (after `ForgetDimension`) is named "Any homology dimension". -/
theorem C101_names (print : WithTop K → WithTop K → String) (ns : List (WithTop Nat)) (D : List (Pt (WithTop K) (WithTop Nat))) :
    (plotDiagram print diagramLabel (some ns) D).markers.map (fun m => m.name) = ns.map fun n => if n = ⊤ then "Any homology dimension" else "H" ++ toString (n.untopD 0) := by
  unfold plotDiagram requestedDims
  dsimp only
  rw [List.map_map]
  apply List.map_congr_left
  intro n _
  cases n with
  | top => rfl
  | coe n => rfl

/-- **C101, false if all classes never die and are born together.** The axes then have the degenerate range `[b, b]` and the class is drawn at the point `(b, b)` of the diagonal. -/
theorem C101_refuted_one_birth (print : WithTop K → WithTop K → String) (label : Q → String) (b : K) (q : Q) :
    let fig := plotDiagram print label (some [q]) [⟨(b : WithTop K), ⊤, q⟩]
    fig.range = (b, b) ∧ fig.markers.map (fun m => (m.x, m.y)) = [([(b : WithTop K)], [(b : WithTop K)])] ∧ fig.infinityLine = some b := by
  have h1 : removeDiagonal [(⟨(b : WithTop K), ⊤, q⟩ : Pt (WithTop K) Q)] = [⟨(b : WithTop K), ⊤, q⟩] := by simp [removeDiagonal]
  have h2 : limits [(⟨(b : WithTop K), ⊤, q⟩ : Pt (WithTop K) Q)] = (b, b) := rfl
  simp [plotDiagram, h1, h2, dimMarkers, requestedDims]

/-- **C101.** `ForgetDimension.plot` on a diagram whose dimensions were forgotten: a single scatter, named "Any homology dimension", with all points off the diagonal in order. -/
theorem C101_forget (print : WithTop K → WithTop K → String) (X : List (List (Pt (WithTop K) Q))) (i : Nat) (D : List (Pt (WithTop K) Q)) (hD : X[i]? = some D)
    (hb : ∀ p ∈ D, p.b ≤ p.d) :
    ∃ fig h m, forgetPlot print (npIndex (X.map fun D => D.map fun p => (⟨p.b, p.d, ⊤⟩ : Pt (WithTop K) (WithTop Nat)))) (i : Int) = .ok fig ∧ fig.markers = [m] ∧
      m.name = "Any homology dimension" ∧ m.x = (D.filter fun p => decide (p.b ≠ p.d)).map (fun p => p.b) ∧
      m.y = (D.filter fun p => decide (p.b ≠ p.d)).map (fun p => if p.d = ⊤ then ((h : K) : WithTop K) else p.d) := by
  obtain ⟨hlt, hg⟩ := List.getElem?_eq_some_iff.1 hD
  set D' := D.map fun p => (⟨p.b, p.d, ⊤⟩ : Pt (WithTop K) (WithTop Nat)) with hD'
  have hat : npIndex (X.map fun D => D.map fun p => (⟨p.b, p.d, ⊤⟩ : Pt (WithTop K) (WithTop Nat))) (i : Int) = .ok D' := by
    rw [npIndex_nat _ i (by simpa using hlt)]
    simp [hg, hD']
  obtain ⟨h, hm, -⟩ := C101_markers print diagramLabel [⊤] D' (by
    intro p hp
    obtain ⟨p', hp', rfl⟩ := List.mem_map.1 hp
    exact hb p' hp')
  have hf : features D' ⊤ = (D.filter fun p => decide (p.b ≠ p.d)).map fun p => (⟨p.b, p.d, ⊤⟩ : Pt (WithTop K) (WithTop Nat)) := by
    unfold features
    rw [hD', List.filter_map]
    congr 1
    apply List.filter_congr
    intro p _
    simp
  refine ⟨plotDiagram print diagramLabel (some [⊤]) D', h, _, ?_, hm, rfl, ?_, ?_⟩
  · unfold forgetPlot diagramPlot
    rw [hat, ok_bind]
  · dsimp only
    rw [hf, List.map_map]
    rfl
  · dsimp only
    rw [hf, List.map_map]
    rfl

end Diagrams

/-- A diagram with a double point, a point on the diagonal and a class that never dies. -/
def plotX : List (Pt (WithTop ℚ) (WithTop Nat)) := [⟨0, 1, 0⟩, ⟨0, ⊤, 0⟩, ⟨1, 3, 1⟩, ⟨2, 2, 1⟩, ⟨0, 1, 0⟩]

/-- A printer for the examples. -/
def showPair : WithTop ℚ → WithTop ℚ → String
  | some b, some d => toString b.num ++ "," ++ toString d.num
  | some b, none => toString b.num ++ ",inf"
  | _, _ => ""

example : plotDiagram showPair diagramLabel none plotX =
    { diagonal := (-9/25, 84/25)
      markers := [⟨[0, 0, 0], [1, ((33/10 : ℚ) : WithTop ℚ), 1], ["0,1, multiplicity: 2", "0,inf", "0,1, multiplicity: 2"], "H0"⟩, ⟨[1], [3], ["1,3"], "H1"⟩]
      infinityLine := some (33/10)
      range := (-9/25, 84/25) } := by decide +kernel
example : (∀ p ∈ plotX, p.b ≤ p.d) ∧ Coordinate plotX 0 ∧ Coordinate plotX 3 ∧ HasInfinite plotX :=
  ⟨by decide +kernel, ⟨⟨0, 1, 0⟩, by decide +kernel, by decide +kernel, Or.inl rfl⟩, ⟨⟨1, 3, 1⟩, by decide +kernel, by decide +kernel, Or.inr rfl⟩,
    ⟨⟨0, ⊤, 0⟩, by decide +kernel, by decide +kernel, rfl⟩⟩

/-! ### C102: `transform_plot` -/

section TransformPlot

theorem slice_one {A : Type} (X : List A) (i : Nat) (x : A) (hx : X[i]? = some x) (s : Int) (hs : s = i ∨ (s = (i : Int) - X.length ∧ s ≠ -1)) :
    pySlice (some s) (some (s + 1)) 1 X = [x] := by
  obtain ⟨hlt, hg⟩ := List.getElem?_eq_some_iff.1 hx
  have ha : sliceStart (X.length : Int) 1 (some s) = i := by
    unfold sliceStart adjustBound
    dsimp only
    rcases hs with rfl | ⟨rfl, h1⟩
    · rw [if_neg (by omega), if_neg (by omega), if_neg (by omega)]
    · rw [if_pos (show (i : Int) - X.length < 0 by omega), if_neg (by omega), if_neg (by omega)]
      omega
  have hz : sliceStop (X.length : Int) 1 (some (s + 1)) = (i : Int) + 1 := by
    unfold sliceStop adjustBound
    dsimp only
    rcases hs with rfl | ⟨rfl, h1⟩
    · split_ifs <;> omega
    · split_ifs <;> omega
  unfold pySlice
  dsimp only
  rw [ha, hz]
  have : sliceLen (i : Int) ((i : Int) + 1) 1 = 1 := by
    unfold sliceLen
    rw [if_neg (by omega), if_pos (by omega)]
    simp
  rw [this]
  simp [hx]

theorem slice_last {A : Type} (X : List A) : pySlice (some (-1)) (some (-1 + 1)) 1 X = [] := by
  have : sliceLen (sliceStart (X.length : Int) 1 (some (-1))) (sliceStop (X.length : Int) 1 (some (-1 + 1))) 1 = 0 := by
    unfold sliceStart sliceStop adjustBound sliceLen
    dsimp only
    have h : (-1 : Int) + 1 = 0 := rfl
    rw [h]
    simp only [lt_self_iff_false, if_false]
    split_ifs <;> omega
  unfold pySlice
  dsimp only
  rw [this]
  rfl

/-- **C102.** For a transformer working sample by sample, `transform_plot(X, sample)` returns the transform of that sample alone and shows the same figure as `plot` called on the
transform of the whole collection; the sample may be counted from the end, except by `-1`. The plot may be any function of `Xt[sample]` and `sample`. -/
theorem C102_transform_plot {A B F : Type} (transform : List A → PyM (List B)) (f : A → PyM B) (plot : (Int → PyM B) → Int → PyM F)
    (ht : ∀ Y, Y ≠ [] → transform Y = Y.mapM f) (hp : ∀ at₁ at₂ s, at₁ s = at₂ s → plot at₁ s = plot at₂ s) (X : List A) (R : List B) (hR : transform X = .ok R)
    (i : Nat) (hi : i < X.length) (s : Int) (hs : s = i ∨ (s = (i : Int) - X.length ∧ s ≠ -1)) (fig : F) (hfig : plot (npIndex R) s = .ok fig) :
    ∃ y, R[i]? = some y ∧ transformPlot transform plot X s = .ok ([y], fig) := by
  have hX : X ≠ [] := by rintro rfl; simp at hi
  rw [ht X hX] at hR
  have hlen : R.length = X.length := by
    have : ∀ (X : List A) (R : List B), X.mapM f = .ok R → R.length = X.length := by
      intro X
      induction X with
      | nil =>
        intro R h
        cases h
        rfl
      | cons a X ih =>
        intro R h
        rw [List.mapM_cons] at h
        cases hy : f a with
        | error e => rw [hy] at h; cases h
        | ok y =>
          cases hr : X.mapM f with
          | error e => rw [hy, hr] at h; cases h
          | ok ys =>
            rw [hy, hr] at h
            cases h
            simp [ih ys hr]
    exact this X R hR
  have hval : ∀ (X : List A) (R : List B), X.mapM f = .ok R → ∀ (i : Nat) (h : i < X.length), ∃ y, f X[i] = .ok y ∧ R[i]? = some y := by
    intro X
    induction X with
    | nil => intro R _ i h; simp at h
    | cons a X ih =>
      intro R h i hi
      rw [List.mapM_cons] at h
      cases hy : f a with
      | error e => rw [hy] at h; cases h
      | ok y =>
        cases hr : X.mapM f with
        | error e => rw [hy, hr] at h; cases h
        | ok ys =>
          rw [hy, hr] at h
          cases h
          cases i with
          | zero => exact ⟨y, hy, rfl⟩
          | succ i => exact ih ys hr i (by simpa using hi)
  obtain ⟨y, hy, hyR⟩ := hval X R hR i hi
  refine ⟨y, hyR, ?_⟩
  unfold transformPlot
  rw [slice_one X i X[i] (List.getElem?_eq_getElem hi) s hs, ht _ (by simp), List.mapM_cons, hy]
  have h0 : npIndex [y] 0 = .ok y := rfl
  have hat : npIndex R s = .ok y := by
    rw [npIndex_ok_iff]
    obtain ⟨hlt, hg⟩ := List.getElem?_eq_some_iff.1 hyR
    refine ⟨i, ?_, hlt, hg⟩
    rcases hs with rfl | ⟨rfl, -⟩
    · exact Or.inl rfl
    · exact Or.inr (by rw [hlen])
  have hpl : plot (fun j => if j = s then (.ok y : PyM B) else .error .keyError) s = .ok fig := by
    rw [← hfig]
    apply hp
    rw [if_pos rfl, hat]
  simp only [List.mapM_nil, pure_ok, ok_bind, h0, hpl]

/-- **C102, false for the last sample counted from the end.** `transform_plot(X, sample=-1)` transforms the empty slice `X[-1:0]`, whatever `X` is. -/
theorem C102_refuted_minus_one {A B F : Type} (transform : List A → PyM (List B)) (plot : (Int → PyM B) → Int → PyM F) (X : List A) (e : PyErr)
    (he : transform [] = .error e) : transformPlot transform plot X (-1) = .error e := by
  unfold transformPlot
  rw [slice_last, he]
  rfl

example : transformPlot (fun Y : List Nat => if Y = [] then .error .valueError else Y.mapM fun n => .ok (n + 1)) (fun at_ s => do let y ← at_ s; .ok (s, y)) [5, 6, 7] 1 =
    .ok ([7], (1, 7)) := by decide +kernel
example : transformPlot (fun Y : List Nat => if Y = [] then .error .valueError else Y.mapM fun n => .ok (n + 1)) (fun at_ s => do let y ← at_ s; .ok (s, y)) [5, 6, 7] (-2) =
    .ok ([7], (-2, 7)) := by decide +kernel

variable {K Q : Type} [Field K] [LinearOrder K] [IsStrictOrderedRing K] [LinearOrder Q]

theorem plotDiagram_congr (print : WithTop K → WithTop K → String) (label : Q → String) (hdims : Option (List Q)) (D D' : List (Pt (WithTop K) Q))
    (h : removeDiagonal D = removeDiagonal D') (hq : ∀ q, (∃ p ∈ D, p.q = q) ↔ ∃ p ∈ D', p.q = q) : plotDiagram print label hdims D = plotDiagram print label hdims D' := by
  have hu : (D.map (·.q)).dedup.insertionSort (· ≤ ·) = (D'.map (·.q)).dedup.insertionSort (· ≤ ·) := by
    apply List.Perm.eq_of_pairwise (le := (· ≤ ·))
    · intro a b _ _ h1 h2
      exact le_antisymm h1 h2
    · exact List.pairwise_insertionSort _ _
    · exact List.pairwise_insertionSort _ _
    · refine ((List.perm_insertionSort _ _).trans ?_).trans (List.perm_insertionSort _ _).symm
      rw [List.perm_ext_iff_of_nodup (List.nodup_dedup _) (List.nodup_dedup _)]
      intro q
      rw [List.mem_dedup, List.mem_dedup, List.mem_map, List.mem_map]
      exact hq q
  unfold plotDiagram
  cases hdims with
  | none => simp only [requestedDims, hu, h]
  | some l => simp only [requestedDims, h]

/-- **C102.** For the persistent homology transformers, whose output for a sample is padded depending on the other samples, `transform_plot(X, sample)` still shows exactly the figure
that `plot` shows on the transform of the whole collection. -/
theorem C102_diagrams {S : Type} (fmt : Format) (diagram : Persistence.Fitted (WithTop K) → S → RawDiagram (WithTop K)) (zero lowest : WithTop K) (reduced : Bool)
    (garbage : Nat → Nat → Pt (WithTop K) Nat) (order : List S → List Nat) (hd : List Nat) (infv : Option (WithTop K)) (default : WithTop K)
    (f : Persistence.Fitted (WithTop K)) (hf : Persistence.fit hd infv default = .ok f) (X : List S) (hw : ∀ x ∈ X, WellFormed fmt f.dims (diagram f x))
    (horder : ∀ Y : List S, ∀ i, i < Y.length → i ∈ order Y) (print : WithTop K → WithTop K → String) (label : Nat → String) (hdims : Option (List Nat))
    (i : Nat) (hi : i < X.length) (s : Int) (hs : s = i ∨ (s = (i : Int) - X.length ∧ s ≠ -1)) :
    ∃ R fig D, Persistence.transform fmt diagram zero lowest reduced garbage (order X) f X = .ok R ∧ diagramPlot print label hdims (npIndex R) s = .ok fig ∧
      transformPlot (fun Y => Persistence.transform fmt diagram zero lowest reduced garbage (order Y) f Y) (diagramPlot print label hdims) X s = .ok ([D], fig) := by
  have hX : X ≠ [] := by rintro rfl; simp at hi
  have form : ∀ Y : List S, Y ≠ [] → (∀ x ∈ Y, x ∈ X) → Persistence.transform fmt diagram zero lowest reduced garbage (order Y) f Y =
      .ok (Y.map fun x => f.dims.flatMap fun q => blockOf q (barWidth f.inf zero lowest reduced (Y.map (diagram f)) q) (barPad f.inf zero lowest reduced (Y.map (diagram f)) q)
        (expectedBars f.inf zero lowest reduced (diagram f x) q)) := by
    intro Y hY hm
    have := Props.fitTransform_form fmt diagram zero lowest reduced garbage (order Y) hd infv default Y hY (horder Y) f hf (fun x hx => hw x (hm x hx))
    unfold Persistence.fitTransform at this
    rw [hf, ok_bind] at this
    exact this
  have hx : X[i]? = some X[i] := List.getElem?_eq_getElem hi
  have e1 := form X hX (fun x hx => hx)
  have e2 := form [X[i]] (by simp) (by intro x hx'; rw [List.mem_singleton.1 hx']; exact List.getElem_mem hi)
  set R := X.map fun x => f.dims.flatMap fun q => blockOf q (barWidth f.inf zero lowest reduced (X.map (diagram f)) q) (barPad f.inf zero lowest reduced (X.map (diagram f)) q)
        (expectedBars f.inf zero lowest reduced (diagram f x) q) with hR
  have hlen : R.length = X.length := by rw [hR, List.length_map]
  have hat : npIndex R s = .ok (f.dims.flatMap fun q => blockOf q (barWidth f.inf zero lowest reduced (X.map (diagram f)) q)
      (barPad f.inf zero lowest reduced (X.map (diagram f)) q) (expectedBars f.inf zero lowest reduced (diagram f X[i]) q)) := by
    rw [npIndex_ok_iff]
    refine ⟨i, ?_, by omega, by simp [hR]⟩
    rcases hs with rfl | ⟨rfl, -⟩
    · exact Or.inl rfl
    · exact Or.inr (by rw [hlen])
  refine ⟨R, _, f.dims.flatMap fun q => blockOf q (barWidth f.inf zero lowest reduced ([X[i]].map (diagram f)) q) (barPad f.inf zero lowest reduced ([X[i]].map (diagram f)) q)
        (expectedBars f.inf zero lowest reduced (diagram f X[i]) q), e1, by unfold diagramPlot; rw [hat]; rfl, ?_⟩
  unfold transformPlot
  rw [slice_one X i X[i] hx s hs]
  dsimp only
  rw [e2, ok_bind]
  have h0 : ∀ D : List (Pt (WithTop K) Nat), npIndex [D] 0 = .ok D := fun _ => rfl
  rw [List.map_singleton, h0, ok_bind]
  unfold diagramPlot
  dsimp only
  rw [if_pos rfl, ok_bind, ok_bind]
  congr 2
  apply plotDiagram_congr
  · unfold removeDiagonal
    rw [List.filter_flatMap, List.filter_flatMap]
    congr 1
    funext q
    have hlt : ∀ v ∈ expectedBars f.inf zero lowest reduced (diagram f X[i]) q, v.1 < v.2 := by
      intro v hv
      rw [Props.expectedBars_eq] at hv
      simpa using (List.mem_filter.1 hv).2
    exact (Props.offDiagonal_block q _ _ _ hlt).trans (Props.offDiagonal_block q _ _ _ hlt).symm
  · have key : ∀ (w : Nat → Nat) (pad : Nat → WithTop K) (sub : Nat → List (WithTop K × WithTop K)), (∀ q, 1 ≤ w q) → ∀ q,
        (∃ p ∈ f.dims.flatMap fun q => blockOf q (w q) (pad q) (sub q), p.q = q) ↔ q ∈ f.dims := by
      intro w pad sub hw1 q
      constructor
      · rintro ⟨p, hp, rfl⟩
        obtain ⟨q', hq', hp⟩ := List.mem_flatMap.1 hp
        have : p.q = q' := by
          rcases List.mem_append.1 hp with hp | hp
          · obtain ⟨v, -, rfl⟩ := List.mem_map.1 hp
            rfl
          · rw [List.eq_of_mem_replicate hp]
        rw [this]
        exact hq'
      · intro hq
        have hne : blockOf q (w q) (pad q) (sub q) ≠ [] := by
          intro h
          have hl := congrArg List.length h
          simp only [blockOf, List.length_append, List.length_map, List.length_replicate, List.length_nil] at hl
          have := hw1 q
          omega
        obtain ⟨p, hp⟩ := List.exists_mem_of_ne_nil _ hne
        refine ⟨p, List.mem_flatMap.2 ⟨q, hq, hp⟩, ?_⟩
        rcases List.mem_append.1 hp with hp | hp
        · obtain ⟨v, -, rfl⟩ := List.mem_map.1 hp
          rfl
        · rw [List.eq_of_mem_replicate hp]
    intro q
    have hwd : ∀ Y q, 1 ≤ barWidth f.inf zero lowest reduced Y q := fun Y q => (Gtda.Diagrams.le_foldl_max _ 1).1
    rw [key _ _ _ (fun q => hwd _ q), key _ _ _ (fun q => hwd _ q)]

end TransformPlot

/-! ### C103: curves -/

section Curves
variable {K Q α : Type} [DecidableEq Q]

theorem dimsMapping_some (qs dims : List Q) (h : ∀ q ∈ qs, q ∈ dims) : dimsMapping (some qs) dims = .ok (qs.map fun q => (dims.idxOf q, q)) := by
  unfold dimsMapping
  exact mapM_ok (g := fun q => (dims.idxOf q, q)) fun q hq => by rw [if_pos (h q hq)]

theorem dimsMapping_spec (hdims : Option (List Q)) (dims : List Q) (h : ∀ qs, hdims = some qs → ∀ q ∈ qs, q ∈ dims) :
    ∃ ms, dimsMapping hdims dims = .ok ms ∧ ms.map Prod.snd = hdims.getD dims ∧ ∀ m ∈ ms, dims[m.1]? = some m.2 := by
  cases hdims with
  | none =>
    refine ⟨_, rfl, ?_, ?_⟩
    · simp [List.map_map, Function.comp_def]
    · intro m hm
      obtain ⟨p, hp, rfl⟩ := List.mem_map.1 hm
      exact List.mk_mem_zipIdx_iff_getElem?.1 hp
  | some qs =>
    refine ⟨_, dimsMapping_some qs dims (h qs rfl), ?_, ?_⟩
    · simp [List.map_map, Function.comp_def]
    · intro m hm
      obtain ⟨q, hq, rfl⟩ := List.mem_map.1 hm
      have := h qs rfl q hq
      rw [List.getElem?_eq_getElem (List.idxOf_lt_length_of_mem this), List.getElem_idxOf]

theorem mapM_error_const {A B : Type} (f : A → PyM B) (e : PyErr) (l : List A) (h : ∀ a ∈ l, (∃ b, f a = .ok b) ∨ f a = .error e) (a : A) (ha : a ∈ l) (hf : f a = .error e) :
    l.mapM f = .error e := by
  induction l with
  | nil => cases ha
  | cons x l ih =>
    rw [List.mapM_cons]
    rcases h x (by simp) with ⟨b, hb⟩ | hb
    · have : a ∈ l := by
        rcases List.mem_cons.1 ha with rfl | ha
        · rw [hf] at hb; cases hb
        · exact ha
      rw [hb, ih (fun y hy => h y (by simp [hy])) this]
      rfl
    · rw [hb]
      rfl

/-- **C103.** `BettiCurve.plot` and `Silhouette.plot`: the requested homology dimensions (by default all) are drawn in the requested order, each as one line with its own name,
its own sampled values as abscissae and its own row of the sample as ordinates. -/
theorem C103_curves (label : Q → String) (dims : List Q) (sampling : Q → List K) (hdims : Option (List Q)) (at_ : Int → PyM (List (List α))) (sample : Int)
    (rows : List (List α)) (hat : at_ sample = .ok rows) (hlen : rows.length = dims.length) (hq : ∀ qs, hdims = some qs → ∀ q ∈ qs, q ∈ dims) :
    ∃ ls, curvesPlot label dims sampling hdims at_ sample = .ok ls ∧
      List.Forall₂ (fun q l => l.name = label q ∧ l.x = sampling q ∧ RowOf dims rows q l.y) (hdims.getD dims) ls := by
  obtain ⟨ms, h1, h2, h3⟩ := dimsMapping_spec hdims dims hq
  have hlt : ∀ m ∈ ms, m.1 < rows.length := by
    intro m hm
    rw [hlen]
    exact (List.getElem?_eq_some_iff.1 (h3 m hm)).1
  refine ⟨ms.map fun m => ⟨sampling m.2, rows.getD m.1 [], label m.2⟩, ?_, ?_⟩
  · unfold curvesPlot
    rw [h1, ok_bind]
    apply mapM_ok
    intro m hm
    rw [hat, ok_bind, npIndex_nat rows m.1 (hlt m hm), ok_bind, List.getD_eq_getElem _ _ (hlt m hm)]
  · rw [← h2, List.forall₂_map_left_iff, List.forall₂_map_right_iff, List.forall₂_same]
    intro m hm
    refine ⟨rfl, rfl, m.1, h3 m hm, ?_⟩
    rw [List.getD_eq_getElem _ _ (hlt m hm)]
    exact List.getElem?_eq_getElem (hlt m hm)

/-- **C103.** A requested homology dimension that was not seen by `fit` is refused with a `ValueError`, for curves and landscapes. -/
theorem C103_unknown (label : Q → String) (dims qs : List Q) (sampling : Q → List K) (at_ : Int → PyM (List (List α))) (sample : Int) (q : Q) (hq : q ∈ qs) (hn : q ∉ dims) :
    curvesPlot label dims sampling (some qs) at_ sample = .error .valueError ∧ landscapePlot label dims sampling (some qs) at_ sample = .error .valueError := by
  have : dimsMapping (some qs) dims = .error .valueError := by
    unfold dimsMapping
    refine mapM_error_const _ _ qs ?_ q hq (by rw [if_neg hn])
    intro a _
    by_cases h : a ∈ dims
    · exact Or.inl ⟨_, by rw [if_pos h]⟩
    · exact Or.inr (by rw [if_neg h])
  constructor
  · unfold curvesPlot
    rw [this]
    rfl
  · unfold landscapePlot
    rw [this]
    rfl

/-- **C103.** `PersistenceLandscape.plot`: one subplot per requested homology dimension, titled by it, with the layers of that dimension in order: layer `k + 1` is row
`j * n_layers + k` of the sample, where `j` is the position of the dimension. -/
theorem C103_landscapes (label : Q → String) (dims : List Q) (sampling : Q → List K) (hdims : Option (List Q)) (at_ : Int → PyM (List (List α))) (sample : Int)
    (rows : List (List α)) (nLayers : Nat) (hat : at_ sample = .ok rows) (hd : dims ≠ []) (hlen : rows.length = dims.length * nLayers)
    (hq : ∀ qs, hdims = some qs → ∀ q ∈ qs, q ∈ dims) :
    ∃ figs, landscapePlot label dims sampling hdims at_ sample = .ok figs ∧
      List.Forall₂ (fun q fig => fig.1 = label q ∧ fig.2.length = nLayers ∧ ∃ j : Nat, dims[j]? = some q ∧ ∀ (k : Nat) (l : Line K α), fig.2[k]? = some l →
        l.x = sampling q ∧ rows[j * nLayers + k]? = some l.y ∧
          l.name = "Layer " ++ toString (k + 1) ++ (if 1 < (hdims.getD dims).length then " (" ++ label q ++ ")" else "")) (hdims.getD dims) figs := by
  obtain ⟨ms, h1, h2, h3⟩ := dimsMapping_spec hdims dims hq
  have hl0 : dims.length ≠ 0 := by simpa using hd
  have hn : rows.length / dims.length = nLayers := by
    rw [hlen]
    exact Nat.mul_div_cancel_left nLayers (by omega)
  have hms : (hdims.getD dims).length = ms.length := by rw [← h2, List.length_map]
  have hlt : ∀ m ∈ ms, ∀ k, k < nLayers → m.1 * nLayers + k < rows.length := by
    intro m hm k hk
    have := (List.getElem?_eq_some_iff.1 (h3 m hm)).1
    rw [hlen]
    calc m.1 * nLayers + k < m.1 * nLayers + nLayers := by omega
      _ = (m.1 + 1) * nLayers := by ring
      _ ≤ dims.length * nLayers := Nat.mul_le_mul_right _ this
  refine ⟨ms.map fun m => (label m.2, (List.range nLayers).map fun (k : Nat) => (⟨sampling m.2, rows.getD (m.1 * nLayers + k) [],
    "Layer " ++ toString (k + 1) ++ (if ms.length - 1 ≠ 0 then " (" ++ label m.2 ++ ")" else "")⟩ : Line K α)), ?_, ?_⟩
  · unfold landscapePlot
    rw [h1, ok_bind, hat, ok_bind, if_neg hl0]
    dsimp only
    rw [hn]
    apply mapM_ok
    intro m hm
    rw [mapM_ok (g := fun (k : Nat) => (⟨sampling m.2, rows.getD (m.1 * nLayers + k) [],
      "Layer " ++ toString (k + 1) ++ (if ms.length - 1 ≠ 0 then " (" ++ label m.2 ++ ")" else "")⟩ : Line K α))]
    · rfl
    · intro k hk
      have hk := hlt m hm k (List.mem_range.1 hk)
      rw [npIndex_nat rows _ hk, ok_bind, List.getD_eq_getElem _ _ hk]
  · rw [hms]
    conv in (hdims.getD dims) => rw [← h2]
    rw [List.forall₂_map_left_iff, List.forall₂_map_right_iff, List.forall₂_same]
    intro m hm
    refine ⟨rfl, by simp, m.1, h3 m hm, ?_⟩
    intro k l hl
    rw [List.getElem?_map] at hl
    by_cases hk : k < nLayers
    · rw [List.getElem?_range hk, Option.map_some, Option.some.injEq] at hl
      rw [← hl]
      refine ⟨rfl, ?_, ?_⟩
      · dsimp only
        rw [List.getD_eq_getElem _ _ (hlt m hm k hk)]
        exact List.getElem?_eq_getElem (hlt m hm k hk)
      · dsimp only
        congr 1
        by_cases h : 1 < ms.length
        · rw [if_pos h, if_pos (by omega)]
        · rw [if_neg h, if_neg (by omega)]
    · rw [List.getElem?_eq_none (by simpa using hk)] at hl
      cases hl

end Curves

section CurvesEndToEnd
variable {K Q : Type} [Field K] [LinearOrder K] [IsStrictOrderedRing K] [DecidableEq Q]

/-- **C103.** From diagrams to the plot of their Betti curves: for diagram `i` and every requested dimension `q`, the line named after `q` has at each sampled value the number of
points of that diagram in that dimension alive there. -/
theorem C103_betti (label : Q → String) (dims : List Q) (sampling : Q → List K) (nJobs : Nat) (X : List (List (Pt K Q))) (hn : 1 ≤ nJobs) (hd : dims ≠ []) (hX : X ≠ [])
    (hE : ∀ q ∈ dims, EqualCounts X q) (hdims : Option (List Q)) (hq : ∀ qs, hdims = some qs → ∀ q ∈ qs, q ∈ dims) (i : Nat) (D : List (Pt K Q)) (hD : X[i]? = some D) :
    ∃ R, bettiTransform dims sampling nJobs X = .ok R ∧ curvesPlot label dims sampling hdims (npIndex R) (i : Int) =
      .ok ((hdims.getD dims).map fun q => ⟨sampling q, (sampling q).map fun s => aliveAt D q s, label q⟩) := by
  refine ⟨_, bettiTransform_eq dims sampling nJobs X hn hd hX hE, ?_⟩
  obtain ⟨hlt, hg⟩ := List.getElem?_eq_some_iff.1 hD
  have hat : npIndex (X.map fun D => dims.map fun q => (sampling q).map fun s => aliveAt D q s) (i : Int) = .ok (dims.map fun q => (sampling q).map fun s => aliveAt D q s) := by
    rw [npIndex_nat _ i (by simpa using hlt)]
    simp [hg]
  obtain ⟨ls, h1, h2⟩ := C103_curves label dims sampling hdims (npIndex _) (i : Int) _ hat (by simp) hq
  rw [h1]
  congr 1
  have : ∀ (qs : List Q) (ls : List (Line K Nat)), List.Forall₂ (fun q l => l.name = label q ∧ l.x = sampling q ∧
      RowOf dims (dims.map fun q => (sampling q).map fun s => aliveAt D q s) q l.y) qs ls → ls = qs.map fun q => ⟨sampling q, (sampling q).map fun s => aliveAt D q s, label q⟩ := by
    intro qs ls h
    induction h with
    | nil => rfl
    | @cons q l qs ls h _ ih =>
      rw [List.map_cons, ← ih]
      congr 1
      obtain ⟨ha, hb, j, hj, hr⟩ := h
      rw [List.getElem?_map, hj, Option.map_some, Option.some.injEq] at hr
      cases l
      simp only at ha hb hr
      rw [ha, hb, hr]
  exact this _ _ h2

end CurvesEndToEnd

example : curvesPlot (fun q : Nat => "H" ++ toString q) [0, 1] (fun _ => [0, 1, 2]) (some [1]) (npIndex [[[1, 2, 1], [0, 0, 0]], [[1, 0, 0], [1, 1, 1]]]) 1 =
    .ok [(⟨[0, 1, 2], [1, 1, 1], "H1"⟩ : Line ℚ Nat)] := by decide +kernel
example : landscapePlot (fun q : Nat => "H" ++ toString q) [0, 1] (fun _ => [0, 1]) (some [1]) (npIndex [[[1, 2], [3, 4], [5, 6], [7, 8]]]) 0 =
    .ok [("H1", [(⟨[0, 1], [5, 6], "Layer 1"⟩ : Line ℚ Nat), ⟨[0, 1], [7, 8], "Layer 2"⟩])] := by decide +kernel

/-! ### C104: Betti curves and surfaces as functions -/

section Betti
variable {K α : Type}

/-- **C104, partial.** `plot_betti_curves` on curves in the homology dimensions `0, 1, …, n - 1`: each requested dimension is drawn with its own sampled values and its own
curve. Missing: other homology dimensions (see `C104_refuted_dimensions`). -/
theorem C104_curves_partial (betti : List (List α)) (sampling : Nat → List K) (hdims : Option (List Nat)) (hq : ∀ qs, hdims = some qs → ∀ q ∈ qs, q < betti.length) :
    ∃ ls, plotBettiCurves betti (some fun q => if q < betti.length then some (sampling q) else none) hdims = .ok ls ∧
      List.Forall₂ (fun q l => l.name = "H" ++ toString q ∧ l.x = sampling q ∧ betti[q]? = some l.y) (hdims.getD (List.range betti.length)) ls := by
  have hlt : ∀ q ∈ hdims.getD (List.range betti.length), q < betti.length := by
    cases hdims with
    | none => intro q hq'; simpa using hq'
    | some qs => exact hq qs rfl
  refine ⟨(hdims.getD (List.range betti.length)).map fun q => ⟨sampling q, betti.getD q [], "H" ++ toString q⟩, ?_, ?_⟩
  · unfold plotBettiCurves
    apply mapM_ok
    intro q hm
    have h := hlt q hm
    simp only [lookup, if_pos h, ok_bind]
    rw [npIndex_nat betti q h, ok_bind, List.getD_eq_getElem _ _ h]
  · rw [List.forall₂_map_right_iff, List.forall₂_same]
    intro q hm
    refine ⟨rfl, rfl, ?_⟩
    have h := hlt q hm
    dsimp only
    rw [List.getD_eq_getElem _ _ h]
    exact List.getElem?_eq_getElem h

/-- **C104, false for other homology dimensions.** Rows are looked up by the number of the dimension instead of its position: for the Betti curves `c₁`, `c₂` in dimensions 1 and 2
the line `H1` shows the curve of dimension 2, the dimension 2 gives an `IndexError`, and the default gives a `KeyError`. -/
theorem C104_refuted_dimensions (c₁ c₂ : List α) (s₁ s₂ : List K) :
    let samplings : Option (Nat → Option (List K)) := some fun q => if q = 1 then some s₁ else if q = 2 then some s₂ else none
    plotBettiCurves [c₁, c₂] samplings (some [1]) = .ok [⟨s₁, c₂, "H1"⟩] ∧ plotBettiCurves [c₁, c₂] samplings (some [2]) = .error .indexError ∧
      plotBettiCurves [c₁, c₂] samplings none = .error .keyError := ⟨rfl, rfl, rfl⟩

/-- **C104, partial.** `plot_betti_surfaces` on at least two samples with curves in the homology dimensions `0, …, n - 1`: one surface per requested dimension, over its sampled
values and the numbers of the samples, whose `i`-th row is the curve of sample `i` in that dimension. One sample gives the plot of its Betti curves. -/
theorem C104_surfaces_partial (nDims : Nat) (curves : List (List (List α))) (sampling : Nat → List K) (hdims : Option (List Nat))
    (hc : ∀ c ∈ curves, c.length = nDims) (hq : ∀ qs, hdims = some qs → ∀ q ∈ qs, q < nDims) :
    let samplings : Option (Nat → Option (List K)) := some fun q => if q < nDims then some (sampling q) else none
    (curves.length ≠ 1 → ∃ l, plotBettiSurfaces nDims curves samplings hdims = .ok (.surfaces l) ∧
      List.Forall₂ (fun q S => S.title = "Betti surface for homology dimension " ++ toString q ∧ S.x = sampling q ∧ S.y = List.range curves.length ∧
        List.Forall₂ (fun c z => c[q]? = some z) curves S.z) (hdims.getD (List.range nDims)) l) ∧
    (∀ c, curves = [c] → plotBettiSurfaces nDims curves samplings hdims = (plotBettiCurves c samplings hdims).map .curves) := by
  intro samplings
  have hlt : ∀ q ∈ hdims.getD (List.range nDims), q < nDims := by
    cases hdims with
    | none => intro q hq'; simpa using hq'
    | some qs => exact hq qs rfl
  constructor
  · intro h1
    refine ⟨(hdims.getD (List.range nDims)).map fun q => ⟨sampling q, List.range curves.length, curves.map fun c => c.getD q [],
      "Betti surface for homology dimension " ++ toString q⟩, ?_, ?_⟩
    · unfold plotBettiSurfaces
      split
      · rename_i c
        simp at h1
      · rw [mapM_ok (g := fun q => (⟨sampling q, List.range curves.length, curves.map fun c => c.getD q [], "Betti surface for homology dimension " ++ toString q⟩ : Surface K α))]
        · rfl
        · intro q hm
          have h := hlt q hm
          simp only [samplings, lookup, if_pos h, ok_bind]
          rw [mapM_ok (g := fun c : List (List α) => c.getD q [])]
          · rfl
          · intro c hcm
            have hcl : q < c.length := by rw [hc c hcm]; exact h
            rw [npIndex_nat c q hcl, List.getD_eq_getElem _ _ hcl]
    · rw [List.forall₂_map_right_iff, List.forall₂_same]
      intro q hm
      refine ⟨rfl, rfl, rfl, ?_⟩
      dsimp only
      rw [List.forall₂_map_right_iff, List.forall₂_same]
      intro c hcm
      have hcl : q < c.length := by rw [hc c hcm]; exact hlt q hm
      rw [List.getD_eq_getElem _ _ hcl]
      exact List.getElem?_eq_getElem hcl
  · rintro c rfl
    unfold plotBettiSurfaces
    dsimp only
    cases plotBettiCurves c samplings hdims <;> rfl

/-- **C104, false for the default of `samplings`.** Without samplings the documented default raises a `TypeError` as soon as there is a dimension to draw. -/
theorem C104_refuted_default_samplings (nDims : Nat) (hn : 0 < nDims) (curves : List (List (List α))) (hc : ∀ c ∈ curves, c.length = nDims) :
    plotBettiSurfaces (K := K) nDims curves none none = .error .typeError := by
  have key : ∀ (n : Nat), 0 < n → ∀ {B : Type} (g : Nat → PyM B), (∀ q, g q = .error .typeError) → (List.range n).mapM g = .error .typeError := by
    intro n h B g hg
    refine mapM_error_const _ _ _ (fun a _ => Or.inr (hg a)) 0 (by simpa using h) (hg 0)
  unfold plotBettiSurfaces
  split
  · rename_i c
    have : c.length = nDims := hc c (by simp)
    unfold plotBettiCurves
    rw [Option.getD_none, this]
    change (List.mapM (fun _ => (Except.error PyErr.typeError : PyM (Line K α))) (List.range nDims) >>= fun l => .ok (Surfaces.curves l)) = _
    rw [key nDims hn _ (fun _ => rfl)]
    rfl
  · rw [Option.getD_none]
    change (List.mapM (fun _ => (Except.error PyErr.typeError : PyM (Surface K α))) (List.range nDims) >>= fun l => .ok (Surfaces.surfaces l)) = _
    rw [key nDims hn _ (fun _ => rfl)]
    rfl

end Betti

example : plotBettiSurfaces 2 [[[1, 2], [3, 4]], [[5, 6], [7, 8]]] (some fun q => if q < 2 then some [(q : ℚ), 9] else none) (some [1]) =
    .ok (.surfaces [⟨[1, 9], [0, 1], [[3, 4], [7, 8]], "Betti surface for homology dimension 1"⟩]) := by decide +kernel

/-! ### C105: derivatives -/

section Derivative
variable {α : Type}

/-- **C105, partial.** `Derivative.plot` without `channels`: one line per channel, named after it, whose ordinates are the row of that channel. The abscissae are `0, …, n_channels - 1`;
they number the entries of the row only if there are as many entries as channels. Missing: chosen channels and abscissae in general (see the refutations). -/
theorem C105_all_channels_partial (at_ : Int → PyM (List (List α))) (sample : Int) (rows : List (List α)) (hat : at_ sample = .ok rows) :
    ∃ ls, derivativePlot rows.length none at_ sample = .ok ls ∧ ls.length = rows.length ∧
      ∀ (c : Nat) r, rows[c]? = some r → ∃ l, ls[c]? = some l ∧ l.name = "Channel " ++ toString (c : Int) ∧ l.y = r ∧ l.x = List.range rows.length := by
  refine ⟨(((List.range rows.length).map fun (c : Nat) => (c : Int)).zipIdx).map fun c => ⟨List.range rows.length, rows.getD c.2 [], "Channel " ++ toString c.1⟩, ?_, by simp, ?_⟩
  · unfold derivativePlot
    dsimp only
    rw [hat, ok_bind]
    apply mapM_ok
    rintro ⟨c, k⟩ hm
    have hk : k < rows.length := by
      have := List.mk_mem_zipIdx_iff_getElem?.1 hm
      have := (List.getElem?_eq_some_iff.1 this).1
      simpa using this
    dsimp only
    rw [npIndex_nat rows k hk, ok_bind, List.getD_eq_getElem _ _ hk]
  · intro c r hr
    obtain ⟨hlt, hg⟩ := List.getElem?_eq_some_iff.1 hr
    refine ⟨⟨List.range rows.length, r, "Channel " ++ toString (c : Int)⟩, ?_, rfl, rfl, rfl⟩
    simp [List.getElem?_zipIdx, List.getElem?_range hlt, hr]

/-- **C105, false for chosen channels.** Asked for channel 1 of two, `Derivative.plot` draws channel 0 and names it `Channel 1`. -/
theorem C105_refuted_channels (r₀ r₁ : List α) : derivativePlot 2 (some [1]) (npIndex [[r₀, r₁]]) 0 = .ok [⟨[0, 1], r₀, "Channel 1"⟩] := rfl

/-- **C105, false for abscissae.** Whatever the length of the curves, the number of abscissae is the number of channels: a single channel gets one abscissa for all its values. -/
theorem C105_refuted_abscissae (r : List α) : derivativePlot 1 none (npIndex [[r]]) 0 = .ok [⟨[0], r, "Channel 0"⟩] := rfl

end Derivative

example : derivativePlot 2 none (npIndex [[[1, 2], [3, 4]]]) 0 = .ok [⟨[0, 1], [1, 2], "Channel 0"⟩, ⟨[0, 1], [3, 4], "Channel 1"⟩] := by decide +kernel

/-! ### C106: heat maps -/

section Heat
variable {K Q : Type} [Field K] [LinearOrder K] [IsStrictOrderedRing K] [FloorRing K] [DecidableEq Q]

theorem reverse_get (s : List K) (n : Nat) (h : s.length = n) (c : Nat) (hc : c < n) (y : K) (hy : s[c]? = some y) : s.reverse[n - 1 - c]? = some y := by
  rw [List.getElem?_reverse (by omega), h, show n - 1 - (n - 1 - c) = c by omega]
  exact hy

/-- **C106.** From diagrams to the plot of their heat kernels: at abscissa `x = sampling[a]` and ordinate `y = sampling[c]` the heat map of diagram `i` in the dimension with index `j`
shows `(G I [a, c] - G I [c, a]) / step²`, where the raster `I` counts at `[a, c]` the points with birth in bin `a` and death in bin `c`: births run along the horizontal and deaths along
the vertical axis, both increasing. -/
theorem C106_heat (G : List (List K) → List (List K)) (n : Nat) (dims : List Q) (sampling : Q → List K) (lo hi step : Q → K) (nJobs : Nat)
    (X : List (List (Pt K Q))) (hn : 1 ≤ nJobs) (hd : dims ≠ []) (hX : X ≠ []) (hE : ∀ q ∈ dims, EqualCounts X q) (hb : 2 ≤ n)
    (hs : ∀ q ∈ dims, 0 < step q ∧ EquallySpaced (sampling q) n (lo q) (hi q) (step q)) (hG : ∀ I, SquareImage n I → SquareImage n (G I))
    (i j : Nat) (D : List (Pt K Q)) (q : Q) (hD : X[i]? = some D) (hq : dims[j]? = some q) :
    ∃ R fig I, heatTransform G dims sampling step nJobs X = .ok R ∧ heatPlot dims sampling (j : Int) (npIndex R) (i : Int) = .ok fig ∧ SquareImage n I ∧
      (∀ a c : Nat, a < n → c < n → entry2 I a c = some (((pointsIn D q).countP fun p => decide (clamp (lo q) (hi q) p.b ≠ clamp (lo q) (hi q) p.d ∧
        InBin (lo q) (step q) a (clamp (lo q) (hi q) p.b) ∧ InBin (lo q) (step q) c (clamp (lo q) (hi q) p.d)) : Nat) : K)) ∧
      ∀ (a c : Nat) x y, (sampling q)[a]? = some x → (sampling q)[c]? = some y → ∃ u v, entry2 (G I) a c = some u ∧ entry2 (G I) c a = some v ∧
        Shows fig x y ((u - v) / step q ^ 2) := by
  have hmem : q ∈ dims := List.mem_of_getElem? hq
  obtain ⟨hst, hsp⟩ := hs q hmem
  obtain ⟨R, hR, hlen, hent⟩ := Props.heatTransform_one G n dims sampling lo hi step nJobs X hn hd hX hE hb (fun q hq => ⟨(hs q hq).1.le, (hs q hq).2⟩) hG
  obtain ⟨H, hH, hHe, -⟩ := hent i j D q hD hq
  obtain ⟨H', hH', hsq, -, hform⟩ := Props.C30_heat_antisymmetric G (sampling q) n (lo q) (hi q) (step q) hb hst.le hsp hG (pointsIn D q)
  rw [hH'] at hHe
  cases hHe
  obtain ⟨I, hI, hIe⟩ := hform hst
  obtain ⟨I', hI', hIsq, hIc, -⟩ := Props.C30_raster (sampling q) n (lo q) (hi q) (step q) hb hst hsp (pointsIn D q)
  rw [hI] at hI'
  cases hI'
  have hslen : (sampling q).length = n := hsp.1
  unfold entry2 at hH
  cases hr : R[i]? with
  | none => rw [hr] at hH; cases hH
  | some r =>
    rw [hr] at hH
    have hrj : r[j]? = some H := hH
    obtain ⟨hi', hgi⟩ := List.getElem?_eq_some_iff.1 hr
    obtain ⟨hj', hgj⟩ := List.getElem?_eq_some_iff.1 hrj
    obtain ⟨hjd, hgq⟩ := List.getElem?_eq_some_iff.1 hq
    refine ⟨R, ⟨H, sampling q, (sampling q).reverse⟩, I, hR, ?_, hIsq, hIc, ?_⟩
    · unfold heatPlot
      rw [npIndex_nat dims j hjd, hgq, ok_bind, npIndex_nat R i hi', hgi, ok_bind, npIndex_nat r j hj', hgj, ok_bind]
    · intro a c x y hx hy
      have ha : a < n := by rw [← hslen]; exact (List.getElem?_eq_some_iff.1 hx).1
      have hc : c < n := by rw [← hslen]; exact (List.getElem?_eq_some_iff.1 hy).1
      obtain ⟨u, v, hu, hv, huv⟩ := hIe (n - 1 - c) a (by omega) ha
      rw [show n - 1 - (n - 1 - c) = c by omega] at hu hv
      exact ⟨u, v, hu, hv, n - 1 - c, a, reverse_get _ n hslen c hc y hy, hx, huv⟩

/-- **C106.** From diagrams to the plot of their persistence images: at abscissa `x = s₀[a]` and ordinate `y = s₁[c]` the heat map shows `G I [a, c] / (step₀ step₁)`, where the raster
`I` has at `[a, c]` the weight of `s₁[c]` times the number of points with birth in bin `a` and lifetime in bin `c`: births run along the horizontal and lifetimes along the vertical axis. -/
theorem C106_image (G : List (List K) → List (List K)) (w : K → K) (n : Nat) (dims : List Q) (s₀ s₁ : Q → List K) (lo₀ hi₀ step₀ lo₁ hi₁ step₁ : Q → K) (nJobs : Nat)
    (X : List (List (Pt K Q))) (hn : 1 ≤ nJobs) (hd : dims ≠ []) (hX : X ≠ []) (hE : ∀ q ∈ dims, EqualCounts X q) (hb : 2 ≤ n)
    (hs₀ : ∀ q ∈ dims, 0 < step₀ q ∧ EquallySpaced (s₀ q) n (lo₀ q) (hi₀ q) (step₀ q)) (hs₁ : ∀ q ∈ dims, 0 < step₁ q ∧ EquallySpaced (s₁ q) n (lo₁ q) (hi₁ q) (step₁ q))
    (hG : ∀ I, SquareImage n I → SquareImage n (G I)) (i j : Nat) (D : List (Pt K Q)) (q : Q) (hD : X[i]? = some D) (hq : dims[j]? = some q) :
    ∃ R fig I, imageTransform G w dims s₀ s₁ step₀ step₁ nJobs X = .ok R ∧ imagePlot dims s₀ s₁ (j : Int) (npIndex R) (i : Int) = .ok fig ∧ SquareImage n I ∧
      (∀ a c : Nat, a < n → c < n → entry2 I a c = some (((pointsIn D q).countP fun p => decide (clamp (lo₁ q) (hi₁ q) (p.d - p.b) ≠ 0 ∧
        InBin (lo₀ q) (step₀ q) a (clamp (lo₀ q) (hi₀ q) p.b) ∧ InBin (lo₁ q) (step₁ q) c (clamp (lo₁ q) (hi₁ q) (p.d - p.b))) : Nat) * w (lo₁ q + (c : K) * step₁ q))) ∧
      ∀ (a c : Nat) x y, (s₀ q)[a]? = some x → (s₁ q)[c]? = some y → ∃ u, entry2 (G I) a c = some u ∧ Shows fig x y (u / (step₀ q * step₁ q)) := by
  have : Inhabited K := ⟨0⟩
  have hmem : q ∈ dims := List.mem_of_getElem? hq
  have one : ∀ q ∈ dims, ∀ D : List (Pt K Q), ∃ I H, imageOne G (s₀ q) (s₁ q) (step₀ q) (step₁ q) ((s₁ q).map w) D = .ok H ∧ SquareImage n I ∧
      (∀ a c : Nat, a < n → c < n → entry2 I a c = some ((D.countP fun p => decide (clamp (lo₁ q) (hi₁ q) (p.d - p.b) ≠ 0 ∧
        InBin (lo₀ q) (step₀ q) a (clamp (lo₀ q) (hi₀ q) p.b) ∧ InBin (lo₁ q) (step₁ q) c (clamp (lo₁ q) (hi₁ q) (p.d - p.b))) : Nat) * w (lo₁ q + (c : K) * step₁ q))) ∧
      ∀ a c : Nat, a < n → c < n → ∃ u, entry2 (G I) a c = some u ∧ entry2 H (n - 1 - c) a = some (u / (step₀ q * step₁ q)) := by
    intro q hq D
    obtain ⟨I, hI, hsq, hent⟩ := Props.C31_raster (s₀ q) (s₁ q) n _ _ _ _ _ _ hb (hs₀ q hq).1 (hs₁ q hq).1 (hs₀ q hq).2 (hs₁ q hq).2 w D
    obtain ⟨g, hg⟩ := (Props.squareImage_iff n _).mp (hG I hsq)
    refine ⟨I, image2 n fun i j => g j (n - 1 - i) / (step₀ q * step₁ q), ?_, hsq, hent, ?_⟩
    · unfold imageOne
      dsimp only
      rw [if_neg (by rw [not_or]; exact ⟨(hs₀ q hq).1.ne', (hs₁ q hq).1.ne'⟩), hI, ok_bind, (hs₀ q hq).2.1, hg, rot90_image2, map_image2]
    · intro a c ha hc
      refine ⟨g a c, by rw [hg]; exact Props.entry2_image2 n g a c ha hc, ?_⟩
      rw [Props.entry2_image2 n _ _ _ (by omega) ha, show n - 1 - (n - 1 - c) = c by omega]
  let g : Q → List (Pt K Q) → List (List K) := fun q D => match imageOne G (s₀ q) (s₁ q) (step₀ q) (step₁ q) ((s₁ q).map w) D with | .ok H => H | .error _ => []
  have hg : ∀ q ∈ dims, ∀ D : List (Pt K Q), imageOne G (s₀ q) (s₁ q) (step₀ q) (step₁ q) ((s₁ q).map w) D = .ok (g q D) := by
    intro q hq D
    obtain ⟨I, H, hH, -⟩ := one q hq D
    simp only [g, hH]
  have hR := Props.perDim_mapM (fun q => imageOne G (s₀ q) (s₁ q) (step₀ q) (step₁ q) ((s₁ q).map w)) g dims nJobs X hn hd hX hE (fun q hq D _ => hg q hq _)
  obtain ⟨I, H, hH, hsq, hent, hval⟩ := one q hmem (pointsIn D q)
  have hgH : g q (pointsIn D q) = H := by
    have := hg q hmem (pointsIn D q)
    rw [hH] at this
    exact (Except.ok.inj this).symm
  obtain ⟨hi', hgi⟩ := List.getElem?_eq_some_iff.1 hD
  obtain ⟨hjd, hgq⟩ := List.getElem?_eq_some_iff.1 hq
  refine ⟨_, ⟨H, s₀ q, (s₁ q).reverse⟩, I, hR, ?_, hsq, hent, ?_⟩
  · unfold imagePlot
    rw [npIndex_nat dims j hjd, hgq, ok_bind, npIndex_nat _ i (by simpa using hi'), ok_bind, npIndex_nat _ j (by simpa using hjd), ok_bind]
    simp [hgi, hgq, hgH]
  · intro a c x y hx hy
    have l0 := (hs₀ q hmem).2.1
    have l1 := (hs₁ q hmem).2.1
    have ha : a < n := by rw [← l0]; exact (List.getElem?_eq_some_iff.1 hx).1
    have hc : c < n := by rw [← l1]; exact (List.getElem?_eq_some_iff.1 hy).1
    obtain ⟨u, hu, hv⟩ := hval a c ha hc
    exact ⟨u, hu, n - 1 - c, a, reverse_get _ n l1 c hc y hy, hx, hv⟩

end Heat

example : heatPlot [0] (fun _ => ([0, 1, 2] : List ℚ)) 0 (npIndex [[[[1, 1, 0], [0, 0, -1], [0, 0, -1]]]]) 0 =
    .ok (⟨[[1, 1, 0], [0, 0, -1], [0, 0, -1]], [0, 1, 2], [2, 1, 0]⟩ : Heatmap ℚ ℚ) := by decide +kernel
/-- The heat map of the example for `C30_raster` (points `(0, 2)` and `(1, 3)`, the latter cut at 2): value 1 at birth 0 and death 2. -/
example : Shows (⟨[[1, 1, 0], [0, 0, -1], [0, 0, -1]], [0, 1, 2], [2, 1, 0]⟩ : Heatmap ℚ ℚ) 0 2 1 := ⟨0, 0, rfl, rfl, rfl⟩

/-! ### C107: point clouds -/

section Cloud
variable {α : Type}

theorem cloudColumn_ok (cloud : List (List α)) (ncols j : Nat) (hc : ∀ p ∈ cloud, p.length = ncols) (hj : j < ncols) :
    ∃ col, cloudColumn cloud j = .ok col ∧ List.Forall₂ (fun p v => p[j]? = some v) cloud col := by
  induction cloud with
  | nil => exact ⟨[], rfl, .nil⟩
  | cons p cloud ih =>
    obtain ⟨col, h1, h2⟩ := ih (fun p hp => hc p (by simp [hp]))
    have hl : j < p.length := by rw [hc p (by simp)]; exact hj
    refine ⟨p[j] :: col, ?_, .cons (List.getElem?_eq_getElem hl) h2⟩
    unfold cloudColumn at *
    rw [List.mapM_cons, npIndex_nat p j hl, ok_bind, h1]
    rfl

/-- **C107, partial.** `plot_point_cloud` on a cloud with at least two coordinates draws every point once, in order, at its first two coordinates (`dimension=2`, or two coordinates) or
first three (`dimension=3`, or no choice and at least three coordinates). Missing: clouds with one coordinate (see `C107_refuted_one_coordinate`). -/
theorem C107_cloud_partial (ncols : Nat) (cloud : List (List α)) (hc : ∀ p ∈ cloud, p.length = ncols) (dimension : Option Nat)
    (hd : dimension = none ∧ 2 ≤ ncols ∨ (dimension = some 2 ∧ 2 ≤ ncols) ∨ (dimension = some 3 ∧ 3 ≤ ncols)) :
    (dimension = some 2 ∨ ncols = 2 → ∃ x y, plotPointCloud ncols cloud (match dimension with | none => .none | some n => .int n) =
      .ok (.two x y (List.range cloud.length)) ∧ List.Forall₂ (fun p v => p[0]? = some v) cloud x ∧ List.Forall₂ (fun p v => p[1]? = some v) cloud y) ∧
    (dimension ≠ some 2 ∧ ncols ≠ 2 → ∃ x y z, plotPointCloud ncols cloud (match dimension with | none => .none | some n => .int n) =
      .ok (.three x y z (List.range cloud.length)) ∧ List.Forall₂ (fun p v => p[0]? = some v) cloud x ∧ List.Forall₂ (fun p v => p[1]? = some v) cloud y ∧
        List.Forall₂ (fun p v => p[2]? = some v) cloud z) := by
  have h2 : 2 ≤ ncols := by
    rcases hd with ⟨-, h⟩ | ⟨-, h⟩ | ⟨-, h⟩ <;> omega
  obtain ⟨x, hx, hx'⟩ := cloudColumn_ok cloud ncols 0 hc (by omega)
  obtain ⟨y, hy, hy'⟩ := cloudColumn_ok cloud ncols 1 hc (by omega)
  have c0 : checkParam dimensionRef .none = .ok () := rfl
  have c2 : checkParam dimensionRef (.int (2 : Nat)) = .ok () := by decide +kernel
  have c3 : checkParam dimensionRef (.int (3 : Nat)) = .ok () := by decide +kernel
  constructor
  · intro h
    refine ⟨x, y, ?_, hx', hy'⟩
    have two : ∀ v : PyVal, checkParam dimensionRef v = .ok () → effectiveDimension ncols v = 2 →
        plotPointCloud ncols cloud v = .ok (.two x y (List.range cloud.length)) := by
      intro v hv h2'
      unfold plotPointCloud
      rw [hv, ok_bind]
      dsimp only
      rw [h2', if_neg (by omega), if_pos rfl, hx, ok_bind, hy, ok_bind]
    rcases hd with ⟨rfl, -⟩ | ⟨rfl, -⟩ | ⟨rfl, h3⟩
    · have : ncols = 2 := by simpa using h
      exact two .none c0 (by simp [effectiveDimension, this])
    · exact two _ c2 rfl
    · exfalso
      rcases h with h | h
      · simp at h
      · omega
  · intro h
    have h3 : 3 ≤ ncols := by omega
    obtain ⟨z, hz, hz'⟩ := cloudColumn_ok cloud ncols 2 hc (by omega)
    refine ⟨x, y, z, ?_, hx', hy', hz'⟩
    have three : ∀ v : PyVal, checkParam dimensionRef v = .ok () → effectiveDimension ncols v = 3 →
        plotPointCloud ncols cloud v = .ok (.three x y z (List.range cloud.length)) := by
      intro v hv h3'
      unfold plotPointCloud
      rw [hv, ok_bind]
      dsimp only
      rw [h3', if_neg (by omega), if_neg (by omega), if_pos rfl, hx, ok_bind, hy, ok_bind, hz, ok_bind]
    rcases hd with ⟨rfl, -⟩ | ⟨rfl, -⟩ | ⟨rfl, h3⟩
    · exact three .none c0 (by simp [effectiveDimension, h3])
    · exact absurd rfl h.1
    · exact three _ c3 rfl

/-- **C107.** Asking for more dimensions than coordinates, or for a number of dimensions other than 2 and 3, gives a `ValueError`. -/
theorem C107_rejected (ncols : Nat) (cloud : List (List α)) (n : Int) (h : (ncols : Int) < n ∨ (n ≠ 2 ∧ n ≠ 3)) : plotPointCloud ncols cloud (.int n) = .error .valueError := by
  by_cases h23 : n = 2 ∨ n = 3
  · have hc : checkParam dimensionRef (.int n) = .ok () := by
      rcases h23 with rfl | rfl <;> decide +kernel
    have hl : (ncols : Int) < n := by
      rcases h with h | h
      · exact h
      · omega
    unfold plotPointCloud
    rw [hc, ok_bind]
    exact if_pos hl
  · have hc : checkParam dimensionRef (.int n) = .error .valueError := by
      simp [checkParam, dimensionRef, single, typeOk, isinstanceSpec, isinstance, declaredContainer, specIsContainer, isContainer, typesTuple, admCheck, h23]
    unfold plotPointCloud
    rw [hc]
    rfl

/-- **C107, false for point clouds with one coordinate.** Without a choice of `dimension` no figure is made, and the function ends with an `UnboundLocalError` instead of a figure or a
message about the number of coordinates. -/
theorem C107_refuted_one_coordinate (cloud : List (List α)) : plotPointCloud 1 cloud .none = .error .nameError := rfl

end Cloud

example : plotPointCloud 4 [[1, 2, 3, 4], [5, 6, 7, 8]] .none = .ok (.three [1, 5] [2, 6] [3, 7] [0, 1]) := by decide +kernel
example : plotPointCloud 4 [[1, 2, 3, 4], [5, 6, 7, 8]] (.int 2) = .ok (.two [1, 5] [2, 6] [0, 1]) := by decide +kernel

end Gtda.Plotting
